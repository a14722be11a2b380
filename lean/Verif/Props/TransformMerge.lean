import Verif.Props.MergeCommutes
import Verif.Proofs.Blind

/-!
# C104: transforming the files before merging them or the merged file
-/

namespace Spoc.Props

open Getopt Cmd Main Spec Spec.Cmd Text
open Transform (applyOps parseCommand Op Blind applyAll_forall₂)
open Io (hdr hdr_write writeFile_uncompressed_eq)

/-- What the transform application does to the bytes of an uncompressed file. -/
theorem apply_written (b : Build) (z : Zlib) (env : Transform.Env) (f : SpocFile) (hf : Writable f) (hc : f.compressed = false) (tl : Bytes)
    (cs : List Transform.Command) (seed : Nat) (bs : Bytes) :
    Transform.apply b env { rest := (Io.writeFile b z f).bytes ++ tl } cs seed = ⟨bs, .ok ()⟩ ↔
      ∃ ops qs, cs.mapM (parseCommand b env seed f.extraFields) = .ok ops ∧ applyAll ops 0 f.prs = .ok qs
        ∧ bs = (hdr f).bytes ++ qs.flatMap PointRecord.bytes := by
  have hv := (uniform_iff f).mp hf.uniform
  rw [writeFile_uncompressed_eq b z hc hv hf.wkt, apply_ok]
  have hr : Header.read { rest := (hdr f).bytes ++ f.prs.flatMap PointRecord.bytes ++ tl }
      = .ok (hdr f, { rest := f.prs.flatMap PointRecord.bytes ++ tl }) := by
    rw [List.append_assoc]
    exact read_hdr hf _
  have hrec : readRecords (hdr f).extraFields.toNat (hdr f).totalPoints.toNat { rest := f.prs.flatMap PointRecord.bytes ++ tl } = f.prs := by
    rw [hdr_total hf, hdr_extra hf]
    exact readRecords_bytes _ _ ((Io.isValid_iff f).mp hv) tl
  constructor
  · rintro ⟨-, h, s', ops, qs, h1, h2, h3, h4, h5⟩
    rw [hr] at h1
    obtain ⟨rfl, rfl⟩ := Prod.mk.inj (Res.ok.inj h1)
    rw [hdr_extra hf] at h3
    rw [hrec] at h4
    exact ⟨ops, qs, h3, h4, h5⟩
  · rintro ⟨ops, qs, h3, h4, h5⟩
    exact ⟨fun _ => rfl, hdr f, _, ops, qs, hr, by simp [hdr, hc], by rw [hdr_extra hf]; exact h3, by rw [hrec]; exact h4, h5⟩

/-- The same file with points that have been changed. -/
theorem changed {b : Build} {z : Zlib} {env : Transform.Env} {seed : Nat} {cs : List Transform.Command} {f : SpocFile} {ops : List Op}
    {qs : List PointRecord} (hf : Survives z f) (hc : f.compressed = false)
    (hops : cs.mapM (parseCommand b env seed f.extraFields) = .ok ops) (hall : applyAll ops 0 f.prs = .ok qs) :
    Survives z { f with prs := qs }
      ∧ Io.writeFile b z { f with prs := qs } = ⟨(hdr f).bytes ++ qs.flatMap PointRecord.bytes, .ok ()⟩ := by
  obtain ⟨hl, hq⟩ := (applyAll_ok ops 0 f.prs qs).mp hall
  have hx : ∀ (i : Nat) (q : PointRecord), qs[i]? = some q → ∃ r, f.prs[i]? = some r ∧ q.extra.length = r.extra.length := by
    intro i q hi
    have hlt : i < f.prs.length := by
      rw [← hl]
      exact (List.getElem?_eq_some_iff.mp hi).1
    obtain ⟨q', h1, h2⟩ := hq i f.prs[i] (List.getElem?_eq_getElem hlt)
    rw [hi] at h1
    obtain rfl := Option.some.inj h1
    exact ⟨_, List.getElem?_eq_getElem hlt, ops_keep_extra hops h2⟩
  have hx' : ∀ q ∈ qs, ∃ r ∈ f.prs, q.extra.length = r.extra.length := by
    intro q h
    obtain ⟨i, hi⟩ := List.mem_iff_getElem?.mp h
    obtain ⟨r, h1, h2⟩ := hx i q hi
    exact ⟨r, List.mem_of_getElem? h1, h2⟩
  have hw : Writable { f with prs := qs } := by
    refine ⟨hf.1.major, hf.1.minor, hf.1.wkt, ?_, ?_, ?_⟩
    · intro q hq r hr
      obtain ⟨q', a1, a2⟩ := hx' q hq
      obtain ⟨r', b1, b2⟩ := hx' r hr
      rw [a2, b2]
      exact hf.1.uniform q' a1 r' b1
    · intro q hq
      obtain ⟨q', a1, a2⟩ := hx' q hq
      rw [a2]
      exact hf.1.extra q' a1
    · show qs.length < _
      rw [hl]
      exact hf.1.count
  refine ⟨⟨hw, fun _ q hq => ?_, fun h => absurd (hc.symm.trans h) (by simp)⟩, ?_⟩
  · obtain ⟨q', a1, a2⟩ := hx' q hq
    rw [a2]
    exact hf.2.1 hc q' a1
  · have e : hdr { f with prs := qs } = hdr f := by
      have he : SpocFile.extraFields { f with prs := qs } = f.extraFields := by
        rw [Io.extraFields_eq, Io.extraFields_eq]
        show (qs.head?.map _).getD 0 = _
        cases hqs : qs with
        | nil =>
          rw [hqs] at hl
          rw [List.eq_nil_of_length_eq_zero hl.symm]
        | cons q l =>
          obtain ⟨r, h1, h2⟩ := hx 0 q (by rw [hqs]; rfl)
          rw [List.head?_eq_getElem? (l := f.prs), h1]
          simpa using h2
      unfold hdr
      rw [he]
      simp only [hl]
    rw [writeFile_uncompressed_eq b z (by exact hc) ((uniform_iff _).mp hw.uniform) hw.wkt, e]

/-- The commands of a command line. -/
def commandsOf (os : List (String × Str)) : List Transform.Command := os.map (fun o => ⟨o.1, o.2⟩)

/-- A run on a file is `apply` on its content. -/
theorem transform_run (p : Params) (w : World) (argv : List Str) (os : List (String × Str)) (hopt : Cmd.transform.options argv = os)
    (hne : os ≠ []) (hos : ∀ o ∈ os, o.1 ∈ commandOptions) (i o : Str) (hops : Cmd.transform.operands argv = [i, o]) (hi : i ≠ [])
    (hio : i ≠ o) (x : Tile.File) (hx : w.fs i = some x) (hr : x.readable = true) :
    Name.transform.run p argv w = outputStream w o (Transform.apply p.build p.env { rest := x.content } (commandsOf os) 0) := by
  have hin : inputStream w i = .ok { rest := x.content } := by simp [inputStream, hi, openRead, hx, hr]
  have he : (decide (i = o)) = false := by simpa using hio
  have ha : Transform.getArgs (Cmd.transform.options argv) {} = .ok { commands := commandsOf os } := by
    rw [hopt, getArgs_commands os {} hos]
    rfl
  have hk : (commandsOf os).isEmpty = false := by simpa [commandsOf] using hne
  simp only [Name.run, Main.transform, transformArgs, withOperands, ha, hops, inOut, Res.ok_bind, hk, hin, he, Bool.and_false,
    Bool.false_eq_true, if_false]
  rfl

/-- A run on the standard input is `apply` on it. -/
theorem transform_stdin (p : Params) (w : World) (argv : List Str) (os : List (String × Str)) (hopt : Cmd.transform.options argv = os)
    (hne : os ≠ []) (hos : ∀ o ∈ os, o.1 ∈ commandOptions) (hops : Cmd.transform.operands argv = []) :
    Name.transform.run p argv w = outputStream w [] (Transform.apply p.build p.env w.stdin (commandsOf os) 0) := by
  have ha : Transform.getArgs (Cmd.transform.options argv) {} = .ok { commands := commandsOf os } := by
    rw [hopt, getArgs_commands os {} hos]
    rfl
  have hk : (commandsOf os).isEmpty = false := by simpa [commandsOf] using hne
  simp only [Name.run, Main.transform, transformArgs, withOperands, ha, hops, inOut, Res.ok_bind, hk, inputStream, List.isEmpty_nil, if_true,
    Bool.false_eq_true, if_false, Bool.not_true, Bool.false_and]
  rfl

/-- The file holds an uncompressed cloud as it is written, and perhaps something behind it. -/
def Holds (p : Params) (fs : Tile.FS) (n : Str) (f : SpocFile) : Prop :=
  f.compressed = false ∧ Survives p.zlib f
    ∧ ∃ x tl, fs n = some x ∧ x.readable = true ∧ x.content = (Io.writeFile p.build p.zlib f).bytes ++ tl

theorem holds_cloud {p : Params} (hz : p.zlib.Correct) {fs : Tile.FS} {n : Str} {f : SpocFile} (h : Holds p fs n f) : HasCloud p fs n f := by
  obtain ⟨-, hs, x, tl, h1, h2, h3⟩ := h
  exact ⟨x, _, h1, h2, by rw [h3]; exact (survives_roundtrip p.build p.zlib hz f hs).2 tl⟩

/-- What a successful run tells about the commands, and what the run does in other surroundings. -/
theorem transform_makes (p : Params) (hz : p.zlib.Correct) (w : World) (argv : List Str) (os : List (String × Str))
    (hopt : Cmd.transform.options argv = os) (hne : os ≠ []) (hos : ∀ o ∈ os, o.1 ∈ commandOptions) (i o : Str)
    (hops : Cmd.transform.operands argv = [i, o]) (hi : i ≠ []) (ho : o ≠ []) (hio : i ≠ o) (f : SpocFile) (hf : Holds p w.fs i f)
    (hok : (Name.transform.run p argv w).res = .ok 0) :
    ∃ ops qs, (commandsOf os).mapM (parseCommand p.build p.env 0 f.extraFields) = .ok ops ∧ applyAll ops 0 f.prs = .ok qs
      ∧ ∀ w' : World, w'.fs i = w.fs i → CanReplace w' o → Makes .transform p w' argv o { f with prs := qs } := by
  obtain ⟨hu, hs, x, tl, h1, h2, h3⟩ := hf
  have hrun : ∀ w' : World, w'.fs i = w.fs i →
      Name.transform.run p argv w' = outputStream w' o (Transform.apply p.build p.env { rest := x.content } (commandsOf os) 0) :=
    fun w' e => transform_run p w' argv os hopt hne hos i o hops hi hio x (e.trans h1) h2
  have hres : ∃ bs, Transform.apply p.build p.env { rest := (Io.writeFile p.build p.zlib f).bytes ++ tl } (commandsOf os) 0 = ⟨bs, .ok ()⟩ := by
    rw [hrun w rfl, h3] at hok
    generalize Transform.apply p.build p.env { rest := (Io.writeFile p.build p.zlib f).bytes ++ tl } (commandsOf os) 0 = r at hok
    obtain ⟨bs, r⟩ := r
    have ho' : o.isEmpty = false := by simpa using ho
    unfold outputStream at hok
    simp only [ho', Bool.false_eq_true, if_false] at hok
    split at hok
    · cases r <;> first | exact ⟨bs, rfl⟩ | simp [zero] at hok
    · simp at hok
  obtain ⟨bs, hres⟩ := hres
  obtain ⟨ops, qs, e1, e2, e3⟩ := (apply_written p.build p.zlib p.env f hs.1 hu tl (commandsOf os) 0 bs).mp hres
  obtain ⟨s1, s2⟩ := changed hs hu e1 e2
  refine ⟨ops, qs, e1, e2, fun w' hw hc' => ?_⟩
  refine outputStream_cloud hz ho hc' s1 ?_
  rw [hrun w' hw, h3, hres, e3, s2]

theorem forall₂_right {α β : Type} {R : α → β → Prop} {l : List α} {m : List β} (h : List.Forall₂ R l m) : ∀ b ∈ m, ∃ a ∈ l, R a b := by
  induction h with
  | nil => simp
  | cons e _ ih =>
    intro b hb
    rcases List.mem_cons.mp hb with rfl | hb
    · exact ⟨_, by simp, e⟩
    · obtain ⟨a, ha, e'⟩ := ih b hb
      exact ⟨a, by simp [ha], e'⟩

theorem mergedPoints_forall₂ {R : PointRecord → PointRecord → Prop} (hR : ∀ q r id, R q r → R { q with p := id } { r with p := id })
    (id : Nat → UInt32) {fs gs : List SpocFile} (h : List.Forall₂ (fun f g => List.Forall₂ R f.prs g.prs) fs gs) :
    List.Forall₂ R (mergedPoints id fs) (mergedPoints id gs) := by
  unfold mergedPoints
  induction h generalizing id with
  | nil => exact .nil
  | cons h _ ih =>
    rw [List.mapIdx_cons, List.mapIdx_cons, List.flatten_cons, List.flatten_cons]
    refine List.rel_append ?_ (ih (fun i => id (i + 1)))
    rw [List.forall₂_map_left_iff, List.forall₂_map_right_iff]
    exact h.imp fun q r => hR q r _

theorem parse_extra (p : Params) (e e' : Nat) (os : List (String × Str)) :
    (commandsOf os).mapM (parseCommand p.build p.env 0 e) = (commandsOf os).mapM (parseCommand p.build p.env 0 e') := by
  rw [show parseCommand p.build p.env 0 e = parseCommand p.build p.env 0 e' from funext (Transform.parseCommand_extra p.build p.env 0 e e')]

theorem blind_all (p : Params) (os : List (String × Str)) (hos : ∀ o ∈ os, o.1 ∈ commandOptions)
    (hid : ∀ o ∈ os, ∀ fs, Named o.1 o.2 fs ∨ Uses o.1 o.2 fs → Field.p ∉ fs) {ef : Nat} {ops : List Op}
    (h : (commandsOf os).mapM (parseCommand p.build p.env 0 ef) = .ok ops) : ∀ op ∈ ops, Blind op := by
  intro op hop
  obtain ⟨c, hc, e⟩ := forall₂_right (mapM_eq_ok.mp h) op hop
  obtain ⟨o, ho, rfl⟩ := List.mem_map.mp hc
  exact Transform.blind_command p.build p.env 0 ef ⟨o.1, o.2⟩ op (hos o ho) e (hid o ho)

/-- A run on a file succeeds exactly if all commands make sense and can be carried out for all points. -/
theorem transform_succeeds (p : Params) (w : World) (argv : List Str) (os : List (String × Str))
    (hopt : Cmd.transform.options argv = os) (hne : os ≠ []) (hos : ∀ o ∈ os, o.1 ∈ commandOptions) (i o : Str)
    (hops : Cmd.transform.operands argv = [i, o]) (hi : i ≠ []) (hio : i ≠ o) (f : SpocFile) (hf : Holds p w.fs i f)
    (hc : CanReplace w o) :
    (Name.transform.run p argv w).res = .ok 0 ↔
      ∃ ops qs, (commandsOf os).mapM (parseCommand p.build p.env 0 f.extraFields) = .ok ops ∧ applyAll ops 0 f.prs = .ok qs := by
  obtain ⟨hu, hs, x, tl, h1, h2, h3⟩ := hf
  rw [transform_run p w argv os hopt hne hos i o hops hi hio x h1 h2, h3]
  have key : ∀ r : Out Unit, (outputStream w o r).res = .ok 0 ↔ ∃ bs, r = ⟨bs, .ok ()⟩ := by
    rintro ⟨bs, r⟩
    have hz : ∀ r : Res Unit, zero r = .ok 0 ↔ r = .ok () := by intro r; cases r <;> simp [zero]
    unfold outputStream
    split
    · simp [hz]
    · unfold CanReplace at hc
      unfold Tile.openWrite
      split at hc
      · rename_i y hy
        simp [hy, hc.1, hz]
      · rename_i hy
        simp [hy, hc, hz]
  rw [key]
  constructor
  · rintro ⟨bs, h⟩
    obtain ⟨ops, qs, e1, e2, -⟩ := (apply_written p.build p.zlib p.env f hs.1 hu tl (commandsOf os) 0 bs).mp h
    exact ⟨ops, qs, e1, e2⟩
  · rintro ⟨ops, qs, e1, e2⟩
    exact ⟨_, (apply_written p.build p.zlib p.env f hs.1 hu tl (commandsOf os) 0 _).mpr ⟨ops, qs, e1, e2, rfl⟩⟩

/-- **C104**: the merged file can be transformed exactly if all files can be. -/
theorem c104_success_of (p : Params) (hz : p.zlib.Correct) (w : World) (os : List (String × Str)) (hne : os ≠ [])
    (hos : ∀ o ∈ os, o.1 ∈ commandOptions) (hid : ∀ o ∈ os, ∀ fs, Named o.1 o.2 fs ∨ Uses o.1 o.2 fs → Field.p ∉ fs)
    (jobs : List Job) (hsep : Separate jobs) (h2 : 2 ≤ jobs.length)
    (hjobs : ∀ j ∈ jobs, Cmd.transform.options j.argv = os ∧ Cmd.transform.operands j.argv = [j.input, j.output] ∧ j.input ≠ []
      ∧ Holds p w.fs j.input j.before ∧ CanReplace w j.output)
    (f : SpocFile) (fs : List SpocFile) (hf : jobs.map (·.before) = f :: fs) (hu : Uniform (allPoints (f :: fs)))
    (asked : Option Nat) (ha : ∀ n ∈ asked, n < 2 ^ 31) (quiet : Bool) (raw rest : List Str)
    (ho1 : Cmd.merge.options raw = mergeOptions quiet asked) (hn1 : Cmd.merge.operands raw = jobs.map (·.input))
    (ho3 : Cmd.transform.options rest = os) (hn3 : Cmd.transform.operands rest = [])
    (hs : Survives p.zlib (mergedCloud asked f fs))
    (w' : World) (hw : w'.stdin = { rest := (Name.merge.run p raw w).out }) :
    (Name.transform.run p rest w').res = .ok 0 ↔ ∀ j ∈ jobs, (Name.transform.run p j.argv w).res = .ok 0 := by
  have hmc : (mergedCloud asked f fs).compressed = false := by
    have : f.compressed = false := by
      cases jobs with
      | nil => simp at h2
      | cons j l =>
        rw [List.map_cons, List.cons.injEq] at hf
        rw [← hf.1]
        exact (hjobs j (by simp)).2.2.2.1.1
    show List.all _ _ = false
    rw [List.all_cons, this]
    rfl
  obtain ⟨a1, -⟩ := survives_roundtrip p.build p.zlib hz _ hs
  have hfs : fs ≠ [] := by
    rintro rfl
    have := congrArg List.length hf
    simp at this
    omega
  obtain ⟨-, c2⟩ := merge_bytes p w raw quiet asked ha ho1 f fs
    (by
      rw [hn1, ← hf, List.forall₂_map_left_iff, List.forall₂_map_right_iff, List.forall₂_same]
      exact fun j hj => holds_cloud hz (hjobs j hj).2.2.2.1) hfs hu a1
  have hmerged : (Name.transform.run p rest w').res = .ok 0 ↔ ∃ ops qs, (commandsOf os).mapM (parseCommand p.build p.env 0 0) = .ok ops
      ∧ List.Forall₂ (fun p q => applyOps 0 ops p = .ok q) (mergedCloud asked f fs).prs qs := by
    have hzr : ∀ r : Res Unit, zero r = .ok 0 ↔ r = .ok () := by intro r; cases r <;> simp [zero]
    rw [transform_stdin p w' rest os ho3 hne hos hn3, hw, c2]
    have e : ∀ r : Out Unit, (outputStream w' [] r).res = .ok 0 ↔ ∃ bs, r = ⟨bs, .ok ()⟩ := by
      rintro ⟨bs, r⟩
      simp [outputStream, hzr]
    rw [e]
    have := fun bs => apply_written p.build p.zlib p.env _ hs.1 hmc [] (commandsOf os) 0 bs
    simp only [List.append_nil] at this
    simp only [this, parse_extra p _ 0 os]
    constructor
    · rintro ⟨bs, ops, qs, e1, e2, -⟩
      exact ⟨ops, qs, e1, (applyAll_forall₂ (blind_all p os hos hid e1) 0 _ _).mp e2⟩
    · rintro ⟨ops, qs, e1, e2⟩
      exact ⟨_, ops, qs, e1, (applyAll_forall₂ (blind_all p os hos hid e1) 0 _ _).mpr e2, rfl⟩
  have hsingle : ∀ j ∈ jobs, (Name.transform.run p j.argv w).res = .ok 0 ↔ ∃ ops qs,
      (commandsOf os).mapM (parseCommand p.build p.env 0 0) = .ok ops
      ∧ List.Forall₂ (fun p q => applyOps 0 ops p = .ok q) j.before.prs qs := by
    intro j hj
    obtain ⟨k1, k2, k3, k4, k5⟩ := hjobs j hj
    rw [transform_succeeds p w j.argv os k1 hne hos j.input j.output k2 k3 (hsep.2 j hj j hj) j.before k4 k5, parse_extra p _ 0 os]
    refine exists_congr fun ops => exists_congr fun qs => and_congr_right fun e1 => ?_
    exact applyAll_forall₂ (blind_all p os hos hid e1) 0 _ _
  have total : ∀ (ops : List Op) (l : List PointRecord), (∃ qs, List.Forall₂ (fun p q => applyOps 0 ops p = .ok q) l qs)
      ↔ ∀ q ∈ l, ∃ r, applyOps 0 ops q = .ok r := by
    intro ops l
    induction l with
    | nil => simp
    | cons q l ih =>
      rw [List.forall_mem_cons, ← ih]
      constructor
      · rintro ⟨_, _ | ⟨h, h'⟩⟩
        exact ⟨⟨_, h⟩, _, h'⟩
      · rintro ⟨⟨r, h⟩, qs, h'⟩
        exact ⟨_, .cons h h'⟩
  rw [hmerged]
  simp only [exists_and_left, total]
  constructor
  · rintro ⟨ops, e1, e2⟩ j hj
    rw [hsingle j hj]
    refine ⟨ops, ?_⟩
    rw [exists_and_left, total]
    refine ⟨e1, fun q hq => ?_⟩
    have hq' : q ∈ allPoints (f :: fs) := List.mem_flatMap.mpr ⟨_, hf ▸ List.mem_map_of_mem hj, hq⟩
    have h3 : withoutId q ∈ (mergedPoints (idOf asked) (f :: fs)).map withoutId := by
      rw [mergedPoints_withoutId]
      exact List.mem_map_of_mem hq'
    obtain ⟨r, hr, e⟩ := List.mem_map.mp h3
    obtain ⟨r', hr'⟩ := e2 r hr
    have e' : { r with p := q.p } = q := by
      have := congrArg (fun a : PointRecord => { a with p := q.p }) e
      exact this
    have := (Transform.blind_ops (blind_all p os hos hid e1)).id 0 r r' q.p hr'
    rw [e'] at this
    exact ⟨_, this⟩
  · intro h
    obtain ⟨j, hj⟩ : ∃ j, j ∈ jobs := List.exists_mem_of_ne_nil _ (by rintro rfl; simp at h2)
    obtain ⟨ops, _, e1, -⟩ := (hsingle j hj).mp (h j hj)
    refine ⟨ops, e1, fun q hq => ?_⟩
    have h3 : withoutId q ∈ (allPoints (f :: fs)).map withoutId := by
      rw [← mergedPoints_withoutId (idOf asked)]
      exact List.mem_map_of_mem hq
    obtain ⟨r, hr, e⟩ := List.mem_map.mp h3
    obtain ⟨g, hg, hr⟩ := List.mem_flatMap.mp hr
    rw [← hf] at hg
    obtain ⟨k, hk, rfl⟩ := List.mem_map.mp hg
    obtain ⟨ops', qs, e1', e2'⟩ := (hsingle k hk).mp (h k hk)
    rw [e1] at e1'
    obtain rfl := Res.ok.inj e1'
    obtain ⟨r', hr'⟩ := (total ops _).mp ⟨qs, e2'⟩ r hr
    have e' : { r with p := q.p } = q := by
      have := congrArg (fun a : PointRecord => { a with p := q.p }) e
      exact this
    have := (Transform.blind_ops (blind_all p os hos hid e1)).id 0 r r' q.p hr'
    rw [e'] at this
    exact ⟨_, this⟩

/-- **C104**: transforming each file and merging the results writes the very bytes that merging the files and transforming what
merge writes does, when no command looks at or changes the point ids and every single file can be transformed.  (C104 without the condition on the merged file is `c104_transform_merge`.) -/
theorem c104_transform_merge_of (p : Params) (hz : p.zlib.Correct) (w : World) (os : List (String × Str)) (hne : os ≠ [])
    (hos : ∀ o ∈ os, o.1 ∈ commandOptions) (hid : ∀ o ∈ os, ∀ fs, Named o.1 o.2 fs ∨ Uses o.1 o.2 fs → Field.p ∉ fs)
    (jobs : List Job) (hsep : Separate jobs) (h2 : 2 ≤ jobs.length)
    (hjobs : ∀ j ∈ jobs, Cmd.transform.options j.argv = os ∧ Cmd.transform.operands j.argv = [j.input, j.output] ∧ j.input ≠ []
      ∧ j.output ≠ [] ∧ Holds p w.fs j.input j.before ∧ CanReplace w j.output ∧ Makes .transform p w j.argv j.output j.made)
    (f : SpocFile) (fs : List SpocFile) (hf : jobs.map (·.before) = f :: fs) (hu : Uniform (allPoints (f :: fs)))
    (asked : Option Nat) (ha : ∀ n ∈ asked, n < 2 ^ 31) (q1 q2 : Bool) (raw moved rest : List Str)
    (ho1 : Cmd.merge.options raw = mergeOptions q1 asked) (hn1 : Cmd.merge.operands raw = jobs.map (·.input))
    (ho2 : Cmd.merge.options moved = mergeOptions q2 asked) (hn2 : Cmd.merge.operands moved = jobs.map (·.output))
    (ho3 : Cmd.transform.options rest = os) (hn3 : Cmd.transform.operands rest = [])
    (hs : Survives p.zlib (mergedCloud asked f fs))
    (w' : World) (hw : w'.stdin = { rest := (Name.merge.run p raw w).out }) :
    (Name.merge.run p raw w).res = .ok 0 ∧ (Name.transform.run p rest w').res = .ok 0
      ∧ (Name.merge.run p moved (afterAll .transform p jobs w)).res = .ok 0
      ∧ (Name.merge.run p moved (afterAll .transform p jobs w)).out = (Name.transform.run p rest w').out := by
  -- what each run does
  have each : ∀ j ∈ jobs, ∃ ops qs, (commandsOf os).mapM (parseCommand p.build p.env 0 j.before.extraFields) = .ok ops
      ∧ applyAll ops 0 j.before.prs = .ok qs ∧ j.made = { j.before with prs := qs }
      ∧ ∀ w' : World, w'.fs j.input = w.fs j.input → CanReplace w' j.output → Makes .transform p w' j.argv j.output j.made := by
    intro j hj
    obtain ⟨k1, k2, k3, k4, k5, k6, k7⟩ := hjobs j hj
    obtain ⟨ops, qs, e1, e2, e3⟩ := transform_makes p hz w j.argv os k1 hne hos j.input j.output k2 k3 k4 (hsep.2 j hj j hj) j.before k5 k7.1
    have hmade : j.made = { j.before with prs := qs } := by
      obtain ⟨x, s, a1, a2, a3⟩ := (e3 w rfl k6).2.2.1
      obtain ⟨x', s', b1, b2, b3⟩ := k7.2.2.1
      rw [a1] at b1
      obtain rfl := Option.some.inj b1
      rw [a3] at b3
      exact (Prod.mk.inj (Res.ok.inj b3)).1.symm
    exact ⟨ops, qs, e1, e2, hmade, by rw [hmade]; exact e3⟩
  have blind := fun {ef ops} => blind_all (ef := ef) (ops := ops) p os hos hid
  -- the operations are the same for all files
  obtain ⟨ops, hops, hall⟩ : ∃ ops, (commandsOf os).mapM (parseCommand p.build p.env 0 (mergedCloud asked f fs).extraFields) = .ok ops
      ∧ ∀ j ∈ jobs, List.Forall₂ (fun p q => applyOps 0 ops p = .ok q) j.before.prs j.made.prs := by
    obtain ⟨j, hj⟩ : ∃ j, j ∈ jobs := List.exists_mem_of_ne_nil _ (by rintro rfl; simp at h2)
    obtain ⟨ops, qs, e1, -⟩ := each j hj
    refine ⟨ops, (parse_extra p _ _ os).trans e1, fun k hk => ?_⟩
    obtain ⟨ops', qs', d1, d2, d3, -⟩ := each k hk
    rw [parse_extra p _ j.before.extraFields os, e1] at d1
    obtain rfl := Res.ok.inj d1
    rw [d3]
    exact (applyAll_forall₂ (blind e1) 0 _ _).mp d2
  have hfs : fs ≠ [] := by
    rintro rfl
    have := congrArg List.length hf
    simp at this
    omega
  obtain ⟨g, gs, hg⟩ : ∃ g gs, jobs.map (·.made) = g :: gs := by
    cases jobs with
    | nil => simp at h2
    | cons j l => exact ⟨_, _, rfl⟩
  have hpts : List.Forall₂ (fun p q => applyOps 0 ops p = .ok q) (mergedPoints (idOf asked) (f :: fs)) (mergedPoints (idOf asked) (g :: gs)) := by
    refine mergedPoints_forall₂ (fun q r id h => (Transform.blind_ops (blind hops)).id 0 q r id h) _ ?_
    rw [← hf, ← hg, List.forall₂_map_left_iff, List.forall₂_map_right_iff, List.forall₂_same]
    exact hall
  have hfirst : g.wkt = f.wkt ∧ g.compressed = false ∧ f.compressed = false := by
    cases jobs with
    | nil => simp at h2
    | cons j l =>
      rw [List.map_cons, List.cons.injEq] at hf hg
      obtain ⟨_, _, -, -, e3, -⟩ := each j (by simp)
      obtain ⟨-, -, -, -, k5, -⟩ := hjobs j (by simp)
      rw [← hf.1, ← hg.1, e3]
      exact ⟨rfl, k5.1, k5.1⟩
  have hcloud : mergedCloud asked g gs = { mergedCloud asked f fs with prs := mergedPoints (idOf asked) (g :: gs) } := by
    unfold mergedCloud
    rw [hfirst.1, List.all_cons, List.all_cons, hfirst.2.1, hfirst.2.2]
    rfl
  have hmc : (mergedCloud asked f fs).compressed = false := by
    show List.all _ _ = false
    rw [List.all_cons, hfirst.2.2]
    rfl
  obtain ⟨a1, a2⟩ := survives_roundtrip p.build p.zlib hz _ hs
  have happly := (applyAll_forall₂ (blind hops) 0 (mergedCloud asked f fs).prs _).mpr hpts
  obtain ⟨s1, s2⟩ := changed hs hmc hops happly
  obtain ⟨c1, c2⟩ := merge_bytes p w raw q1 asked ha ho1 f fs
    (by
      rw [hn1, ← hf, List.forall₂_map_left_iff, List.forall₂_map_right_iff, List.forall₂_same]
      exact fun j hj => holds_cloud hz (hjobs j hj).2.2.2.2.1) hfs hu a1
  have hrest : Transform.apply p.build p.env w'.stdin (commandsOf os) 0
      = Io.writeFile p.build p.zlib { mergedCloud asked f fs with prs := mergedPoints (idOf asked) (g :: gs) } := by
    rw [hw, c2, s2, ← List.append_nil (Io.writeFile _ _ _).bytes, apply_written p.build p.zlib p.env _ hs.1 hmc]
    exact ⟨ops, _, hops, happly, rfl⟩
  have hu' : Uniform (allPoints (g :: gs)) := by
    have key : ∀ q ∈ allPoints (g :: gs), ∃ r ∈ mergedPoints (idOf asked) (g :: gs), r.extra = q.extra := by
      intro q hq
      have h3 : withoutId q ∈ (mergedPoints (idOf asked) (g :: gs)).map withoutId := by
        rw [mergedPoints_withoutId]
        exact List.mem_map_of_mem hq
      obtain ⟨r, hr, e⟩ := List.mem_map.mp h3
      have e' : (withoutId r).extra = (withoutId q).extra := congrArg PointRecord.extra e
      exact ⟨r, hr, e'⟩
    intro q hq r hr
    obtain ⟨q', a1, a2⟩ := key q hq
    obtain ⟨r', b1, b2⟩ := key r hr
    rw [← a2, ← b2]
    exact s1.1.uniform q' a1 r' b1
  obtain ⟨e1, e2⟩ := merge_made .transform p w jobs hsep (fun j hj => (hjobs j hj).2.2.2.2.2.1)
    (fun j hj => by
      obtain ⟨_, _, -, -, -, h⟩ := each j hj
      exact h)
    q2 asked ha moved ho2 hn2 g gs hg h2 hu' (by rw [hcloud, s2])
  have hrun := transform_stdin p w' rest os ho3 hne hos hn3
  rw [hrest] at hrun
  have hout : (outputStream w' [] (Io.writeFile p.build p.zlib { mergedCloud asked f fs with prs := mergedPoints (idOf asked) (g :: gs) })).res = .ok 0 := by
    simp only [outputStream, List.isEmpty_nil, if_true, s2]
    rfl
  refine ⟨c1, by rw [hrun]; exact hout, e1, ?_⟩
  rw [e2, hrun, hcloud]
  rfl

/-! ## Examples -/

/-- `transform --set=c,7` on the files `a` and `d`. -/
def exampleTransforms : List Job :=
  [⟨["--set=c,7".toList, ['a'], ['o']], ['a'], ['o'], cloudA, { cloudA with prs := tilePoints.map (fun q => { q with c := 7 }) }⟩,
   ⟨["--set=c,7".toList, ['d'], ['u']], ['d'], ['u'], cloudA, { cloudA with prs := tilePoints.map (fun q => { q with c := 7 }) }⟩]

theorem exampleTransforms_separate : Separate exampleTransforms := by
  refine ⟨by decide, ?_⟩
  intro j hj k hk
  simp only [exampleTransforms, List.mem_cons, List.not_mem_nil, or_false] at hj hk
  rcases hj with rfl | rfl <;> rcases hk with rfl | rfl <;> decide

theorem cloudA_holds : Holds exampleParams exampleDisk.fs ['a'] cloudA ∧ Holds exampleParams exampleDisk.fs ['d'] cloudA :=
  ⟨⟨rfl, cloudA_survives, _, [], rfl, rfl, (List.append_nil _).symm⟩, ⟨rfl, cloudA_survives, _, [], rfl, rfl, (List.append_nil _).symm⟩⟩

theorem example_set (argv : List Str) (i o : Str) (hopt : Cmd.transform.options argv = [("set", "c,7".toList)])
    (hops : Cmd.transform.operands argv = [i, o]) (hi : i ≠ []) (ho : o ≠ []) (hio : i ≠ o)
    (hh : Holds exampleParams exampleDisk.fs i cloudA) (hc : CanReplace exampleDisk o) :
    Makes .transform exampleParams exampleDisk argv o { cloudA with prs := tilePoints.map (fun q => { q with c := 7 }) } := by
  have hp : ∃ ops, (commandsOf [("set", "c,7".toList)]).mapM (parseCommand .release exampleEnv 0 cloudA.extraFields) = .ok ops
      ∧ applyAll ops 0 cloudA.prs = .ok (tilePoints.map (fun q => { q with c := 7 })) := by
    refine ⟨[Transform.setOp ['c'] (num 7) 0], ?_, ?_⟩
    · rfl
    · decide +kernel
  obtain ⟨ops, h1, h2⟩ := hp
  obtain ⟨ops', qs, e1, e2, e3⟩ := transform_makes exampleParams toyZlib_correct exampleDisk argv _ hopt (by simp) (by decide) i o hops hi ho hio
    cloudA hh ((transform_succeeds exampleParams exampleDisk argv _ hopt (by simp) (by decide) i o hops hi hio cloudA hh hc).mpr ⟨ops, _, h1, h2⟩)
  have : ops' = ops := Res.ok.inj (e1.symm.trans h1)
  subst this
  obtain rfl := Res.ok.inj (h2.symm.trans e2)
  exact e3 exampleDisk rfl hc

example (w' : World) (hw : w'.stdin = { rest := (Name.merge.run exampleParams [['a'], ['d']] exampleDisk).out }) :
    (Name.merge.run exampleParams [['o'], ['u']] (afterAll .transform exampleParams exampleTransforms exampleDisk)).out
      = (Name.transform.run exampleParams ["--set=c,7".toList] w').out := by
  refine (c104_transform_merge_of exampleParams toyZlib_correct exampleDisk [("set", "c,7".toList)] (by simp) (by decide) ?_
    exampleTransforms exampleTransforms_separate (by decide) ?_ cloudA [cloudA] rfl
    (by unfold Uniform; decide +kernel) none (by simp) false false [['a'], ['d']] [['o'], ['u']] ["--set=c,7".toList] (by decide +kernel)
    (by decide +kernel) (by decide +kernel) (by decide +kernel) (by decide +kernel) (by decide +kernel)
    (merged_survives _ _ _ rfl (by decide) (by unfold Uniform; decide +kernel) (by decide +kernel) (by decide +kernel)) w' hw).2.2.2
  · intro o ho
    obtain rfl := List.mem_singleton.mp ho
    rintro fs (h | h)
    · rw [Transform.named_first (by simp) h]; decide
    · rw [Transform.uses_set h]; simp
  · intro j hj
    simp only [exampleTransforms, List.mem_cons, List.not_mem_nil, or_false] at hj
    rcases hj with rfl | rfl
    · exact ⟨by decide +kernel, by decide +kernel, by decide, by decide, cloudA_holds.1, rfl,
        example_set _ ['a'] ['o'] (by decide +kernel) (by decide +kernel) (by decide) (by decide) (by decide) cloudA_holds.1 rfl⟩
    · exact ⟨by decide +kernel, by decide +kernel, by decide, by decide, cloudA_holds.2, rfl,
        example_set _ ['d'] ['u'] (by decide +kernel) (by decide +kernel) (by decide) (by decide) (by decide) cloudA_holds.2 rfl⟩

/-- **C104, negation**: merge overwrites the point ids, and a command that looks at them sees different ones. -/
theorem c104_copy_id : ∃ (p : Params) (w : World),
    Cmd.transform.options ["--copy-field=p,c".toList, ['a'], ['o']] = [("copy-field", "p,c".toList)]
      ∧ (Name.merge.run p [['o'], ['u']] (after .transform p ["--copy-field=p,c".toList, ['d'], ['u']]
          (after .transform p ["--copy-field=p,c".toList, ['a'], ['o']] w))).res = .ok 0
      ∧ (Name.transform.run p ["--copy-field=p,c".toList] { w with stdin := { rest := (Name.merge.run p [['a'], ['d']] w).out } }).res = .ok 0
      ∧ (Name.merge.run p [['o'], ['u']] (after .transform p ["--copy-field=p,c".toList, ['d'], ['u']]
          (after .transform p ["--copy-field=p,c".toList, ['a'], ['o']] w))).out
        ≠ (Name.transform.run p ["--copy-field=p,c".toList] { w with stdin := { rest := (Name.merge.run p [['a'], ['d']] w).out } }).out :=
  ⟨exampleParams, exampleDisk, by decide +kernel⟩

/-- **C104, negation**: and one that sets them has no effect before merge. -/
theorem c104_set_id : ∃ (p : Params) (w : World),
    Cmd.transform.options ["--set=p,5".toList, ['a'], ['o']] = [("set", "p,5".toList)]
      ∧ (Name.merge.run p [['o'], ['u']] (after .transform p ["--set=p,5".toList, ['d'], ['u']]
          (after .transform p ["--set=p,5".toList, ['a'], ['o']] w))).res = .ok 0
      ∧ (Name.transform.run p ["--set=p,5".toList] { w with stdin := { rest := (Name.merge.run p [['a'], ['d']] w).out } }).res = .ok 0
      ∧ (Name.merge.run p [['o'], ['u']] (after .transform p ["--set=p,5".toList, ['d'], ['u']]
          (after .transform p ["--set=p,5".toList, ['a'], ['o']] w))).out
        ≠ (Name.transform.run p ["--set=p,5".toList] { w with stdin := { rest := (Name.merge.run p [['a'], ['d']] w).out } }).out :=
  ⟨exampleParams, exampleDisk, by decide +kernel⟩

end Spoc.Props
