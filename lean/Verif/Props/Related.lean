import Verif.Proofs.Related
import Verif.Props.Reordered

/-!
# C131: places and attributes do not influence each other
-/

namespace Spoc.Props

open Getopt Cmd Main Spec Spec.Cmd Text
open Spoc.Related (SameXyz SameRest Paired)

/-- The points of the two clouds are related one by one; the rest is the same. -/
def Matching (R : PointRecord → PointRecord → Prop) (f g : SpocFile) : Prop :=
  g.wkt = f.wkt ∧ g.compressed = f.compressed ∧ List.Forall₂ R f.prs g.prs

/-- The two runs leave clouds with related points in their output files, or they print the same, come to the same end, and change no file. -/
def MatchStep (R : PointRecord → PointRecord → Prop) (p : Params) (w : World) (o o' : Str) (r r' : Result) : Prop :=
  (∃ g g', Matching R g g' ∧ Leaves p w o g r ∧ Leaves p w o' g' r') ∨ (r = r' ∧ r.fs = w.fs)

/-- Whether points are so related has nothing to do with their places. -/
def AboutAttributes (A : PointRecord → PointRecord → Prop) : Prop :=
  ∀ (p q : PointRecord) (x y z x' y' z' : F64), A p q → A { p with x := x, y := y, z := z } { q with x := x', y := y', z := z' }

theorem matching_rel {R : PointRecord → PointRecord → Prop} {p : Params} {fs : Tile.FS} {i i' : Str} {f f' : SpocFile} (h : HasCloud p fs i f)
    (h' : HasCloud p fs i' f') (ht : Matching R f f') : Paired R f f' := by
  obtain ⟨_, _, _, _, h1⟩ := h
  obtain ⟨_, _, _, _, h2⟩ := h'
  have w1 := readable_writable h1
  have w2 := readable_writable h2
  refine ⟨?_, ht.2.2, w1.uniform, w2.uniform⟩
  obtain ⟨a, b, c, d, e⟩ := f
  obtain ⟨a', b', c', d', e'⟩ := f'
  obtain ⟨rfl, rfl, -⟩ := ht
  obtain rfl : a = _ := w1.major
  obtain rfl : b = _ := w1.minor
  obtain rfl : a' = _ := w2.major
  obtain rfl : b' = _ := w2.minor
  rfl

theorem rel_matching {R : PointRecord → PointRecord → Prop} {f g : SpocFile} (h : Paired R f g) : Matching R f g := by
  refine ⟨?_, ?_, h.2.1⟩ <;> rw [h.1]

theorem matchStep_files {R : PointRecord → PointRecord → Prop} {p : Params} {w : World} {i i' o o' : Str} (hi : i ≠ []) (hi' : i' ≠ [])
    (ho : o ≠ []) (ho' : o' ≠ []) (hc : CanReplace w o) (hc' : CanReplace w o') {f f' : SpocFile} (hf : HasCloud p w.fs i f)
    (hf' : HasCloud p w.fs i' f') (change : SpocFile → Res SpocFile) (h : Related.Both (Paired R) (change f) (change f')) :
    MatchStep R p w o o'
      (readThenWrite w i o (fun s => do
        let f ← Apps.fileOf (Io.readFile p.build p.zlib s)
        change f) (Io.writeFile p.build p.zlib))
      (readThenWrite w i' o' (fun s => do
        let f ← Apps.fileOf (Io.readFile p.build p.zlib s)
        change f) (Io.writeFile p.build p.zlib)) := by
  obtain ⟨s, s', h1, h2⟩ := inputStream_cloud hi hf
  obtain ⟨t, t', h3, h4⟩ := inputStream_cloud hi' hf'
  simp only [readThenWrite, h1, h3, Res.ok_bind, Apps.fileOf, h2, h4]
  cases e : change f <;> cases e' : change f' <;> rw [e, e'] at h <;> first | exact False.elim h | skip
  · exact .inl ⟨_, _, rel_matching h, outputStream_cloud_leaves ho hc _, outputStream_cloud_leaves ho' hc' _⟩
  · rw [show _ = _ from h]
    exact .inr ⟨rfl, rfl⟩
  · rw [show _ = _ from h]
    exact .inr ⟨rfl, rfl⟩
  · exact .inr ⟨rfl, rfl⟩
  · exact .inr ⟨rfl, rfl⟩

/-- **C131**, filter: the result depends on the points only as far as the options say.  If the points of two files are related one by one, where
related points have the same class if the options name classes, and are at the same place if the options are about places, then the points of the
two results are related one by one: the same points are kept, in the same order. -/
theorem c131_filter (R : PointRecord → PointRecord → Prop) (p : Params) (w : World) (argv argv' : List Str) (i i' o o' : Str)
    (hopt : Cmd.filter.options argv' = Cmd.filter.options argv) (hops : Cmd.filter.operands argv = [i, o])
    (hops' : Cmd.filter.operands argv' = [i', o'])
    (hclass : (∃ x ∈ Cmd.filter.options argv, x.1 ∈ ["keep-class", "remove-class"]) → ∀ p q, R p q → p.c = q.c)
    (hplace : (∃ x ∈ Cmd.filter.options argv, x.1 ∈ ["unique-xyz", "subsample", "remove-coords"]) → ∀ p q, R p q → SameXyz p q)
    (hi : i ≠ []) (hi' : i' ≠ []) (ho : o ≠ []) (ho' : o' ≠ []) (hc : CanReplace w o) (hc' : CanReplace w o')
    (f f' : SpocFile) (hf : HasCloud p w.fs i f) (hf' : HasCloud p w.fs i' f') (ht : Matching R f f') :
    MatchStep R p w o o' (Name.filter.run p argv w) (Name.filter.run p argv' w) := by
  have hl := matching_rel hf hf' ht
  simp only [Name.run, Main.filter, filterArgs, withOperands, hopt, hops, hops', inOut, Res.ok_bind]
  cases ha : Filter.getArgs (Cmd.filter.options argv) {} with
  | ok a =>
    obtain ⟨k1, k2⟩ := Reordered.getArgs_keeps _ _ ha
    obtain ⟨k3, k4, k5⟩ := Related.getArgs_classes _ _ ha
    simp only [Res.ok_bind]
    by_cases hh : a.help = true
    · simp only [hh, if_true]
      split <;> exact .inr ⟨rfl, rfl⟩
    · simp only [hh, Bool.false_eq_true, if_false]
      split
      · exact .inr ⟨rfl, rfl⟩
      · refine matchStep_files hi hi' ho ho' hc hc' hf hf' (Filter.process p.build p.shuffle a) (Related.process_rel _ _ a (fun h => ?_) (fun h => ?_) hl)
        · apply hclass
          by_contra hn
          push Not at hn
          rcases h with h | h
          · exact h (k3 fun x hx e => hn x hx (by simp [e]))
          · exact h (k4 fun x hx e => hn x hx (by simp [e]))
        · apply hplace
          by_contra hn
          push Not at hn
          rcases h with h | h | h
          · rw [k1 fun x hx e => hn x hx (by simp [e])] at h
            cases h
          · rw [k2 fun x hx e => hn x hx (by simp [e])] at h
            exact absurd h (by decide +kernel)
          · exact h (k5 fun x hx e => hn x hx (by simp [e]))
  | throw e => exact .inr ⟨rfl, rfl⟩
  | ub e => exact .inr ⟨rfl, rfl⟩
  | abort => exact .inr ⟨rfl, rfl⟩
  | hang => exact .inr ⟨rfl, rfl⟩

theorem moved_rel {A : PointRecord → PointRecord → Prop} (hA : AboutAttributes A) {f g : SpocFile} (h : Paired (fun p q => SameXyz p q ∧ A p q) f g)
    (kx ky kz : F64 → F64) :
    Paired (fun p q => SameXyz p q ∧ A p q) { f with prs := f.prs.map fun p => { p with x := kx p.x, y := ky p.y, z := kz p.z } }
      { g with prs := g.prs.map fun p => { p with x := kx p.x, y := ky p.y, z := kz p.z } } := by
  refine ⟨by rw [h.1], ?_, ?_, ?_⟩
  · rw [List.forall₂_map_left_iff, List.forall₂_map_right_iff]
    refine h.2.1.imp fun p q ⟨h1, h2⟩ => ⟨⟨?_, ?_, ?_⟩, hA _ _ _ _ _ _ _ _ h2⟩
    · rw [h1.1]
    · rw [h1.2.1]
    · rw [h1.2.2]
  · intro p hp q hq
    obtain ⟨p, hp', rfl⟩ := List.mem_map.mp hp
    obtain ⟨q, hq', rfl⟩ := List.mem_map.mp hq
    exact h.2.2.1 p hp' q hq'
  · intro p hp q hq
    obtain ⟨p, hp', rfl⟩ := List.mem_map.mp hp
    obtain ⟨q, hq', rfl⟩ := List.mem_map.mp hq
    exact h.2.2.2 p hp' q hq'

theorem subtractMin_rel {A : PointRecord → PointRecord → Prop} (hA : AboutAttributes A) {f g : SpocFile}
    (h : Paired (fun p q => SameXyz p q ∧ A p q) f g) (b : Build) (z : Bool) :
    Related.Both (Paired fun p q => SameXyz p q ∧ A p q) (Tool.subtractMin b f z) (Tool.subtractMin b g z) := by
  rw [Twice.subtractMin_eq b f h.2.2.1 z, Twice.subtractMin_eq b g h.2.2.2 z, ← Related.ofPoints_same (h.2.1.imp fun _ _ h => h.1)]
  exact moved_rel hA h (fun x => F64.sub x _) (fun y => F64.sub y _) (fun v => if z then F64.sub v _ else v)

theorem recenter_rel {A : PointRecord → PointRecord → Prop} (hA : AboutAttributes A) {f g : SpocFile}
    (h : Paired (fun p q => SameXyz p q ∧ A p q) f g) (b : Build) (z : Bool) :
    Related.Both (Paired fun p q => SameXyz p q ∧ A p q) (Tool.recenter b f z) (Tool.recenter b g z) := by
  have e : centred g z = centred f z := by
    unfold centred
    rw [Related.sumOf_same (fun _ _ h => h.1.1) h.2.1, Related.sumOf_same (fun _ _ h => h.1.2.1) h.2.1,
      Related.sumOf_same (fun _ _ h => h.1.2.2) h.2.1, h.2.1.length_eq]
  rw [recenter_eq b f h.2.2.1 z, recenter_eq b g h.2.2.2 z, e]
  exact moved_rel hA h (fun x => F64.sub x _) (fun y => F64.sub y _) (fun v => if z then F64.sub v _ else v)

/-- **C131**, tool: recentering and subtracting the minimum move points at the same places to the same places, and the attributes are carried
along: whatever relation between the attributes of the points holds before, holds after. -/
theorem c131_tool (A : PointRecord → PointRecord → Prop) (hA : AboutAttributes A) (p : Params) (w : World) (argv argv' : List Str) (i i' o o' : Str)
    (hopt : Cmd.tool.options argv' = Cmd.tool.options argv) (hops : Cmd.tool.operands argv = [i, o])
    (hops' : Cmd.tool.operands argv' = [i', o']) (hi : i ≠ []) (hi' : i' ≠ []) (ho : o ≠ []) (ho' : o' ≠ []) (hc : CanReplace w o)
    (hc' : CanReplace w o') (a : Tool.Args) (ha : Tool.getArgs (Cmd.tool.options argv) {} = .ok a)
    (hcmd : a.command.name ∈ ["recenter-xy", "recenter-xyz", "subtract-min-xy", "subtract-min-xyz"])
    (f f' : SpocFile) (hf : HasCloud p w.fs i f) (hf' : HasCloud p w.fs i' f') (ht : Matching (fun p q => SameXyz p q ∧ A p q) f f') :
    MatchStep (fun p q => SameXyz p q ∧ A p q) p w o o' (Name.tool.run p argv w) (Name.tool.run p argv' w) := by
  have hl := matching_rel hf hf' ht
  simp only [List.mem_cons, List.not_mem_nil, or_false] at hcmd
  have hch : Related.Both (Paired fun p q => SameXyz p q ∧ A p q) (Tool.run p.build p.zlib (toolFiles w.fs) a f)
      (Tool.run p.build p.zlib (toolFiles w.fs) a f') := by
    unfold Tool.run
    rcases hcmd with h | h | h | h
    · simp only [h, String.reduceEq, if_false, if_true]
      exact recenter_rel hA hl _ _
    · simp only [h, String.reduceEq, if_false, if_true]
      exact recenter_rel hA hl _ _
    · simp only [h, String.reduceEq, if_false, if_true]
      exact subtractMin_rel hA hl _ _
    · simp only [h, String.reduceEq, if_false, if_true]
      exact subtractMin_rel hA hl _ _
  have hg : (a.command.name = "get-field") = False := by
    rcases hcmd with h | h | h | h <;> rw [h] <;> decide
  simp only [Name.run, Main.tool, toolArgs, withOperands, hopt, hops, hops', inOut, Res.ok_bind, ha]
  by_cases hh : a.help = true
  · right
    simp only [hh, if_true, true_and]
    split <;> rfl
  · simp only [hh, Bool.false_eq_true, if_false]
    split
    · exact .inr ⟨rfl, rfl⟩
    · split
      · exact .inr ⟨rfl, rfl⟩
      · simp only [hg, if_false]
        exact matchStep_files hi hi' ho ho' hc hc' hf hf' _ hch

/-- **C131**, transferring classes: which class a point is given depends on the places of the points and on the classes of the low-resolution
cloud; the other attributes are carried along. -/
theorem c131_upsample (A : PointRecord → PointRecord → Prop) (hA : ∀ (p q : PointRecord) (c : UInt32), A p q → A { p with c := c } { q with c := c })
    (b : Build) (l l' f f' : SpocFile) (r : F64) (hl : Matching (fun p q => SameXyz p q ∧ p.c = q.c) l l') (hv : l'.isValid = l.isValid)
    (hf : Matching (fun p q => SameXyz p q ∧ A p q) f f') (hu : Uniform f'.prs) (g : SpocFile) (n : Nat) (h : Tool.upsample b l f r = .ok (g, n)) :
    ∃ g', Tool.upsample b l' f' r = .ok (g', n) ∧ Matching (fun p q => SameXyz p q ∧ A p q) g g' := by
  obtain ⟨h1, h2, h3, vh, vl, h4, h5, rfl, rfl⟩ := (upsample_iff b l f r g n).mp h
  have sf := hf.2.2.imp (S := SameXyz) fun _ _ h => h.1
  have sl := hl.2.2.imp (S := SameXyz) fun _ _ h => h.1
  refine ⟨{ f' with prs := marked (marks l vl) f'.prs vh }, (upsample_iff b l' f' r _ _).mpr
    ⟨hv ▸ h1, h2, hu, vh, vl, (Related.getIndexes_same sf r) ▸ h4, ?_, ?_, rfl⟩, hf.1, hf.2.1, ?_⟩
  · rw [← Related.ofPoints_same sf, ← Related.getIndexesIn_same sl]
    exact h5
  · have : l'.prs.map (·.c) = l.prs.map (·.c) := by
      have := hl.2.2
      generalize l.prs = ps at this
      generalize l'.prs = qs at this
      induction this with
      | nil => rfl
      | cons h _ ih => rw [List.map_cons, List.map_cons, ih, h.2]
    unfold marks
    rw [this]
  · show List.Forall₂ _ (marked _ f.prs vh) (marked _ f'.prs vh)
    have hm := hf.2.2
    generalize f.prs = ps at hm
    generalize f'.prs = qs at hm
    clear h4 h5 sf sl h hf
    unfold marked
    induction hm generalizing vh with
    | nil => exact .nil
    | cons h _ ih =>
      cases vh with
      | nil => exact .nil
      | cons v vh => exact .cons ⟨by split_ands <;> [exact h.1.1; exact h.1.2.1; exact h.1.2.2], by
        dsimp only
        cases Tool.lastOf (marks l vl) v with
        | none => exact h.2
        | some c => exact hA _ _ c h.2⟩ (ih vh)

/-- **C131**, get-field: what is printed depends on the named field only. -/
theorem c131_get_field (b : Build) (f f' : SpocFile) (fld : Field) (hidx : ∀ n, fld = .e n → n < 2 ^ 31)
    (h : List.Forall₂ (fun p q => fld.get p = fld.get q) f.prs f'.prs) (hget : ∀ p ∈ f.prs, fld.get p ≠ none) :
    Tool.getField b f' fld.name = Tool.getField b f fld.name := by
  have hget' : ∀ q ∈ f'.prs, fld.get q ≠ none := by
    intro q hq
    obtain ⟨i, hi, rfl⟩ := List.getElem_of_mem hq
    have hi' : i < f.prs.length := h.length_eq ▸ hi
    have := h.get hi' hi
    simp only [List.get_eq_getElem] at this
    rw [← this]
    exact hget _ (List.getElem_mem hi')
  rw [Tool.getField_eq b f hidx hget, Tool.getField_eq b f' hidx hget']
  have key : ∀ p q : PointRecord, fld.get p = fld.get q → Tool.fieldText fld p = Tool.fieldText fld q := by
    intro p q e
    cases fld <;> simp only [Tool.fieldText, e]
    · rw [Transform.get_x e]
    · rw [Transform.get_y e]
    · rw [Transform.get_z e]
  have : f'.prs.map (fun p => (Tool.fieldText fld p, ['\n'])) = f.prs.map (fun p => (Tool.fieldText fld p, ['\n'])) := by
    generalize f.prs = ps at h
    generalize f'.prs = qs at h
    clear hget hget'
    induction h with
    | nil => rfl
    | cons h _ ih => rw [List.map_cons, List.map_cons, ih, key _ _ h]
  rw [this]

open Transform in
/-- **C131**, transform, whatever the commands, noise included: if the runs for two files succeed, then from points at the same places come points
at the same places, whatever the attributes, and from points with the same attributes come points with the same attributes, whatever the places. -/
theorem c131_transform (p : Params) (w : World) (argv argv' : List Str) (a : Transform.Args)
    (ha : Transform.getArgs (Cmd.transform.options argv) {} = .ok a) (hopt' : Cmd.transform.options argv' = Cmd.transform.options argv)
    (hv : a.version = false) (hh : a.help = false) (hne : a.commands ≠ []) (i i' o o' : Str)
    (hops : Cmd.transform.operands argv = [i, o]) (hops' : Cmd.transform.operands argv' = [i', o']) (hi : i ≠ [])
    (hi' : i' ≠ []) (ho : o ≠ []) (ho' : o' ≠ []) (hio : i ≠ o) (hio' : i' ≠ o') (hc : CanReplace w o) (hc' : CanReplace w o')
    (f f' : SpocFile) (hf : Holds p w.fs i f) (hf' : Holds p w.fs i' f') (hok : (Name.transform.run p argv w).res = .ok 0)
    (hok' : (Name.transform.run p argv' w).res = .ok 0) :
    ∃ qs qs', Leaves p w o { f with prs := qs } (Name.transform.run p argv w) ∧ Leaves p w o' { f' with prs := qs' } (Name.transform.run p argv' w)
      ∧ (List.Forall₂ SameXyz f.prs f'.prs → List.Forall₂ SameXyz qs qs') ∧ (List.Forall₂ SameRest f.prs f'.prs → List.Forall₂ SameRest qs qs') := by
  obtain ⟨hu, hs, x, tl, x1, x2, x3⟩ := hf
  obtain ⟨hu', hs', x', tl', y1, y2, y3⟩ := hf'
  have run : ∀ {argv : List Str} {i o : Str} {x : Tile.File}, Transform.getArgs (Cmd.transform.options argv) {} = .ok a →
      Cmd.transform.operands argv = [i, o] → i ≠ [] → i ≠ o → w.fs i = some x → x.readable = true →
      Name.transform.run p argv w = outputStream w o (Transform.apply p.build p.env { rest := x.content } a.commands (UInt64.ofInt a.seed).toNat) := by
    intro argv i o x ha hops hi hio hx hr
    have hin : inputStream w i = .ok { rest := x.content } := by simp [inputStream, hi, openRead, hx, hr]
    have he : (decide (i = o)) = false := by simpa using hio
    have hce : a.commands.isEmpty = false := by simpa using hne
    simp only [Name.run, Main.transform, transformArgs, withOperands, ha, hops, inOut, Res.ok_bind, hh, hv, Bool.false_eq_true, if_false, hce, hin, he,
      Bool.and_false]
  have r1 := run ha hops hi hio x1 x2
  have r2 := run (hopt' ▸ ha) hops' hi' hio' y1 y2
  generalize (UInt64.ofInt a.seed).toNat = seed at r1 r2
  have good : ∀ {argv : List Str} {o : Str} {t : IStream}, o ≠ [] → CanReplace w o →
      Name.transform.run p argv w = outputStream w o (Transform.apply p.build p.env t a.commands seed) →
      (Name.transform.run p argv w).res = .ok 0 → (Transform.apply p.build p.env t a.commands seed).res = .ok () := by
    intro argv o t ho hc r hok
    obtain ⟨z, hz, -⟩ := openWrite_readable hc
    have hoe : o.isEmpty = false := by simpa using ho
    rw [r] at hok
    simp only [outputStream, hoe, Bool.false_eq_true, if_false, hz] at hok
    cases hr : (Transform.apply p.build p.env t a.commands seed).res with
    | ok u => rfl
    | _ => rw [hr] at hok; simp [zero] at hok
  have g1 := good ho hc r1 hok
  have g2 := good ho' hc' r2 hok'
  rw [x3] at g1 r1
  rw [y3] at g2 r2
  obtain ⟨ops, qs, t1, t2, t3⟩ := (apply_written p.build p.zlib p.env f hs.1 hu tl a.commands seed _).mp
    (show _ = (⟨_, .ok ()⟩ : Out Unit) by rw [← g1])
  obtain ⟨ops', qs', t1', t2', t3'⟩ := (apply_written p.build p.zlib p.env f' hs'.1 hu' tl' a.commands seed _).mp
    (show _ = (⟨_, .ok ()⟩ : Out Unit) by rw [← g2])
  obtain ⟨-, c1⟩ := changed (b := p.build) hs hu t1 t2
  obtain ⟨-, c2⟩ := changed (b := p.build) hs' hu' t1' t2'
  have e1 : Transform.apply p.build p.env { rest := (Io.writeFile p.build p.zlib f).bytes ++ tl } a.commands seed
      = Io.writeFile p.build p.zlib { f with prs := qs } := by
    rw [c1, ← t3, ← g1]
  have e2 : Transform.apply p.build p.env { rest := (Io.writeFile p.build p.zlib f').bytes ++ tl' } a.commands seed
      = Io.writeFile p.build p.zlib { f' with prs := qs' } := by
    rw [c2, ← t3', ← g2]
  rw [e1] at r1
  rw [e2] at r2
  have k1 := outputStream_cloud_leaves (p := p) ho hc { f with prs := qs }
  have k2 := outputStream_cloud_leaves (p := p) ho' hc' { f' with prs := qs' }
  rw [← r1] at k1
  rw [← r2] at k2
  obtain ⟨m1, m2⟩ := Related.applyAll_keep (Related.parse_keep _ _ _ _ _ t1 t1') t2 t2'
  refine ⟨qs, qs', k1, k2, m1, fun h => m2 ?_ h⟩
  unfold SpocFile.extraFields
  generalize f.prs = ps at h
  generalize f'.prs = rs at h
  cases h with
  | nil => rfl
  | cons h _ => exact congrArg List.length h.2.2.2.2.2.2

/-- **C131**, tile: which point goes to which tile depends on the places only; the attributes are carried along.  (The names of the tiles have to
be new, and the tiles such that they can be written, see C01 and C02.) -/
theorem c131_tile (R : PointRecord → PointRecord → Prop) (hR : ∀ p q, R p q → SameXyz p q) (p : Params) (w : World) (argv argv' : List Str)
    (hopt : Cmd.tile.options argv' = Cmd.tile.options argv) (i i' : Str)
    (hops : Cmd.tile.operands argv = [i]) (hops' : Cmd.tile.operands argv' = [i']) (hi : i ≠ []) (hi' : i' ≠ []) (f f' : SpocFile)
    (hf : HasCloud p w.fs i f) (hf' : HasCloud p w.fs i' f') (ht : Matching R f f') (a : Tile.Args)
    (ha : Tile.getArgs (Cmd.tile.options argv) {} = .ok a) (hv : a.version = false) (hh : a.help = false) {sx sy : F64}
    {numbers : List UInt64} (hsz : Tile.tileSizes a (Extent.ofPoints f.prs) = .ok (sx, sy))
    (hn : Tile.getTileIndexes f.prs (Extent.ofPoints f.prs) sx sy = .ok numbers)
    (hpre : (if a.pre.isEmpty then Tile.stem i else a.pre) ≠ []) (hpre' : (if a.pre.isEmpty then Tile.stem i' else a.pre) ≠ [])
    (hnew : ∀ k ∈ numbers, w.fs (tileName { a with fn := i } f k) = none ∧ w.canCreate (tileName { a with fn := i } f k) = true)
    (hnew' : ∀ k ∈ numbers, w.fs (tileName { a with fn := i' } f' k) = none ∧ w.canCreate (tileName { a with fn := i' } f' k) = true)
    (hz : p.zlib.Correct) (hw : ∀ k ∈ numbers, Survives p.zlib (tileOf f numbers k)) (hw' : ∀ k ∈ numbers, Survives p.zlib (tileOf f' numbers k)) :
    (Name.tile.run p argv w).res = .ok 0 ∧ (Name.tile.run p argv' w).res = .ok 0
      ∧ ∀ k ∈ numbers, ∃ g g', Matching R g g' ∧ g = tileOf f numbers k
          ∧ content (Name.tile.run p argv w).fs (tileName { a with fn := i } f k) = some (Io.writeFile p.build p.zlib g).bytes
          ∧ content (Name.tile.run p argv' w).fs (tileName { a with fn := i' } f' k) = some (Io.writeFile p.build p.zlib g').bytes := by
  obtain ⟨x, s, x1, x2, x3⟩ := hf
  obtain ⟨x', s', y1, y2, y3⟩ := hf'
  have hin : tileInput i w.stdin w.fs = some { rest := x.content } := by
    have hi' : i.isEmpty = false := by simpa using hi
    simp only [tileInput, hi', Bool.false_eq_true, if_false, x1, x2, if_true]
  have hin' : tileInput i' w.stdin w.fs = some { rest := x'.content } := by
    have hi' : i'.isEmpty = false := by simpa using hi'
    simp only [tileInput, hi', Bool.false_eq_true, if_false, y1, y2, if_true]
  have sf := ht.2.2.imp (S := SameXyz) fun _ _ h => hR _ _ h
  have hsz' : Tile.tileSizes a (Extent.ofPoints f'.prs) = .ok (sx, sy) := by
    rw [← Related.ofPoints_same sf]
    exact hsz
  have hn' : Tile.getTileIndexes f'.prs (Extent.ofPoints f'.prs) sx sy = .ok numbers := by
    rw [← hn, ← Related.ofPoints_same sf]
    unfold Tile.getTileIndexes
    refine congrArg _ (funext fun st => (Related.mapM_same (fun p q h => ?_) sf).symm)
    rw [h.1, h.2.1]
  have hpn : ∀ k, Matching R (tileOf f numbers k) (tileOf f' numbers k) := by
    intro k
    refine ⟨ht.1, ht.2.1, ?_⟩
    show List.Forall₂ R (pointsNumbered f.prs numbers k) (pointsNumbered f'.prs numbers k)
    have hm := ht.2.2
    generalize f.prs = ps at hm
    generalize f'.prs = qs at hm
    clear hn hn' hnew hnew' hw hw'
    unfold pointsNumbered
    induction hm generalizing numbers with
    | nil => exact .nil
    | cons h _ ih =>
      cases numbers with
      | nil => exact .nil
      | cons n ns =>
        simp only [List.zip_cons_cons, List.filter_cons]
        split
        · exact .cons h ih
        · exact ih
  obtain ⟨fs1, e1, h1, -⟩ := c43_tiles_written p.build p.zlib w.canCreate (Cmd.tile.options argv) i w.stdin _ s w.fs a f ha hv hh
    (Or.inl hi) hin x3 hsz hn hpre (fun k hk => (hnew k hk).1) (fun k hk => (hnew k hk).2)
    (fun k hk => (survives_roundtrip p.build p.zlib hz _ (hw k hk)).1)
  obtain ⟨fs2, e2, h2, -⟩ := c43_tiles_written p.build p.zlib w.canCreate (Cmd.tile.options argv) i' w.stdin _ s' w.fs a f' ha hv hh
    (Or.inl hi') hin' y3 hsz' hn' hpre' (fun k hk => (hnew' k hk).1) (fun k hk => (hnew' k hk).2)
    (fun k hk => (survives_roundtrip p.build p.zlib hz _ (hw' k hk)).1)
  have er : Name.tile.run p argv w = ⟨fs1, [], .ok 0⟩ := by
    simp only [Name.run, Main.tile, withOperands, ha, hh, hops, one, Res.ok_bind, hv, Bool.false_eq_true, if_false, e1]
    rfl
  have er' : Name.tile.run p argv' w = ⟨fs2, [], .ok 0⟩ := by
    simp only [Name.run, Main.tile, withOperands, hopt, ha, hh, hops', one, Res.ok_bind, hv, Bool.false_eq_true, if_false, e2]
    rfl
  rw [er, er']
  refine ⟨rfl, rfl, fun k hk => ⟨tileOf f numbers k, tileOf f' numbers k, hpn k, rfl, ?_, ?_⟩⟩
  · simp only [content, h1 k hk, Option.map_some]
  · simp only [content, h2 k hk, Option.map_some]

/-! ## The hypotheses are met -/

/-- The cloud of the examples, with other intensities and classes. -/
def otherA : SpocFile := { cloudA with prs := tilePoints.map fun p => { p with i := 7, c := 2 } }

/-- The files of the examples, and a file called `e` with points at the same places as in `a`, but other attributes. -/
def otherDisk : World where
  fs := fun n =>
    if n = ['e'] then some { content := (Io.writeFile .release toyZlib otherA).bytes, readable := true, writable := true }
    else exampleDisk.fs n
  canCreate _ := true
  stdin := { rest := [] }

theorem otherA_survives : Survives toyZlib otherA :=
  ⟨⟨rfl, rfl, by decide, by unfold Uniform; decide, by decide, by decide⟩, fun _ => by decide, (fun h => nomatch h)⟩

theorem other_on_disk : Holds exampleParams otherDisk.fs ['a'] cloudA ∧ Holds exampleParams otherDisk.fs ['e'] otherA :=
  ⟨⟨rfl, cloudA_survives, _, [], rfl, rfl, (List.append_nil _).symm⟩, ⟨rfl, otherA_survives, _, [], rfl, rfl, (List.append_nil _).symm⟩⟩

theorem otherDiskA : HasCloud exampleParams otherDisk.fs ['a'] cloudA := holds_cloud toyZlib_correct other_on_disk.1
theorem otherDiskE : HasCloud exampleParams otherDisk.fs ['e'] otherA := holds_cloud toyZlib_correct other_on_disk.2

theorem otherA_matches (A : PointRecord → PointRecord → Prop) (hA : ∀ p : PointRecord, A p { p with i := 7, c := 2 }) :
    Matching (fun p q => SameXyz p q ∧ A p q) cloudA otherA := by
  refine ⟨rfl, rfl, ?_⟩
  unfold otherA cloudA
  rw [List.forall₂_map_right_iff, List.forall₂_same]
  exact fun p _ => ⟨⟨rfl, rfl, rfl⟩, hA p⟩

example : MatchStep (fun p q => SameXyz p q ∧ q.i = 7) exampleParams otherDisk ['o'] ['u']
    (Name.filter.run exampleParams ["--remove-coords=x > 12".toList, "--unique-xyz".toList, ['a'], ['o']] otherDisk)
    (Name.filter.run exampleParams ["--remove-coords=x > 12".toList, "--unique-xyz".toList, ['e'], ['u']] otherDisk) :=
  c131_filter _ exampleParams otherDisk _ _ ['a'] ['e'] ['o'] ['u'] (by decide +kernel) (by decide +kernel) (by decide +kernel)
    (fun h => absurd h (by decide +kernel)) (fun _ _ _ h => h.1) (by decide) (by decide) (by decide) (by decide) rfl rfl _ _ otherDiskA otherDiskE
    (otherA_matches _ fun _ => rfl)

example : MatchStep (fun p q => SameXyz p q ∧ q.i = 7) exampleParams otherDisk ['o'] ['u']
    (Name.tool.run exampleParams ["--subtract-min-xy".toList, ['a'], ['o']] otherDisk)
    (Name.tool.run exampleParams ["--subtract-min-xy".toList, ['e'], ['u']] otherDisk) :=
  c131_tool (fun _ q => q.i = 7) (fun _ _ _ _ _ _ _ _ h => h) exampleParams otherDisk _ _ ['a'] ['e'] ['o'] ['u'] (by decide +kernel)
    (by decide +kernel) (by decide +kernel) (by decide) (by decide) (by decide) (by decide) rfl rfl { command := ⟨"subtract-min-xy", []⟩ }
    (by decide +kernel) (by decide) _ _ otherDiskA otherDiskE (otherA_matches _ fun _ => rfl)

example : ∃ g n g', Tool.upsample .release cloudA cloudA (num 10) = .ok (g, n) ∧ Tool.upsample .release cloudA otherA (num 10) = .ok (g', n)
    ∧ Matching (fun p q => SameXyz p q ∧ q.i = 7) g g' := by
  obtain ⟨⟨g, n⟩, h⟩ : ∃ r, Tool.upsample .release cloudA cloudA (num 10) = .ok r := by
    have h : (Tool.upsample .release cloudA cloudA (num 10)).isOk = true := by decide +kernel
    revert h
    cases Tool.upsample .release cloudA cloudA (num 10) <;> simp [Res.isOk]
  obtain ⟨g', h1, h2⟩ := c131_upsample (fun _ q => q.i = 7) (fun _ _ _ h => h) .release cloudA cloudA cloudA otherA (num 10)
    ⟨rfl, rfl, by rw [List.forall₂_same]; exact fun _ _ => ⟨⟨rfl, rfl, rfl⟩, rfl⟩⟩ rfl (otherA_matches _ fun _ => rfl) otherA_survives.1.uniform g n h
  exact ⟨g, n, g', h, h1, h2⟩

example : Tool.getField .release otherA "x".toList = Tool.getField .release cloudA "x".toList :=
  c131_get_field .release cloudA otherA .x (fun _ h => nomatch h) ((otherA_matches (fun _ _ => True) fun _ => trivial).2.2.imp fun _ _ h => by
    simp only [Field.get, h.1.1]) (by decide +kernel)

example : ∃ qs qs', Leaves exampleParams otherDisk ['o'] { cloudA with prs := qs } (Name.transform.run exampleParams (transformLine ['a'] ['o']) otherDisk)
      ∧ Leaves exampleParams otherDisk ['u'] { otherA with prs := qs' } (Name.transform.run exampleParams (transformLine ['e'] ['u']) otherDisk)
      ∧ List.Forall₂ SameXyz qs qs' := by
  obtain ⟨qs, qs', h1, h2, h3, -⟩ := c131_transform exampleParams otherDisk (transformLine ['a'] ['o']) (transformLine ['e'] ['u'])
    { commands := [⟨"copy-field", "i,c".toList⟩] } (by decide +kernel) (by decide +kernel) rfl rfl (by decide) ['a'] ['e'] ['o'] ['u']
    (by decide +kernel) (by decide +kernel) (by decide) (by decide) (by decide) (by decide) (by decide) (by decide) rfl rfl _ _ other_on_disk.1
    other_on_disk.2 (by decide +kernel) (by decide +kernel)
  exact ⟨qs, qs', h1, h2, h3 ((otherA_matches (fun _ _ => True) fun _ => trivial).2.2.imp fun _ _ h => h.1)⟩

example : (Name.tile.run exampleParams ["-s10".toList, ['e']] otherDisk).res = .ok 0 :=
  (c131_tile (fun p q => SameXyz p q ∧ q.i = 7) (fun _ _ h => h.1) exampleParams otherDisk ["-s10".toList, ['a']] ["-s10".toList, ['e']]
    (by decide +kernel) ['a'] ['e'] (by decide +kernel)
    (by decide +kernel) (by decide) (by decide) cloudA otherA otherDiskA otherDiskE (otherA_matches _ fun _ => rfl)
    { tileSize := num 10 } (by decide +kernel) rfl rfl (sx := num 10) (sy := num 10) (numbers := [0, 1, 3]) (by decide +kernel)
    (by decide +kernel) (by decide)
    (by decide) (by decide +kernel) (by decide +kernel) toyZlib_correct
    (fun k _ => survives_subperm (f := cloudA) cloudA_survives rfl
      (l := pointsNumbered cloudA.prs [0, 1, 3] k) (Tile.pointsNumbered_sublist _ _ _).subperm)
    (fun k _ => survives_subperm (f := otherA) otherA_survives rfl
      (l := pointsNumbered otherA.prs [0, 1, 3] k) (Tile.pointsNumbered_sublist _ _ _).subperm)).2.1

end Spoc.Props
