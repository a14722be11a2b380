import Verif.Proofs.Special
import Verif.Props.Noise
import Verif.Props.Tool
import Verif.Props.SetCopy

/-!
# C97: coordinates that are not finite
-/

namespace Spoc.Props

open Spec Transform AppUtils

/-- The commands that add a number to a coordinate. -/
def translations : List (String × Field) := [("add-x", .x), ("add-y", .y), ("add-z", .z)]

/-- The commands that multiply a coordinate with a number. -/
def scalings : List (String × Field) := [("scale-x", .x), ("scale-y", .y), ("scale-z", .z)]

/-- **C97**, translations: whatever the coordinate and the number are, zero, finite, infinite or NaN, the new coordinate is their sum as
IEEE 754 defines it, and nothing else is changed. -/
theorem c97_translate (b : Build) (env : Env) (seed : Nat) (h : Header) (prs : List PointRecord) (hu : Uncompressed h prs) (tl : Bytes)
    {name : String} {fld : Field} (hn : (name, fld) ∈ translations) {arg rest : Str} {v : F64}
    (hv : consumeDouble env.stod arg = .ok (v, rest)) :
    ∃ qs, Transform.apply b env { rest := image h prs ++ tl } [⟨name, arg⟩] seed = ⟨image h qs, .ok ()⟩ ∧ qs.length = prs.length
      ∧ ∀ (i : Nat) (p q : PointRecord), prs[i]? = some p → qs[i]? = some q →
          SameExcept [fld] p q ∧ ∀ x y : F64, fld.get p = some x.bits.toNat → fld.get q = some y.bits.toNat → IsSum x v y := by
  have key : ∀ (k : F64 → Op) (g : PointRecord → PointRecord), parseCommand b env seed h.extraFields.toNat ⟨name, arg⟩ = .ok (k v) →
      (∀ n p, k v n p = .ok (g p)) → (∀ p, SameExcept [fld] p (g p)) →
      (∀ p (x y : F64), fld.get p = some x.bits.toNat → fld.get (g p) = some y.bits.toNat → IsSum x v y) →
      ∃ qs, Transform.apply b env { rest := image h prs ++ tl } [⟨name, arg⟩] seed = ⟨image h qs, .ok ()⟩ ∧ qs.length = prs.length
      ∧ ∀ (i : Nat) (p q : PointRecord), prs[i]? = some p → qs[i]? = some q →
          SameExcept [fld] p q ∧ ∀ x y : F64, fld.get p = some x.bits.toNat → fld.get q = some y.bits.toNat → IsSum x v y := by
    intro k g h1 h2 h3 h4
    refine ⟨_, apply_one b env seed _ _ (fun _ => g) h prs hu tl h1 h2, by simp, fun i p q hp hq => ?_⟩
    rw [List.getElem?_mapIdx, hp, Option.map_some, Option.some.injEq] at hq
    subst hq
    exact ⟨h3 p, h4 p⟩
  simp only [translations, List.mem_cons, List.not_mem_nil, or_false, Prod.mk.injEq] at hn
  have hz : ∀ (a v : F64) (x y : F64), (some a.bits.toNat = some x.bits.toNat) →
      some (F64.add a v).bits.toNat = some y.bits.toNat → IsSum x v y := by
    intro a v x y h1 h2
    rw [← bits_inj (Option.some.inj h1), ← bits_inj (Option.some.inj h2)]
    exact F64.add_isSum a v
  rcases hn with ⟨rfl, rfl⟩ | ⟨rfl, rfl⟩ | ⟨rfl, rfl⟩
  · refine key addXOp (fun p => { p with x := F64.add p.x v }) ?_ (fun _ _ => rfl) ?_ (fun p => hz p.x v)
    · unfold parseCommand; simp only [hv]; rfl
    · exact fun p => ⟨rfl, fun f hf => by cases f <;> first | rfl | simp at hf⟩
  · refine key addYOp (fun p => { p with y := F64.add p.y v }) ?_ (fun _ _ => rfl) ?_ (fun p => hz p.y v)
    · unfold parseCommand; simp only [hv]; rfl
    · exact fun p => ⟨rfl, fun f hf => by cases f <;> first | rfl | simp at hf⟩
  · refine key addZOp (fun p => { p with z := F64.add p.z v }) ?_ (fun _ _ => rfl) ?_ (fun p => hz p.z v)
    · unfold parseCommand; simp only [hv]; rfl
    · exact fun p => ⟨rfl, fun f hf => by cases f <;> first | rfl | simp at hf⟩

/-- **C97**, scalings: the new coordinate is the product as IEEE 754 defines it; in particular an infinite coordinate scaled by zero is not
zero but NaN. -/
theorem c97_scale (b : Build) (env : Env) (seed : Nat) (h : Header) (prs : List PointRecord) (hu : Uncompressed h prs) (tl : Bytes)
    {name : String} {fld : Field} (hn : (name, fld) ∈ scalings) {arg rest : Str} {v : F64}
    (hv : consumeDouble env.stod arg = .ok (v, rest)) :
    ∃ qs, Transform.apply b env { rest := image h prs ++ tl } [⟨name, arg⟩] seed = ⟨image h qs, .ok ()⟩ ∧ qs.length = prs.length
      ∧ ∀ (i : Nat) (p q : PointRecord), prs[i]? = some p → qs[i]? = some q →
          SameExcept [fld] p q ∧ ∀ x y : F64, fld.get p = some x.bits.toNat → fld.get q = some y.bits.toNat → IsProduct x v y := by
  have key : ∀ (k : F64 → Op) (g : PointRecord → PointRecord), parseCommand b env seed h.extraFields.toNat ⟨name, arg⟩ = .ok (k v) →
      (∀ n p, k v n p = .ok (g p)) → (∀ p, SameExcept [fld] p (g p)) →
      (∀ p (x y : F64), fld.get p = some x.bits.toNat → fld.get (g p) = some y.bits.toNat → IsProduct x v y) →
      ∃ qs, Transform.apply b env { rest := image h prs ++ tl } [⟨name, arg⟩] seed = ⟨image h qs, .ok ()⟩ ∧ qs.length = prs.length
      ∧ ∀ (i : Nat) (p q : PointRecord), prs[i]? = some p → qs[i]? = some q →
          SameExcept [fld] p q ∧ ∀ x y : F64, fld.get p = some x.bits.toNat → fld.get q = some y.bits.toNat → IsProduct x v y := by
    intro k g h1 h2 h3 h4
    refine ⟨_, apply_one b env seed _ _ (fun _ => g) h prs hu tl h1 h2, by simp, fun i p q hp hq => ?_⟩
    rw [List.getElem?_mapIdx, hp, Option.map_some, Option.some.injEq] at hq
    subst hq
    exact ⟨h3 p, h4 p⟩
  simp only [scalings, List.mem_cons, List.not_mem_nil, or_false, Prod.mk.injEq] at hn
  have hz : ∀ (a v : F64) (x y : F64), (some a.bits.toNat = some x.bits.toNat) →
      some (F64.mul a v).bits.toNat = some y.bits.toNat → IsProduct x v y := by
    intro a v x y h1 h2
    rw [← bits_inj (Option.some.inj h1), ← bits_inj (Option.some.inj h2)]
    exact F64.mul_isProduct a v
  rcases hn with ⟨rfl, rfl⟩ | ⟨rfl, rfl⟩ | ⟨rfl, rfl⟩
  · refine key scaleXOp (fun p => { p with x := F64.mul p.x v }) ?_ (fun _ _ => rfl) ?_ (fun p => hz p.x v)
    · unfold parseCommand; simp only [hv]; rfl
    · exact fun p => ⟨rfl, fun f hf => by cases f <;> first | rfl | simp at hf⟩
  · refine key scaleYOp (fun p => { p with y := F64.mul p.y v }) ?_ (fun _ _ => rfl) ?_ (fun p => hz p.y v)
    · unfold parseCommand; simp only [hv]; rfl
    · exact fun p => ⟨rfl, fun f hf => by cases f <;> first | rfl | simp at hf⟩
  · refine key scaleZOp (fun p => { p with z := F64.mul p.z v }) ?_ (fun _ _ => rfl) ?_ (fun p => hz p.z v)
    · unfold parseCommand; simp only [hv]; rfl
    · exact fun p => ⟨rfl, fun f hf => by cases f <;> first | rfl | simp at hf⟩

/-- No command sets this coordinate. -/
def NotSet (cs : List Command) (fld : Field) : Prop := ∀ c ∈ cs, c.name = "set" → ¬ Named c.name c.params [fld]

theorem ops_stay {b : Build} {env : Env} {seed ef : Nat} {cs : List Command} {ops : List Op}
    (hops : cs.mapM (parseCommand b env seed ef) = .ok ops) {n : Nat} {p q : PointRecord} (hq : applyOps n ops p = .ok q) :
    (NotSet cs .x → p.x.isFinite = false → q.x.isFinite = false) ∧ (NotSet cs .y → p.y.isFinite = false → q.y.isFinite = false)
      ∧ (NotSet cs .z → p.z.isFinite = false → q.z.isFinite = false) := by
  have h := mapM_eq_ok.mp hops
  clear hops
  induction h generalizing p with
  | nil =>
    simp only [applyOps, Res.ok.injEq] at hq
    rw [hq]
    exact ⟨fun _ => id, fun _ => id, fun _ => id⟩
  | @cons c op cs ops hc _ ih =>
    simp only [applyOps] at hq
    rw [Res.bind_eq_ok] at hq
    obtain ⟨m, hm, hq⟩ := hq
    obtain ⟨ix, iy, iz⟩ := ih hq
    have tailSet : ∀ {fld : Field}, NotSet (c :: cs) fld → NotSet cs fld := fun h d hd => h d (List.mem_cons_of_mem _ hd)
    by_cases hset : c.name = "set"
    · obtain ⟨fs, h1, h2 | ⟨h2, -⟩⟩ := command_frame b env seed ef c op hc n p m hm
      · obtain ⟨u, rfl⟩ : ∃ u, fs = [u] := by
          have : ∀ nm, Named nm c.params fs → nm = "set" → ∃ u, fs = [u] := by
            intro nm h e
            cases h with
            | number h => subst e; simp [geometric] at h
            | first _ _ _ => exact ⟨_, rfl⟩
            | second _ _ _ => exact ⟨_, rfl⟩
          exact this _ h1 hset
        have hk : ∀ fld : Field, NotSet (c :: cs) fld → fld.get m = fld.get p := by
          intro fld hns
          refine h2.2 fld ?_
          simp only [List.mem_singleton]
          rintro rfl
          exact hns c List.mem_cons_self hset h1
        refine ⟨fun h hf => ix (tailSet h) ?_, fun h hf => iy (tailSet h) ?_, fun h hf => iz (tailSet h) ?_⟩
        · rw [bits_inj (Option.some.inj (hk .x h))]; exact hf
        · rw [bits_inj (Option.some.inj (hk .y h))]; exact hf
        · rw [bits_inj (Option.some.inj (hk .z h))]; exact hf
      · rw [hset] at h2
        simp at h2
    · have hs := command_stay b env seed ef c op hset hc n p m hm
      exact ⟨fun h hf => ix (tailSet h) (hs.x hf), fun h hf => iy (tailSet h) (hs.y hf), fun h hf => iz (tailSet h) (hs.z hf)⟩

/-- **C97**: a coordinate that is not finite is never turned into a number by the transform application, whatever the commands are, unless
one of them sets this coordinate. -/
theorem c97_stays (b : Build) (env : Env) (seed : Nat) (cs : List Command) (h : Header) (prs : List PointRecord) (hu : Uncompressed h prs)
    (tl out : Bytes) (hout : Transform.apply b env { rest := image h prs ++ tl } cs seed = ⟨out, .ok ()⟩) :
    ∃ qs, out = image h qs ∧ qs.length = prs.length
      ∧ ∀ (i : Nat) (p q : PointRecord), prs[i]? = some p → qs[i]? = some q →
        (NotSet cs .x → p.x.isFinite = false → q.x.isFinite = false) ∧ (NotSet cs .y → p.y.isFinite = false → q.y.isFinite = false)
        ∧ (NotSet cs .z → p.z.isFinite = false → q.z.isFinite = false) := by
  obtain ⟨_, h', s', ops, qs, hr, hc, hops, hall, rfl⟩ := (apply_ok _ _ _ _ _ _).mp hout
  rw [image_read hu tl] at hr
  simp only [Res.ok.injEq, Prod.mk.injEq] at hr
  obtain ⟨rfl, rfl⟩ := hr
  rw [← hu.count, readRecords_bytes _ _ hu.extra tl] at hall
  have hu' := applyAll_uncompressed hu hops hall
  obtain ⟨hl, hi⟩ := (applyAll_ok ops 0 prs qs).mp hall
  refine ⟨qs, (image_eq hu').symm, hl, fun i p q hp hq => ?_⟩
  obtain ⟨q', h1, h2⟩ := hi i p hp
  rw [hq, Option.some.injEq] at h1
  subst h1
  exact ops_stay hops h2

/-- A point is quantised or its quantisation is undefined; with a coordinate that is not finite it is undefined. -/
theorem quantizeOp_undefined (precision : F64) (n : Nat) (p : PointRecord)
    (hp : p.x.isFinite = false ∨ p.y.isFinite = false ∨ p.z.isFinite = false) : (quantizeOp precision n p).isUb = true := by
  have hc : ∀ x : F64, (quantizeCoord precision x).isUb = true ∨ ∃ y, quantizeCoord precision x = .ok y := by
    intro x
    unfold quantizeCoord F64.toInt32
    split
    · split
      · exact .inr ⟨_, rfl⟩
      · exact .inl rfl
    · exact .inl rfl
  have hub : ∀ {α : Type} {r : Res F64} (k : F64 → Res α), r.isUb = true → (r >>= k).isUb = true := by
    intro α r k h
    cases r <;> first | (simp [Res.isUb] at h; done) | rfl
  have hnf : ∀ x : F64, x.isFinite = false → (quantizeCoord precision x).isUb = true := by
    intro x hx
    rcases hc x with h | ⟨y, h⟩
    · exact h
    · exact absurd h (quantizeCoord_not_finite hx)
  unfold quantizeOp
  rcases hc p.x with hx | ⟨x, hx⟩
  · exact hub _ hx
  rw [hx, Res.ok_bind]
  rcases hc p.y with hy | ⟨y, hy⟩
  · exact hub _ hy
  rw [hy, Res.ok_bind]
  rcases hc p.z with hz | ⟨z, hz⟩
  · exact hub _ hz
  rcases hp with h | h | h
  · exact absurd hx (quantizeCoord_not_finite h)
  · exact absurd hy (quantizeCoord_not_finite h)
  · exact absurd hz (quantizeCoord_not_finite h)

theorem quantizeOp_total (precision : F64) (n : Nat) (p : PointRecord) :
    (quantizeOp precision n p).isUb = true ∨ ∃ q, quantizeOp precision n p = .ok q := by
  have hc : ∀ x : F64, (∃ e, quantizeCoord precision x = .ub e) ∨ ∃ y, quantizeCoord precision x = .ok y := by
    intro x
    unfold quantizeCoord F64.toInt32
    split
    · split
      · exact .inr ⟨_, rfl⟩
      · exact .inl ⟨_, rfl⟩
    · exact .inl ⟨_, rfl⟩
  unfold quantizeOp
  rcases hc p.x with ⟨e, hx⟩ | ⟨x, hx⟩
  · exact .inl (by rw [hx]; rfl)
  rcases hc p.y with ⟨e, hy⟩ | ⟨y, hy⟩
  · exact .inl (by rw [hx, hy]; rfl)
  rcases hc p.z with ⟨e, hz⟩ | ⟨z, hz⟩
  · exact .inl (by rw [hx, hy, hz]; rfl)
  · exact .inr ⟨_, by rw [hx, hy, hz]; rfl⟩

/-- **C97**: quantising a cloud with a coordinate that is not finite is undefined behaviour, wherever in the file it is. -/
theorem c97_quantize_undefined (b : Build) (env : Env) (seed : Nat) (h : Header) (prs : List PointRecord) (hu : Uncompressed h prs) (tl : Bytes)
    {arg rest : Str} {v : F64} (hv : consumeDouble env.stod arg = .ok (v, rest))
    (hp : ∃ p ∈ prs, p.x.isFinite = false ∨ p.y.isFinite = false ∨ p.z.isFinite = false) :
    (Transform.apply b env { rest := image h prs ++ tl } [⟨"quantize-xyz", arg⟩] seed).res.isUb = true := by
  have hops : [(⟨"quantize-xyz", arg⟩ : Command)].mapM (parseCommand b env seed h.extraFields.toNat) = .ok [quantizeOp v] := by
    rw [List.mapM_cons]
    have : parseCommand b env seed h.extraFields.toNat ⟨"quantize-xyz", arg⟩ = .ok (quantizeOp v) := by
      simp only [parseCommand, String.reduceEq, if_false, if_true, hv]; rfl
    rw [this]
    rfl
  have hub : ∀ {α β : Type} {r : Res α} (k : α → Out β), r.isUb = true → (Out.lift r >>= k).res.isUb = true := by
    intro α β r k h
    cases r <;> first | (simp [Res.isUb] at h; done) | rfl
  rw [apply_image b env seed _ hu tl, hops, Out.mk_ok_bind, Out.lift_ok_bind]
  have key : ∀ (l : List PointRecord) (n : Nat), (∀ p ∈ l, p.extra.length = h.extraFields.toNat) →
      (∃ p ∈ l, p.x.isFinite = false ∨ p.y.isFinite = false ∨ p.z.isFinite = false) →
      (pointLoop [quantizeOp v] h.extraFields.toNat l.length n { rest := l.flatMap PointRecord.bytes ++ tl }).res.isUb = true := by
    intro l
    induction l with
    | nil => rintro n - ⟨p, hp, -⟩; simp at hp
    | cons p l ih =>
      intro n he ⟨q, hq, hbad⟩
      have hread : PointRecord.read { rest := (p :: l).flatMap PointRecord.bytes ++ tl } h.extraFields.toNat
          = (p, { rest := l.flatMap PointRecord.bytes ++ tl }) := by
        rw [List.flatMap_cons, List.append_assoc, ← he p (by simp), PointRecord.read_bytes]
      rw [List.length_cons]
      unfold pointLoop
      dsimp only
      rw [hread]
      rcases quantizeOp_total v n p with h1 | ⟨p', h1⟩
      · refine hub _ ?_
        unfold applyOps
        cases h2 : quantizeOp v n p <;> rw [h2] at h1 <;> first | (simp [Res.isUb] at h1; done) | rfl
      · have h2 : applyOps n [quantizeOp v] p = .ok p' := by unfold applyOps; rw [h1]; rfl
        rw [h2, Out.lift_ok_bind]
        rcases List.mem_cons.mp hq with rfl | hq
        · have := quantizeOp_undefined v n q hbad
          rw [h1] at this
          simp [Res.isUb] at this
        · rw [PointRecord.write_eq, Out.mk_ok_bind]
          exact ih (n + 1) (fun x hx => he x (by simp [hx])) ⟨q, hq, hbad⟩
  exact key prs 0 hu.extra hp

/-! ## The hypotheses can be met -/

/-- A point that is not finite, behind one that is. -/
example : (Transform.apply .release exampleEnv { rest := image exampleHeader [{ x := num 5, extra := [1] }, { y := F64.inf false, extra := [2] }] }
    [⟨"quantize-xyz", ['2']⟩] 0).res.isUb = true := by
  have := c97_quantize_undefined .release exampleEnv 0 exampleHeader [{ x := num 5, extra := [1] }, { y := F64.inf false, extra := [2] }]
    ⟨rfl, rfl, rfl, by decide, rfl, by decide, rfl⟩ [] (arg := ['2']) (rest := []) (v := num 2) (by decide +kernel) (by decide +kernel)
  rwa [List.append_nil] at this

/-- An infinite coordinate scaled by zero. -/
example : IsProduct (F64.inf true) F64.zero (F64.mul (F64.inf true) F64.zero) ∧ (F64.mul (F64.inf true) F64.zero).isNaN = true :=
  ⟨F64.mul_isProduct _ _, by decide +kernel⟩

example : Uncompressed exampleHeader [{ x := F64.nan, extra := [1] }, { y := F64.inf false, extra := [2] }]
    ∧ consumeDouble exampleEnv.stod ['0'] = .ok (F64.zero, []) :=
  ⟨⟨rfl, rfl, rfl, by decide, rfl, by decide, rfl⟩, by decide +kernel⟩

/-- Scaling x and setting y: the hypotheses of `c97_stays` hold. -/
example : (Transform.apply .debug exampleEnv { rest := image exampleHeader [{ x := F64.nan, extra := [1] }, { y := F64.inf false, extra := [2] }] }
      [⟨"scale-x", ['0']⟩, ⟨"rotate-z", ['1']⟩, ⟨"set", "c,7".toList⟩] 0).res = .ok ()
    ∧ NotSet [⟨"scale-x", ['0']⟩, ⟨"rotate-z", ['1']⟩] .x :=
  ⟨by decide +kernel, by intro c hc; simp only [List.mem_cons, List.not_mem_nil, or_false] at hc; rcases hc with rfl | rfl <;> simp⟩

end Spoc.Props
