import Verif.Proofs.Displaced
import Verif.Props.FilterTransform
import Verif.Props.ThereAndBack

/-!
# C113: only the differences of the coordinates matter
-/

namespace Spoc.Props

open Spec Transform AppUtils Text Main

section
variable {α : Type} [HasXYZ α]

/-- **C113**, subsampling: a cloud that has been moved as a whole, without any rounding, is subsampled in the same way. -/
theorem c113_subsample (b : Build) (sh : Subsampling.Shuffle) {dx dy dz : ℝ} {ps qs : List α}
    (h : List.Forall₂ (fun p q => Displaced dx dy dz (pt p) (pt q)) ps qs) (res : F64) (seed : Nat) :
    Subsampling.subsampleIndexes b sh qs res seed = Subsampling.subsampleIndexes b sh ps res seed := by
  obtain ⟨D, E, F, hc⟩ := cloudOff_of_displaced h
  unfold Subsampling.subsampleIndexes
  rw [hc.indexes, hc.length_eq]

/-- **C113**, voxels: every point is in the same voxel as before. -/
theorem c113_voxels {dx dy dz : ℝ} {ps qs : List α} (h : List.Forall₂ (fun p q => Displaced dx dy dz (pt p) (pt q)) ps qs) (res : F64) :
    Voxel.getIndexes qs res = Voxel.getIndexes ps res := by
  obtain ⟨D, E, F, hc⟩ := cloudOff_of_displaced h
  exact (hc.indexes res).symm

/-- **C113**, points at the same place. -/
theorem c113_unique (b : Build) (sh : Subsampling.Shuffle) (hsh : sh.Lawful) {dx dy dz : ℝ} {ps qs : List α}
    (h : List.Forall₂ (fun p q => Displaced dx dy dz (pt p) (pt q)) ps qs) (seed : Nat) :
    Subsampling.uniqueXyzIndexes b sh qs seed = Subsampling.uniqueXyzIndexes b sh ps seed := by
  obtain ⟨D, E, F, hc⟩ := cloudOff_of_displaced h
  rw [uniqueXyzIndexes_eq b sh hsh, uniqueXyzIndexes_eq b sh hsh, hc.sameLoc, hc.length_eq]

/-- **C113**, neighbours: a radius search finds the same neighbours, in the same order. -/
theorem c113_search (b : Build) (rng : Nat → Nat → Nat) {dx dy dz : ℝ} {ps qs : List α}
    (h : List.Forall₂ (fun p q => Displaced dx dy dz (pt p) (pt q)) ps qs) (pis nis : List Nat) (radius : F64) (m : Nat) :
    RadiusSearch.search b rng qs pis nis radius m = RadiusSearch.search b rng ps pis nis radius m := by
  obtain ⟨D, E, F, hc⟩ := cloudOff_of_displaced h
  exact (hc.search b rng pis nis radius m).symm

end

/-- **C113**, tiles: with the same arguments, the tiles are of the same size and every point is in the same tile as before. -/
theorem c113_tiles {dx dy dz : ℝ} {ps qs : List PointRecord} (h : List.Forall₂ (fun p q => Displaced dx dy dz (pt p) (pt q)) ps qs)
    (a : Tile.Args) :
    Tile.tileSizes a (Extent.ofPoints qs) = Tile.tileSizes a (Extent.ofPoints ps)
      ∧ ∀ sx sy, Tile.getTileIndexes qs (Extent.ofPoints qs) sx sy = Tile.getTileIndexes ps (Extent.ofPoints ps) sx sy := by
  by_cases hne : ps = []
  · subst hne
    cases h
    exact ⟨rfl, fun _ _ => rfl⟩
  · obtain ⟨D, E, F, hc⟩ := cloudOff_of_displaced h
    obtain ⟨hmin, hmax⟩ := hc.extent hne
    refine ⟨?_, fun sx sy => (hc.tiles hne sx sy).symm⟩
    unfold Tile.tileSizes
    rw [getTileSize_off hmin hmax]

theorem forall₂_and {α β : Type} {R S : α → β → Prop} {l : List α} {m : List β} (h : List.Forall₂ R l m) (k : List.Forall₂ S l m) :
    List.Forall₂ (fun x y => R x y ∧ S x y) l m := by
  induction h with
  | nil => exact .nil
  | cons h _ ih =>
    cases k with
    | cons k ks => exact .cons ⟨h, k⟩ (ih ks)

theorem forall₂_left {α β : Type} {R : α → β → Prop} {P : α → Prop} {l : List α} {m : List β} (h : List.Forall₂ R l m) (k : ∀ x ∈ l, P x) :
    List.Forall₂ (fun x y => R x y ∧ P x) l m := by
  induction h with
  | nil => exact .nil
  | cons h _ ih => exact .cons ⟨h, k _ List.mem_cons_self⟩ (ih fun x hx => k x (List.mem_cons_of_mem _ hx))

/-- What is common to the two theorems about the applications. -/
theorem filter_displaced (p : Params) (hz : p.zlib.Correct) (hsh : p.shuffle.Lawful) (f : SpocFile) (hs : Survives p.zlib f)
    (hc : f.compressed = false) (tl : Bytes) (w : World) (hw : w.stdin = { rest := (Io.writeFile p.build p.zlib f).bytes ++ tl })
    (fargv : List Str) (r : FilterRequest) (hopt : Asks (Cmd.filter.options fargv) r) (hops : Cmd.filter.operands fargv = [])
    (targv : List Str) (os : List (String × Str)) (topt : Cmd.transform.options targv = os) (hne : os ≠ [])
    (hos : ∀ o ∈ os, o.1 ∈ commandOptions) (tops : Cmd.transform.operands targv = [])
    (hm : ∀ ops ts, (commandsOf os).mapM (parseCommand p.build p.env 0 f.extraFields) = .ok ops →
      List.Forall₂ (fun x y => applyOps 0 ops x = .ok y) f.prs ts →
      (Name.transform.run p targv w).out = (Io.writeFile p.build p.zlib { f with prs := ts }).bytes → Survives p.zlib { f with prs := ts } →
      (∃ dx dy dz, List.Forall₂ (fun x y => Displaced dx dy dz (pt x) (pt y)) f.prs ts)
        ∧ (¬ (r.keep = [] ∧ r.remove = []) → List.Forall₂ (fun x y => y.c = x.c) f.prs ts)
        ∧ ∀ c v, r.coords = some (c, v) → List.Forall₂ (fun x y => c.coord y = c.coord x) f.prs ts)
    (hfok : (Name.filter.run p fargv w).res = .ok 0) (htok : (Name.transform.run p targv w).res = .ok 0)
    (w1 w2 : World) (h1 : w1.stdin = { rest := (Name.filter.run p fargv w).out })
    (h2 : w2.stdin = { rest := (Name.transform.run p targv w).out }) :
    (Name.transform.run p targv w1).res = .ok 0 ∧ (Name.filter.run p fargv w2).res = .ok 0
      ∧ (Name.transform.run p targv w1).out = (Name.filter.run p fargv w2).out := by
  refine filter_transform_of p hz hsh f hs hc tl w hw fargv r hopt hops targv os topt hne hos tops (fun ops ts qs t1 hall hout st q1 => ?_)
    hfok htok w1 w2 h1 h2
  obtain ⟨⟨dx, dy, dz, hd⟩, hcl, hco⟩ := hm ops ts t1 hall hout st
  -- the relation between a point and what has become of it
  have hcl' : List.Forall₂ (fun x y : PointRecord => ¬ (r.keep = [] ∧ r.remove = []) → y.c = x.c) f.prs ts := by
    by_cases hk : r.keep = [] ∧ r.remove = []
    · exact hall.imp fun _ _ _ hn => absurd hk hn
    · exact (hcl hk).imp fun _ _ e _ => e
  have hco' : List.Forall₂ (fun x y : PointRecord => ∀ c v, r.coords = some (c, v) → c.coord y = c.coord x) f.prs ts := by
    rcases hr : r.coords with _ | ⟨c, v⟩
    · exact hall.imp fun _ _ _ c v e => absurd e (by simp)
    · exact (hco c v hr).imp fun _ _ e c' v' e' => by
        simp only [Option.some.injEq, Prod.mk.injEq] at e'
        obtain ⟨rfl, rfl⟩ := e'
        exact e
  have hR := forall₂_and hall (forall₂_and hd (forall₂_and hcl' hco'))
  obtain ⟨us, u1, u2⟩ := filterSteps_like p.build p.shuffle r (fun hk x y e => by rw [e.2.2.1 hk])
    (fun _ ps qs e => c113_unique p.build p.shuffle hsh (e.imp fun _ _ k => k.2.1) r.seed)
    (fun v _ ps qs e => c113_subsample p.build p.shuffle (e.imp fun _ _ k => k.2.1) v r.seed)
    (fun c v e x y k => (k.2.2.2 c v e).symm) hR q1
  exact ⟨us, u1, u2.imp fun _ _ k => k.1⟩

/-- **C113**, applications: if the transformation moves the cloud as a whole, without any rounding, and leaves alone the classes if the
filter looks at them, and the coordinate of its condition, then filtering before is the same as filtering after, to the byte.  Here the
filter may look at the coordinates that are changed, which C110 excludes.

The filter and the transformation have to succeed on the cloud. -/
theorem c113_filter (p : Params) (hz : p.zlib.Correct) (hsh : p.shuffle.Lawful) (f : SpocFile) (hf : Writable f)
    (hc : f.compressed = false) (tl : Bytes) (w : World) (hw : w.stdin = { rest := (Io.writeFile p.build p.zlib f).bytes ++ tl })
    (fargv : List Str) (r : FilterRequest) (hopt : Asks (Cmd.filter.options fargv) r) (hops : Cmd.filter.operands fargv = [])
    (targv : List Str) (os : List (String × Str)) (topt : Cmd.transform.options targv = os) (hne : os ≠ [])
    (hos : ∀ o ∈ os, o.1 ∈ commandOptions) (tops : Cmd.transform.operands targv = [])
    (hmoved : ∀ g s, Io.readFile p.build p.zlib { rest := (Name.transform.run p targv w).out } = .ok (g, s) →
      (∃ dx dy dz, List.Forall₂ (fun x y => Displaced dx dy dz (pt x) (pt y)) f.prs g.prs)
        ∧ (¬ (r.keep = [] ∧ r.remove = []) → List.Forall₂ (fun x y => y.c = x.c) f.prs g.prs)
        ∧ ∀ c v, r.coords = some (c, v) → List.Forall₂ (fun x y => c.coord y = c.coord x) f.prs g.prs)
    (hfok : (Name.filter.run p fargv w).res = .ok 0) (htok : (Name.transform.run p targv w).res = .ok 0)
    (w1 w2 : World) (h1 : w1.stdin = { rest := (Name.filter.run p fargv w).out })
    (h2 : w2.stdin = { rest := (Name.transform.run p targv w).out }) :
    (Name.transform.run p targv w1).res = .ok 0 ∧ (Name.filter.run p fargv w2).res = .ok 0
      ∧ (Name.transform.run p targv w1).out = (Name.filter.run p fargv w2).out := by
  have hs := filtered_survives p hsh f hf hc tl w hw fargv r hopt hops hfok
  refine filter_displaced p hz hsh f hs hc tl w hw fargv r hopt hops targv os topt hne hos tops (fun ops ts t1 hall hout st => ?_)
    hfok htok w1 w2 h1 h2
  have hread := (survives_roundtrip p.build p.zlib hz _ st).2 []
  rw [List.append_nil, ← hout] at hread
  exact hmoved _ _ hread

/-- A sum that is a double is not rounded. -/
theorem add_exact {x v y : F64} (hx : x.isFinite = true) (hv : v.isFinite = true) (hy : y.isFinite = true) (e : y.val = x.val + v.val) :
    (F64.add x v).isFinite = true ∧ (F64.add x v).val = x.val + v.val := by
  have e' : y.fv = x.fv + v.fv := by
    unfold F64.val at e
    rw [← add_div, div_left_inj' F64.one1074_pos'.ne'] at e
    exact_mod_cast e
  have h1 : (F64.add x v).fv = y.fv := by
    have h := F64.rfv_exact (F64.not_nan_of_finite hy) (B := 1) Nat.one_pos
    rw [Nat.cast_one, mul_one] at h
    rw [F64.add_fv hx hv, ← e', h]
  exact ⟨by rw [F64.isFinite_same h1, hy], by rw [← e]; unfold F64.val; rw [h1]⟩

/-- The double nearest to a double. -/
theorem nearest_double {v : F64} {q : ℝ} (hq : IsDouble q) (h : Nearest v q) : v.isFinite = true ∧ v.val = q := by
  obtain ⟨x, hx, e⟩ := hq
  have h1 := h.2 x (F64.not_nan_of_finite hx)
  rw [e, sub_self, abs_zero] at h1
  have h2 : v.val = q := sub_eq_zero.mp (abs_nonpos_iff.mp h1)
  exact ⟨F64.finite_of_val_le hx (by rw [h2, e]), h2⟩

/-- **C113**, one translation: subsampling a cloud, removing the points at the same place or some classes, and then adding a number to
a coordinate writes the very bytes that the same in the other order does, when the number is a double and no sum is rounded.

As `c113_filter`; no sum may be rounded (see `c113_rounded`). -/
theorem c113_translate (p : Params) (hz : p.zlib.Correct) (hsh : p.shuffle.Lawful) (henv : p.env.stod = Text.stod) (f : SpocFile)
    (hf : Writable f) (hc : f.compressed = false) (tl : Bytes) (w : World)
    (hw : w.stdin = { rest := (Io.writeFile p.build p.zlib f).bytes ++ tl })
    (fargv : List Str) (r : FilterRequest) (hopt : Asks (Cmd.filter.options fargv) r) (hops : Cmd.filter.operands fargv = [])
    (hr : r.coords = none) {name : String} {fld : Field} (hn : (name, fld) ∈ translations) (n : Numeral) (hok : n.Ok) (hir : NumeralInRange n)
    (targv : List Str) (topt : Cmd.transform.options targv = [(name, n.text)]) (tops : Cmd.transform.operands targv = [])
    (hdbl : IsDouble n.value) (hfin : ∀ q ∈ f.prs, Fin (pt q))
    (hsum : ∀ q ∈ f.prs, ∀ x : F64, fld.get q = some x.bits.toNat → IsDouble (x.val + n.value))
    (hfok : (Name.filter.run p fargv w).res = .ok 0) (htok : (Name.transform.run p targv w).res = .ok 0)
    (w1 w2 : World) (h1 : w1.stdin = { rest := (Name.filter.run p fargv w).out })
    (h2 : w2.stdin = { rest := (Name.transform.run p targv w).out }) :
    (Name.transform.run p targv w1).res = .ok 0 ∧ (Name.filter.run p fargv w2).res = .ok 0
      ∧ (Name.transform.run p targv w1).out = (Name.filter.run p fargv w2).out := by
  have hname : name ∈ commandOptions := by
    simp only [translations, List.mem_cons, List.not_mem_nil, or_false, Prod.mk.injEq] at hn
    rcases hn with ⟨rfl, _⟩ | ⟨rfl, _⟩ | ⟨rfl, _⟩ <;> decide
  have hs := filtered_survives p hsh f hf hc tl w hw fargv r hopt hops hfok
  refine filter_displaced p hz hsh f hs hc tl w hw fargv r hopt hops targv _ topt (by simp) (by simpa using hname) tops
    (fun ops ts t1 hall _ _ => ?_) hfok htok w1 w2 h1 h2
  obtain ⟨v, hv, hnear⟩ := stod_numeral hok hir
  obtain ⟨fv, ev⟩ := nearest_double hdbl hnear
  rw [← ev] at hsum
  rw [← henv] at hv
  have sum : ∀ {x : F64}, x.isFinite = true → IsDouble (x.val + v.val) → (F64.add x v).isFinite = true ∧ (F64.add x v).val = x.val + v.val :=
    fun hx ⟨y, hy, e⟩ => add_exact hx fv hy e
  have hall' := forall₂_left hall (P := fun q => Fin (pt q) ∧ ∀ x : F64, fld.get q = some x.bits.toNat → IsDouble (x.val + v.val))
    fun q hq => ⟨hfin q hq, hsum q hq⟩
  rw [hr]
  simp only [translations, List.mem_cons, List.not_mem_nil, or_false, Prod.mk.injEq] at hn
  rcases hn with ⟨rfl, rfl⟩ | ⟨rfl, rfl⟩ | ⟨rfl, rfl⟩
  · have t1' : [addXOp v] = ops := by
      simpa [commandsOf, List.mapM_cons, parseCommand, consumeDouble, hv, Res.ok_bind, pure] using t1
    subst t1'
    refine ⟨⟨v.val, 0, 0, hall'.imp fun x y k => ?_⟩, fun _ => hall'.imp fun x y k => ?_, fun c v e => absurd e (by simp)⟩
    · obtain ⟨k1, k2, k3⟩ := k
      obtain rfl : _ = y := Res.ok.inj k1
      obtain ⟨s1, s2⟩ := sum k2.1 (k3 x.x rfl)
      exact ⟨k2, ⟨s1, k2.2⟩, s2, (add_zero _).symm, (add_zero _).symm⟩
    · obtain rfl : _ = y := Res.ok.inj k.1
      rfl
  · have t1' : [addYOp v] = ops := by
      simpa [commandsOf, List.mapM_cons, parseCommand, consumeDouble, hv, Res.ok_bind, pure] using t1
    subst t1'
    refine ⟨⟨0, v.val, 0, hall'.imp fun x y k => ?_⟩, fun _ => hall'.imp fun x y k => ?_, fun c v e => absurd e (by simp)⟩
    · obtain ⟨k1, k2, k3⟩ := k
      obtain rfl : _ = y := Res.ok.inj k1
      obtain ⟨s1, s2⟩ := sum k2.2.1 (k3 x.y rfl)
      exact ⟨k2, ⟨k2.1, s1, k2.2.2⟩, (add_zero _).symm, s2, (add_zero _).symm⟩
    · obtain rfl : _ = y := Res.ok.inj k.1
      rfl
  · have t1' : [addZOp v] = ops := by
      simpa [commandsOf, List.mapM_cons, parseCommand, consumeDouble, hv, Res.ok_bind, pure] using t1
    subst t1'
    refine ⟨⟨0, 0, v.val, hall'.imp fun x y k => ?_⟩, fun _ => hall'.imp fun x y k => ?_, fun c v e => absurd e (by simp)⟩
    · obtain ⟨k1, k2, k3⟩ := k
      obtain rfl : _ = y := Res.ok.inj k1
      obtain ⟨s1, s2⟩ := sum k2.2.2 (k3 x.z rfl)
      exact ⟨k2, ⟨k2.1, k2.2.1, s1⟩, (add_zero _).symm, (add_zero _).symm, s2⟩
    · obtain rfl : _ = y := Res.ok.inj k.1
      rfl

/-! ## Examples -/

/-- A point with integer coordinates is moved by integers. -/
theorem displaced_num {x y z x' y' z' : Int} (hx : x.natAbs < 2 ^ 53) (hy : y.natAbs < 2 ^ 53) (hz : z.natAbs < 2 ^ 53)
    (hx' : x'.natAbs < 2 ^ 53) (hy' : y'.natAbs < 2 ^ 53) (hz' : z'.natAbs < 2 ^ 53) (d e f : Int) (h : x' = x + d ∧ y' = y + e ∧ z' = z + f)
    (hf : Spec.Fin ⟨num x, num y, num z⟩) (hf' : Spec.Fin ⟨num x', num y', num z'⟩) :
    Displaced d e f ⟨num x, num y, num z⟩ ⟨num x', num y', num z'⟩ := by
  refine ⟨hf, hf', ?_, ?_, ?_⟩
  · exact (num_val hx').trans (by rw [num_val hx, h.1]; push_cast; rfl)
  · exact (num_val hy').trans (by rw [num_val hy, h.2.1]; push_cast; rfl)
  · exact (num_val hz').trans (by rw [num_val hz, h.2.2]; push_cast; rfl)

/-- Eight units to the right, one down. -/
theorem example_displaced : List.Forall₂ (fun p q : Pt F64 => Displaced (8 : Int) (0 : Int) (-1 : Int) (pt p) (pt q))
    [⟨num 1, num 2, num 3⟩, ⟨num 4, num 2, num (-3)⟩] [⟨num 9, num 2, num 2⟩, ⟨num 12, num 2, num (-4)⟩] :=
  .cons (displaced_num (by decide) (by decide) (by decide) (by decide) (by decide) (by decide) _ _ _ (by decide)
    (by unfold Spec.Fin; decide +kernel) (by unfold Spec.Fin; decide +kernel))
  (.cons (displaced_num (by decide) (by decide) (by decide) (by decide) (by decide) (by decide) _ _ _ (by decide)
    (by unfold Spec.Fin; decide +kernel) (by unfold Spec.Fin; decide +kernel)) .nil)

example (b : Build) (sh : Subsampling.Shuffle) (seed : Nat) :
    Subsampling.subsampleIndexes b sh ([⟨num 9, num 2, num 2⟩, ⟨num 12, num 2, num (-4)⟩] : List (Pt F64)) (num 5) seed
      = Subsampling.subsampleIndexes b sh ([⟨num 1, num 2, num 3⟩, ⟨num 4, num 2, num (-3)⟩] : List (Pt F64)) (num 5) seed :=
  c113_subsample b sh example_displaced (num 5) seed

example (b : Build) (rng : Nat → Nat → Nat) :
    RadiusSearch.search b rng ([⟨num 9, num 2, num 2⟩, ⟨num 12, num 2, num (-4)⟩] : List (Pt F64)) [0, 1] [0, 1] (num 7) 5
      = RadiusSearch.search b rng ([⟨num 1, num 2, num 3⟩, ⟨num 4, num 2, num (-3)⟩] : List (Pt F64)) [0, 1] [0, 1] (num 7) 5 :=
  c113_search b rng example_displaced _ _ _ _

/-- The cloud of the examples, with numbers read as the C++ library reads them. -/
def textParams : Params := { exampleParams with env := { exampleEnv with stod := Text.stod } }

example (w1 w2 : World) (h1 : w1.stdin = { rest := (Name.filter.run textParams ["-s6".toList, "-u".toList] exampleInput).out })
    (h2 : w2.stdin = { rest := (Name.transform.run textParams ["--add-x=-8".toList] exampleInput).out }) :
    (Name.transform.run textParams ["--add-x=-8".toList] w1).out = (Name.filter.run textParams ["-s6".toList, "-u".toList] w2).out := by
  have hval : (⟨['-'], ['8'], none, none⟩ : Numeral).value = ((-8 : Int) : ℝ) := by
    unfold Numeral.value
    rw [show Numeral.mantissa ⟨['-'], ['8'], none, none⟩ = 8 from by decide, show Numeral.exponent ⟨['-'], ['8'], none, none⟩ = 0 from by decide,
      show Numeral.negative ⟨['-'], ['8'], none, none⟩ = true from by decide]
    norm_num
  have dbl : ∀ n : Int, n.natAbs < 2 ^ 53 → IsDouble (n : ℝ) := fun n h => ⟨num n, F64.ofInt_finite h, num_val h⟩
  refine (c113_translate textParams toyZlib_correct (fun _ l => List.Perm.refl l) rfl cloudA cloudA_survives.1 rfl [] exampleInput
    (by rw [List.append_nil]; rfl) ["-s6".toList, "-u".toList] { unique := true, resolution := some (num 6) } ?_
    (by decide +kernel) rfl (name := "add-x") (fld := .x) (by decide) ⟨['-'], ['8'], none, none⟩
    ⟨Or.inr (Or.inr rfl), by decide, by decide, by decide, fun e s d h => by simp at h⟩ ?_ ["--add-x=-8".toList]
    (by decide +kernel) (by decide +kernel) (by rw [hval]; exact dbl _ (by decide)) (by unfold Spec.Fin; decide +kernel) ?_
    (by decide +kernel) (by decide +kernel) w1 w2 h1 h2).2.2
  · rw [show Cmd.filter.options ["-s6".toList, "-u".toList] = [("subsample", "6".toList), ("unique-xyz", [])] by decide +kernel]
    exact ⟨by decide, by decide, by decide, by decide, by decide, by simp,
      show some (num 6) = if F64.gt (atof "6".toList) F64.zero then some (atof "6".toList) else none by decide +kernel,
      .inr ⟨rfl, rfl⟩, by decide, .inl rfl⟩
  · right
    rw [hval]
    have e : |((-8 : Int) : ℝ)| = 8 := by norm_num
    rw [e]
    constructor
    · have h1 : (1 : ℝ) / 2 ^ 1022 ≤ 1 := by
        rw [div_le_one (pow_pos (by norm_num) _)]
        exact one_le_pow₀ (by norm_num)
      exact h1.trans (by norm_num)
    · have := le_maxVal (F64.ofInt_finite (n := 8) (by decide))
      rw [F64.ofInt_val (by decide)] at this
      exact_mod_cast this
  · intro q hq x hx
    have hq' : q = { x := num 0, y := num 0 } ∨ q = { x := num 15, y := num 3 } ∨ q = { x := num 12, y := num 17 } := by
      simpa [cloudA, tilePoints] using hq
    rw [hval]
    rcases hq' with rfl | rfl | rfl
    · obtain rfl : num 0 = x := bits_inj (Option.some.inj hx)
      rw [num_val (by decide), ← Int.cast_add]
      exact dbl _ (by decide)
    · obtain rfl : num 15 = x := bits_inj (Option.some.inj hx)
      rw [num_val (by decide), ← Int.cast_add]
      exact dbl _ (by decide)
    · obtain rfl : num 12 = x := bits_inj (Option.some.inj hx)
      rw [num_val (by decide), ← Int.cast_add]
      exact dbl _ (by decide)

/-- **C113, negation**: when the sums are rounded, points that were apart may come together. -/
theorem c113_rounded : ∃ (p : Params) (w : World),
    (Name.filter.run p ["-s6".toList] w).res = .ok 0 ∧ (Name.transform.run p ["--add-x=1e300".toList] w).res = .ok 0
      ∧ (Name.transform.run p ["--add-x=1e300".toList] { w with stdin := { rest := (Name.filter.run p ["-s6".toList] w).out } }).out
        ≠ (Name.filter.run p ["-s6".toList] { w with stdin := { rest := (Name.transform.run p ["--add-x=1e300".toList] w).out } }).out :=
  ⟨textParams, exampleInput, by decide +kernel⟩

end Spoc.Props
