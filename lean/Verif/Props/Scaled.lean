import Verif.Proofs.Scaled
import Verif.Props.Displaced

/-!
# C117: the unit of length does not matter
-/

namespace Spoc.Props

open Spec Transform AppUtils Text Main

section
variable {α : Type} [HasXYZ α]

/-- **C117**, voxels: if all coordinates and the size of the voxels are multiplied by the same factor, every point stays in its voxel. -/
theorem c117_voxels {s : ℝ} (hs : 0 < s) {ps qs : List α} (h : List.Forall₂ (fun p q => Scaled s (pt p) (pt q)) ps qs) (hfa : Faithful s ps qs)
    {r r' : F64} (hr : r.isFinite = true) (hr' : r'.isFinite = true) (h0 : 0 < r.val) (e : r'.val = s * r.val) :
    Voxel.getIndexes qs r' = Voxel.getIndexes ps r :=
  (indexes_scaled hs h hfa hr hr' (F64.val_pos.mp h0) e).symm

/-- **C117**, subsampling: the points with the same numbers are kept. -/
theorem c117_subsample (b : Build) (sh : Subsampling.Shuffle) {s : ℝ} (hs : 0 < s) {ps qs : List α}
    (h : List.Forall₂ (fun p q => Scaled s (pt p) (pt q)) ps qs) (hfa : Faithful s ps qs)
    {r r' : F64} (hr : r.isFinite = true) (hr' : r'.isFinite = true) (h0 : 0 < r.val) (e : r'.val = s * r.val) (seed : Nat) :
    Subsampling.subsampleIndexes b sh qs r' seed = Subsampling.subsampleIndexes b sh ps r seed := by
  unfold Subsampling.subsampleIndexes
  rw [c117_voxels hs h hfa hr hr' h0 e, h.length_eq]

/-- **C117**, points at the same place: no rounding can get in the way. -/
theorem c117_unique (b : Build) (sh : Subsampling.Shuffle) (hsh : sh.Lawful) {s : ℝ} (hs : 0 < s) {ps qs : List α}
    (h : List.Forall₂ (fun p q => Scaled s (pt p) (pt q)) ps qs) (seed : Nat) :
    Subsampling.uniqueXyzIndexes b sh qs seed = Subsampling.uniqueXyzIndexes b sh ps seed := by
  rw [uniqueXyzIndexes_eq b sh hsh, uniqueXyzIndexes_eq b sh hsh, sameLoc_scaled hs h, h.length_eq]

/-- **C117**, the box around the points. -/
theorem c117_extent {s : ℝ} (hs : 0 < s) {ps qs : List α} (hne : ps ≠ []) (h : List.Forall₂ (fun p q => Scaled s (pt p) (pt q)) ps qs) :
    Scaled s (Extent.ofPoints ps).minp (Extent.ofPoints qs).minp ∧ Scaled s (Extent.ofPoints ps).maxp (Extent.ofPoints qs).maxp :=
  extent_scaled hs hne h

end

/-- **C117**, tiles of a given size: every point is in the tile with the same number. -/
theorem c117_tiles {s : ℝ} (hs : 0 < s) {ps qs : List PointRecord} (hne : ps ≠ [])
    (h : List.Forall₂ (fun p q => Scaled s (pt p) (pt q)) ps qs) (hfa : Faithful s ps qs) {u u' v v' : F64} (hu : u.isFinite = true)
    (hu' : u'.isFinite = true) (hv : v.isFinite = true) (hv' : v'.isFinite = true) (h0u : 0 < u.val) (h0v : 0 < v.val)
    (eu : u'.val = s * u.val) (ev : v'.val = s * v.val) :
    Tile.getTileIndexes qs (Extent.ofPoints qs) u' v' = Tile.getTileIndexes ps (Extent.ofPoints ps) u v :=
  (tiles_scaled hs hne h hfa hu hu' hv hv' (F64.val_pos.mp h0u) (F64.val_pos.mp h0v) eu ev).symm

/-- Two points 2^-30 apart. -/
def tinyTiles : List PointRecord := [{}, { x := ⟨0x3E10000000000000⟩ }]

/-- The same in a unit 2^30 times smaller. -/
def largeTiles : List PointRecord := [{}, { x := num 1 }]

theorem tiny_large : List.Forall₂ (fun p q => Scaled (2 ^ 30) (pt p) (pt q)) tinyTiles largeTiles :=
  .cons ⟨by unfold Spec.Fin; decide +kernel, by unfold Spec.Fin; decide +kernel, F64.val_of_fv (by decide +kernel),
    F64.val_of_fv (by decide +kernel), F64.val_of_fv (by decide +kernel)⟩
  (.cons ⟨by unfold Spec.Fin; decide +kernel, by unfold Spec.Fin; decide +kernel, F64.val_of_fv (by decide +kernel),
    F64.val_of_fv (by decide +kernel), F64.val_of_fv (by decide +kernel)⟩ .nil)

/-- **C117, negation** for a given number of tiles: a constant of 2^-23 is added to the size of the cloud, whatever the unit.  Two points
that are 2^-30 apart are put into one tile when two tiles across are asked for, in a unit 2^30 times smaller into two. -/
theorem c117_number_of_tiles : ∃ (ps qs : List PointRecord) (a : Tile.Args) (u u' : F64), List.Forall₂ (fun p q => Scaled (2 ^ 30) (pt p) (pt q)) ps qs
    ∧ Tile.tileSizes a (Extent.ofPoints ps) = .ok (u, u) ∧ Tile.tileSizes a (Extent.ofPoints qs) = .ok (u', u')
    ∧ Tile.getTileIndexes ps (Extent.ofPoints ps) u u = .ok [0, 0] ∧ Tile.getTileIndexes qs (Extent.ofPoints qs) u' u' = .ok [0, 1] :=
  ⟨tinyTiles, largeTiles, { tiles := 2 }, Tile.getTileSize (Extent.ofPoints tinyTiles) 2, Tile.getTileSize (Extent.ofPoints largeTiles) 2, tiny_large,
    by decide +kernel, by decide +kernel, by decide +kernel, by decide +kernel⟩

/-- Two points 1.5 units of 2^-600 apart. -/
def closePoints : List (Pt F64) := [⟨num 0, num 0, num 0⟩, ⟨⟨0x1A78000000000000⟩, num 0, num 0⟩]

/-- Two points 1.5 units apart. -/
def farPoints : List (Pt F64) := [⟨num 0, num 0, num 0⟩, ⟨⟨0x3FF8000000000000⟩, num 0, num 0⟩]

theorem close_far : List.Forall₂ (fun p q => Scaled (2 ^ 600) (pt p) (pt q)) closePoints farPoints :=
  .cons ⟨by unfold Spec.Fin; decide +kernel, by unfold Spec.Fin; decide +kernel, F64.val_of_fv (by decide +kernel),
    F64.val_of_fv (by decide +kernel), F64.val_of_fv (by decide +kernel)⟩
  (.cons ⟨by unfold Spec.Fin; decide +kernel, by unfold Spec.Fin; decide +kernel, F64.val_of_fv (by decide +kernel),
    F64.val_of_fv (by decide +kernel), F64.val_of_fv (by decide +kernel)⟩ .nil)

/-- **C117, negation** for the radius search: the square of a difference of 1.5 * 2^-600 is too small for a double and becomes zero, so the
points are taken for neighbours within 2^-600; in a unit 2^600 times smaller they are not. -/
theorem c117_search : ∃ (ps qs : List (Pt F64)) (r r' : F64), List.Forall₂ (fun p q => Scaled (2 ^ 600) (pt p) (pt q)) ps qs
    ∧ r'.val = 2 ^ 600 * r.val ∧ 0 < r.fv
    ∧ RadiusSearch.searchAll .debug (fun _ _ => 0) ps r 10 = .ok [[0, 1], [0, 1]]
    ∧ RadiusSearch.searchAll .debug (fun _ _ => 0) qs r' 10 = .ok [[0], [1]] :=
  ⟨closePoints, farPoints, ⟨0x1A70000000000000⟩, num 1, close_far, F64.val_of_fv (by decide +kernel), by decide +kernel, by decide +kernel,
    by decide +kernel⟩

/-- Three points with x = 0, 0.25 and 0.3. -/
def decimalCloud : SpocFile :=
  { cloudA with prs := [{}, { x := ⟨0x3FD0000000000000⟩ }, { x := ⟨0x3FD3333333333333⟩ }] }

/-- They are on the standard input. -/
def decimalInput : World := { exampleInput with stdin := { rest := (Io.writeFile textParams.build textParams.zlib decimalCloud).bytes } }

/-- **C117, negation** for factors that are not powers of two: 0.3 / 0.1 is 2.9999999999999996, but 3 / 1 is 3.  Subsampling by 0.1 and
then multiplying x by 10 does not leave the points that multiplying x by 10 and then subsampling by 1 does. -/
theorem c117_decimal : ∃ (p : Params) (w : World), p.env.stod = Text.stod
      ∧ (Name.filter.run p ["-s0.1".toList] w).res = .ok 0 ∧ (Name.transform.run p ["--scale-x=10".toList] w).res = .ok 0
      ∧ (Name.transform.run p ["--scale-x=10".toList] { w with stdin := { rest := (Name.filter.run p ["-s0.1".toList] w).out } }).out
        ≠ (Name.filter.run p ["-s1".toList] { w with stdin := { rest := (Name.transform.run p ["--scale-x=10".toList] w).out } }).out :=
  ⟨textParams, decimalInput, rfl, by decide +kernel⟩

/-! ## Examples -/

/-- A point with integer coordinates is multiplied by an integer. -/
theorem scaled_num {x y z x' y' z' : Int} (hx : x.natAbs < 2 ^ 53) (hy : y.natAbs < 2 ^ 53) (hz : z.natAbs < 2 ^ 53)
    (hx' : x'.natAbs < 2 ^ 53) (hy' : y'.natAbs < 2 ^ 53) (hz' : z'.natAbs < 2 ^ 53) (s : Int) (h : x' = s * x ∧ y' = s * y ∧ z' = s * z) :
    Scaled s ⟨num x, num y, num z⟩ ⟨num x', num y', num z'⟩ := by
  refine ⟨⟨F64.ofInt_finite hx, F64.ofInt_finite hy, F64.ofInt_finite hz⟩, ⟨F64.ofInt_finite hx', F64.ofInt_finite hy', F64.ofInt_finite hz'⟩, ?_, ?_, ?_⟩
  · exact (num_val hx').trans (by rw [num_val hx, h.1]; push_cast; rfl)
  · exact (num_val hy').trans (by rw [num_val hy, h.2.1]; push_cast; rfl)
  · exact (num_val hz').trans (by rw [num_val hz, h.2.2]; push_cast; rfl)

/-- Ten times as large. -/
theorem example_scaled : List.Forall₂ (fun p q : Pt F64 => Scaled (10 : Int) (pt p) (pt q))
    [⟨num 1, num 2, num 3⟩, ⟨num 4, num 2, num (-3)⟩] [⟨num 10, num 20, num 30⟩, ⟨num 40, num 20, num (-30)⟩] :=
  .cons (scaled_num (by decide) (by decide) (by decide) (by decide) (by decide) (by decide) _ (by decide))
  (.cons (scaled_num (by decide) (by decide) (by decide) (by decide) (by decide) (by decide) _ (by decide)) .nil)

/-- The differences of integers are not rounded. -/
theorem exact_num (l : List (Int × Int × Int)) (h : ∀ t ∈ l, t.1.natAbs < 2 ^ 52 ∧ t.2.1.natAbs < 2 ^ 52 ∧ t.2.2.natAbs < 2 ^ 52) :
    ExactDifferences (l.map fun t => (⟨num t.1, num t.2.1, num t.2.2⟩ : Pt F64)) := by
  have d : ∀ m n : Int, m.natAbs < 2 ^ 52 → n.natAbs < 2 ^ 52 → IsDouble ((num m).val - (num n).val) := by
    intro m n h1 h2
    rw [num_val (n := m) (by omega), num_val (n := n) (by omega), ← Int.cast_sub]
    exact ⟨num (m - n), F64.ofInt_finite (by omega), num_val (by omega)⟩
  intro p hp q hq
  obtain ⟨t, ht, rfl⟩ := List.mem_map.mp hp
  obtain ⟨u, hu, rfl⟩ := List.mem_map.mp hq
  obtain ⟨a1, a2, a3⟩ := h t ht
  obtain ⟨b1, b2, b3⟩ := h u hu
  exact ⟨d _ _ a1 b1, d _ _ a2 b2, d _ _ a3 b3⟩

/-- Differences that are doubles are not too large for a double. -/
theorem bounded_of_exact {α : Type} [HasXYZ α] {ps : List α} (h : ExactDifferences ps) : BoundedDifferences ps := by
  have k : ∀ {v : ℝ}, IsDouble v → |v| ≤ F64.maxVal.val := by
    rintro v ⟨x, hx, rfl⟩
    have hn := le_maxVal (F64.negate_finite hx)
    have e : (F64.negate x).val = - x.val := by
      unfold F64.val
      rw [F64.negate_fv, Int.cast_neg, neg_div]
    rw [e] at hn
    exact abs_le.mpr ⟨by linarith only [hn], le_maxVal hx⟩
  exact fun p hp q hq => ⟨k (h p hp q hq).1, k (h p hp q hq).2.1, k (h p hp q hq).2.2⟩

/-- From metres to decimetres, no difference being rounded. -/
example (b : Build) (sh : Subsampling.Shuffle) (seed : Nat) :
    Subsampling.subsampleIndexes b sh ([⟨num 10, num 20, num 30⟩, ⟨num 40, num 20, num (-30)⟩] : List (Pt F64)) (num 50) seed
      = Subsampling.subsampleIndexes b sh ([⟨num 1, num 2, num 3⟩, ⟨num 4, num 2, num (-3)⟩] : List (Pt F64)) (num 5) seed := by
  have e5 : (num 5).val = ((5 : Int) : ℝ) := num_val (by decide)
  have e50 : (num 50).val = ((50 : Int) : ℝ) := num_val (by decide)
  have h5 : 0 < (num 5).val := by rw [e5]; norm_num
  have h50 : (num 50).val = ((10 : Int) : ℝ) * (num 5).val := by rw [e5, e50]; norm_num
  exact c117_subsample b sh (s := ((10 : Int) : ℝ)) (by norm_num) example_scaled
    (.inr ⟨exact_num [(1, 2, 3), (4, 2, -3)] (by decide), exact_num [(10, 20, 30), (40, 20, -30)] (by decide)⟩)
    (F64.ofInt_finite (n := 5) (by decide)) (F64.ofInt_finite (n := 50) (by decide)) h5 h50 seed

/-- Eight times as large. -/
example : Faithful 8 ([⟨num 1, num 2, num 3⟩, ⟨num 4, num 2, num (-3)⟩] : List (Pt F64)) [⟨num 8, num 16, num 24⟩, ⟨num 32, num 16, num (-24)⟩] :=
  .inl ⟨⟨3, by norm_num⟩, bounded_of_exact (exact_num [(8, 16, 24), (32, 16, -24)] (by decide))⟩

end Spoc.Props
