import Verif.Proofs.Upsample
import Verif.Props.ToolPoints

/-!
# C52, C53: transferring classes from a low-resolution to a high-resolution file
-/

namespace Spoc.Props

open Spec Text AppUtils Tool Subsampling

/-- The record `q` has the class that the transfer has to give to a point `p` in voxel `v`: that of the last low-resolution point in the same
voxel, or its own if there is none.  `vl` are the voxels of the low-resolution points `ls`. -/
def Transferred (ls : List PointRecord) (vl : List VoxelIndex) (v : VoxelIndex) (p q : PointRecord) : Prop :=
  (∃ (i : Nat) (lp : PointRecord), ls[i]? = some lp ∧ vl[i]? = some v ∧ (∀ i' : Nat, i < i' → vl[i']? ≠ some v) ∧ q.c = lp.c)
    ∨ ((∀ i : Nat, vl[i]? ≠ some v) ∧ q.c = p.c)

/-- **C52**: whenever the voxel indexes of both files are defined (those of the low-resolution points in the grid of the high-resolution file),
each high-resolution point gets the class of the last low-resolution point in its voxel, or keeps its class if there is none, and
nothing else is changed. -/
theorem c52_upsample (b : Build) (l f : SpocFile) (hul : Uniform l.prs) (huf : Uniform f.prs) (r : F64) (hr : F64.gt r F64.zero = true)
    (vh vl : List VoxelIndex) (hvh : Voxel.getIndexes f.prs r = .ok vh)
    (hvl : Voxel.getIndexesIn l.prs (Extent.ofPoints f.prs) r = .ok vl) :
    ∃ g n, upsample b l f r = .ok (g, n) ∧ SameApart f g ∧ g.prs.length = f.prs.length
      ∧ ∀ (j : Nat) (p : PointRecord) (v : VoxelIndex), f.prs[j]? = some p → vh[j]? = some v →
          ∃ q, g.prs[j]? = some q ∧ SameExcept [.c] p q ∧ Transferred l.prs vl v p q := by
  have h1 : vh.length = f.prs.length := mapM_length hvh
  have h2 : vl.length = l.prs.length := mapM_length hvl
  obtain ⟨qs, m, h3, h4, h5⟩ := upsampleLoop_ok b l vh vl 0 f 0 huf h1 (by omega)
  refine ⟨{ f with prs := qs }, m, ?_, ⟨rfl, rfl, rfl, rfl⟩, h4, ?_⟩
  · unfold upsample
    rw [uniform_valid hul, uniform_valid huf, hr, copy_ok huf]
    simp only [require_true, Res.ok_bind, hvh, hvl]
    exact h3
  · intro j p v hp hv
    have h6 := h5 j v hv
    rw [hp] at h6
    refine ⟨_, h6, ⟨rfl, ?_⟩, ?_⟩
    · intro fld hfld
      cases fld <;> first | rfl | simp at hfld
    · rw [List.drop_zero]
      have hz : ∀ (i : Nat) (c : UInt32), (vl.zip (l.prs.map (·.c)))[i]? = some (v, c) ↔
          vl[i]? = some v ∧ ∃ lp, l.prs[i]? = some lp ∧ lp.c = c := by
        intro i c
        rw [List.getElem?_zip_eq_some, List.getElem?_map, Option.map_eq_some_iff]
      cases hl : lastOf (vl.zip (l.prs.map (·.c))) v with
      | none =>
        refine Or.inr ⟨?_, rfl⟩
        intro i hi
        have hlt : i < l.prs.length := by rw [← h2]; exact (List.getElem?_eq_some_iff.mp hi).1
        exact lastOf_none hl i _ ((hz i _).mpr ⟨hi, l.prs[i], List.getElem?_eq_getElem hlt, rfl⟩)
      | some c =>
        obtain ⟨i, hi, hlast⟩ := lastOf_some hl
        obtain ⟨a1, lp, a2, a3⟩ := (hz i c).mp hi
        refine Or.inl ⟨i, lp, a2, a1, ?_, a3.symm⟩
        intro i' hi' hv'
        have hlt : i' < l.prs.length := by rw [← h2]; exact (List.getElem?_eq_some_iff.mp hv').1
        exact hlast i' hi' _ ((hz i' _).mpr ⟨hv', l.prs[i'], List.getElem?_eq_getElem hlt, rfl⟩)

/-- A high-resolution file: three points in two voxels of size 1, all of class 1, and one alone in a third voxel. -/
def highRes : SpocFile :=
  { SpocFile.empty with prs := [{ x := num 0, c := 1 }, { x := ⟨0x3FE0000000000000⟩, c := 1 }, { x := num 1, c := 1 }, { x := num 5, c := 9 }] }

/-- A low-resolution file: two points in the first voxel, one in the second one. -/
def lowRes : SpocFile :=
  { SpocFile.empty with prs := [{ x := num 0, c := 2 }, { x := num 1, c := 3 }, { x := ⟨0x3FE0000000000000⟩, c := 4 }] }

example : Uniform lowRes.prs ∧ Uniform highRes.prs ∧ F64.gt F64.one F64.zero = true
    ∧ Voxel.getIndexes highRes.prs F64.one = .ok [⟨0, 0, 0⟩, ⟨0, 0, 0⟩, ⟨1, 0, 0⟩, ⟨5, 0, 0⟩]
    ∧ Voxel.getIndexesIn lowRes.prs (Extent.ofPoints highRes.prs) F64.one = .ok [⟨0, 0, 0⟩, ⟨1, 0, 0⟩, ⟨0, 0, 0⟩] := by
  unfold Uniform
  decide +kernel

/-- The file of the example after the transfer: the last of the two points in the first voxel wins, the point that is alone keeps its class. -/
example : upsample .debug lowRes highRes F64.one = .ok ({ SpocFile.empty with prs := [{ x := num 0, c := 4 }, { x := ⟨0x3FE0000000000000⟩, c := 4 },
    { x := num 1, c := 3 }, { x := num 5, c := 9 }] }, 5) := by decide +kernel

/-- C52 for the application: the input is the low-resolution file, the parameter names the high-resolution file. -/
theorem c52_app (b : Build) (zl : Zlib) (files : Files) (input s s' sh : IStream) (l f : SpocFile) (fn t : Str)
    (hl : Io.readFile b zl input = .ok (l, s)) (hfn : files.spoc fn = some sh) (hf : Io.readFile b zl sh = .ok (f, s')) :
    main b zl files [("upsample-classifications", fn), ("resolution", t)] input =
      if F64.le (atof t) F64.zero then
        .throw "The 'resolution' option must be set to a value > 0.0 when using the 'upsample' command"
      else upsample b l f (atof t) >>= fun g => .ok (.file (Io.writeFile b zl g.1)) := by
  have hfo : Apps.fileOf (Io.readFile b zl input) = .ok l := by rw [hl]; rfl
  have hfo' : Apps.fileOf (Io.readFile b zl sh) = .ok f := by rw [hf]; rfl
  have ha : getArgs [("upsample-classifications", fn), ("resolution", t)] {}
      = .ok { command := { name := "upsample-classifications", params := fn }, resolution := atof t } := by rfl
  unfold main
  rw [ha]
  simp only [Res.ok_bind, hfo]
  rw [if_neg (by simp), if_neg (by simp), if_neg (by simp), if_neg (by simp)]
  unfold run
  rw [if_neg (by simp), if_neg (by simp), if_neg (by simp), if_neg (by simp), if_neg (by simp), if_neg (by simp), if_pos rfl]
  simp only [hfn, hfo', Res.ok_bind]
  by_cases h : F64.le (atof t) F64.zero = true
  · rw [if_pos h, if_pos h]; rfl
  · rw [if_neg h, if_neg h]
    cases upsample b l f (atof t) <;> rfl

/-- Why C52 needs its hypothesis: a low-resolution point below the extent of the high-resolution file is undefined behaviour. -/
theorem c52_outside_undefined (b : Build) :
    (upsample b { SpocFile.empty with prs := [{ x := num (-1) }] } { SpocFile.empty with prs := [{ x := num 0 }] } F64.one).isUb = true := by
  cases b <;> decide +kernel

/-! ## C53 -/

theorem getIndex_congr {p q : PointRecord} (h : SameExcept [.c] p q) : pt q = pt p := by
  have hx := h.2 .x (by simp)
  have hy := h.2 .y (by simp)
  have hz := h.2 .z (by simp)
  simp only [Field.get, Option.some.injEq] at hx hy hz
  unfold pt
  show (⟨q.x, q.y, q.z⟩ : Pt F64) = ⟨p.x, p.y, p.z⟩
  rw [bits_inj hx, bits_inj hy, bits_inj hz]

/-- **C53**: let `qs` be the points that subsampling `f` returns, for any seed and shuffle, and let `l` contain the same points with
any classes.  Then the transfer is defined and gives each point of `f` the class that the representative of its voxel has in `l`; there is
exactly one representative. -/
theorem c53_subsample_upsample (b : Build) (sh : Shuffle) (hsh : sh.Lawful) (l f : SpocFile) (huf : Uniform f.prs) (r : F64)
    (hr : F64.gt r F64.zero = true) (seed : Nat) (qs : List PointRecord) (hq : subsamplePoints b sh f.prs r seed = .ok qs)
    (hl : List.Forall₂ (SameExcept [.c]) qs l.prs) :
    ∃ vs ks g n, Voxel.getIndexes f.prs r = .ok vs ∧ subsampleIndexes b sh f.prs r seed = .ok ks ∧ ks.length = l.prs.length
      ∧ upsample b l f r = .ok (g, n) ∧ SameApart f g ∧ g.prs.length = f.prs.length
      ∧ ∀ (j : Nat) (p : PointRecord), f.prs[j]? = some p →
          ∃ q i k lp, g.prs[j]? = some q ∧ SameExcept [.c] p q
            ∧ ks[i]? = some k ∧ vs[k]? = vs[j]? ∧ l.prs[i]? = some lp ∧ q.c = lp.c
            ∧ ∀ (i' k' : Nat), ks[i']? = some k' → vs[k']? = vs[j]? → i' = i := by
  have hdef : ∃ vs, Voxel.getIndexes f.prs r = .ok vs := by
    cases hv : Voxel.getIndexes f.prs r with
    | ok vs => exact ⟨vs, rfl⟩
    | _ =>
      have := c23_undefined b sh f.prs r seed (by rw [hv]; rfl)
      rw [hq] at this
      simp [Res.isOk] at this
  obtain ⟨vs, hv⟩ := hdef
  obtain ⟨ks, qs', h1, h2, h3, h4, h5, h6, h7⟩ := c23_one_per_voxel b sh hsh f.prs r seed vs hv
  rw [hq] at h2
  obtain rfl := Res.ok.inj h2
  have hvlen : vs.length = f.prs.length := mapM_length hv
  have hul : Uniform l.prs := by
    have key : ∀ q ∈ l.prs, ∃ p ∈ f.prs, q.extra.length = p.extra.length := by
      intro q hql
      obtain ⟨i, hi, rfl⟩ := List.mem_iff_getElem.mp hql
      have hi1 : i < qs.length := by rw [hl.length_eq]; exact hi
      have hi2 : i < ks.length := by rw [h3.length_eq]; exact hi1
      exact ⟨qs[i], List.mem_of_getElem? (forall₂_get h3 hi2 hi1), (forall₂_get hl hi1 hi).1⟩
    intro a ha c hc
    obtain ⟨p, hp, e⟩ := key a ha
    obtain ⟨p', hp', e'⟩ := key c hc
    rw [e, e', huf p hp p' hp']
  -- the voxels of the low-resolution points
  have hvox : ∀ (i : Nat) (q : PointRecord), l.prs[i]? = some q → ∃ (k : Nat) (v : VoxelIndex), ks[i]? = some k ∧ vs[k]? = some v
      ∧ Voxel.getIndex (pt q) (Extent.ofPoints f.prs).minp r = .ok v := by
    intro i q hiq
    obtain ⟨hi, e⟩ := List.getElem?_eq_some_iff.mp hiq
    have hi1 : i < qs.length := by rw [hl.length_eq]; exact hi
    have hi2 : i < ks.length := by rw [h3.length_eq]; exact hi1
    have e1 := forall₂_get h3 hi2 hi1
    have e2 := forall₂_get hl hi1 hi
    obtain ⟨v, w1, w2⟩ := mapM_get hv e1
    refine ⟨ks[i], v, List.getElem?_eq_getElem hi2, w1, ?_⟩
    rw [← e, getIndex_congr e2]
    exact w2
  obtain ⟨vl, hvl⟩ : ∃ vl, Voxel.getIndexesIn l.prs (Extent.ofPoints f.prs) r = .ok vl := by
    apply mapM_ok_of
    intro q hql
    obtain ⟨i, hi, rfl⟩ := List.mem_iff_getElem.mp hql
    obtain ⟨k, v, _, _, w⟩ := hvox i _ (List.getElem?_eq_getElem hi)
    exact ⟨v, w⟩
  have hlv : ∀ (i k : Nat), ks[i]? = some k → vl[i]? = vs[k]? := by
    intro i k hk
    have hi2 := (List.getElem?_eq_some_iff.mp hk).1
    have hi : i < l.prs.length := by rw [← hl.length_eq, ← h3.length_eq]; exact hi2
    obtain ⟨k', v, w1, w2, w3⟩ := hvox i _ (List.getElem?_eq_getElem hi)
    rw [hk] at w1
    obtain rfl := Option.some.inj w1
    obtain ⟨v', u1, u2⟩ := mapM_get hvl (List.getElem?_eq_getElem hi)
    rw [w3] at u2
    rw [u1, w2, Res.ok.inj u2]
  obtain ⟨g, n, g1, g2, g3, g4⟩ := c52_upsample b l f hul huf r hr vs vl hv hvl
  refine ⟨vs, ks, g, n, hv, h1, by rw [h3.length_eq, hl.length_eq], g1, g2, g3, ?_⟩
  intro j p hp
  have hj := (List.getElem?_eq_some_iff.mp hp).1
  obtain ⟨v, hvj⟩ : ∃ v, vs[j]? = some v := ⟨vs[j]'(by omega), List.getElem?_eq_getElem (by omega)⟩
  obtain ⟨q, q1, q2, q3⟩ := g4 j p v hp hvj
  rcases q3 with ⟨i, lp, a1, a2, _, a4⟩ | ⟨a1, _⟩
  · have hi := (List.getElem?_eq_some_iff.mp a1).1
    have hi2 : i < ks.length := by rw [h3.length_eq, hl.length_eq]; exact hi
    have hk := List.getElem?_eq_getElem hi2
    have hkv : vs[ks[i]]? = vs[j]? := by rw [← hlv i _ hk, a2, hvj]
    refine ⟨q, i, ks[i], lp, q1, q2, hk, hkv, a1, a4, ?_⟩
    intro i' k' hk' hv'
    obtain ⟨hi', e'⟩ := List.getElem?_eq_some_iff.mp hk'
    have : k' = ks[i] := h6 _ (List.mem_of_getElem? hk') _ (List.getElem_mem hi2) (by rw [hv', hkv])
    rw [← e'] at this
    exact (h4.getElem_inj_iff).mp this
  · exfalso
    obtain ⟨k, hk, e⟩ := h7 j hj
    obtain ⟨i, hi, e'⟩ := List.mem_iff_getElem.mp hk
    exact a1 i (by rw [hlv i k (by rw [List.getElem?_eq_getElem hi, e']), e, hvj])

/-- A case with two points in one voxel; the representative is the second one, and it is given the class 7. -/
example : let sh : Shuffle := fun _ x => x.reverse
    let f : SpocFile := { SpocFile.empty with prs := [{ x := num 0, c := 1 }, { x := ⟨0x3FE0000000000000⟩, c := 1 }] }
    sh.Lawful ∧ Uniform f.prs ∧ F64.gt F64.one F64.zero = true
      ∧ subsamplePoints .debug sh f.prs F64.one 1 = .ok [{ x := ⟨0x3FE0000000000000⟩, c := 1 }]
      ∧ List.Forall₂ (SameExcept [.c]) [({ x := ⟨0x3FE0000000000000⟩, c := 1 } : PointRecord)] [{ x := ⟨0x3FE0000000000000⟩, c := 7 }] := by
  refine ⟨fun _ l => List.reverse_perm l, by unfold Uniform; decide +kernel, by decide +kernel, by decide +kernel, ?_⟩
  refine .cons ⟨rfl, ?_⟩ .nil
  intro fld hfld
  cases fld <;> first | rfl | simp at hfld

end Spoc.Props
