import Verif.Proofs.Sums
import Verif.Props.Reordered
import Verif.Props.Cells

/-!
# C141: the center of a cloud is within it and does not depend on the order of the points
-/

namespace Spoc.Props

open Getopt Cmd Main Spec Spec.Cmd Text Spoc.Reordered

/-- All coordinates are multiples of 2^k, and so small that no sum of them needs more than 53 bits. -/
def FineCloud {α : Type} [HasXYZ α] (k : ℤ) (b : Nat) (ps : List α) : Prop :=
  (∀ p ∈ ps, OnGrid k b (pt p).x ∧ OnGrid k b (pt p).y ∧ OnGrid k b (pt p).z) ∧ ps.length * 2 ^ b < 2 ^ 53

/-- One coordinate of the center. -/
theorem centerOf_grid {k : ℤ} (hk0 : -1074 ≤ k) (hk : k ≤ 970) {b : Nat} {xs : List F64} (hne : xs ≠ []) (hg : ∀ x ∈ xs, OnGrid k b x)
    (hs : xs.length * 2 ^ b < 2 ^ 53) :
    (F64.div (xs.foldl F64.add F64.zero) (F64.ofNat xs.length)).isFinite = true
      ∧ Nearest (F64.div (xs.foldl F64.add F64.zero) (F64.ofNat xs.length)) ((xs.map F64.val).sum / xs.length)
      ∧ (∃ x ∈ xs, x.val ≤ (F64.div (xs.foldl F64.add F64.zero) (F64.ofNat xs.length)).val)
      ∧ ∃ x ∈ xs, (F64.div (xs.foldl F64.add F64.zero) (F64.ofNat xs.length)).val ≤ x.val := by
  obtain ⟨f1, -, e1⟩ := F64.sum_units hk0 hk xs hg F64.zero 0 (by decide) (by decide) (by rw [F64.zero_fv, zero_mul])
    (by rw [Int.natAbs_zero, Nat.zero_add]; exact hs.le)
  have z : F64.zero.val = 0 := by unfold F64.val; rw [F64.zero_fv, Int.cast_zero, zero_div]
  rw [z, zero_add] at e1
  have hlen : 0 < xs.length := List.length_pos_iff.mpr hne
  have hl : xs.length < 2 ^ 53 := lt_of_le_of_lt (Nat.le_mul_of_pos_right _ (Nat.two_pow_pos b)) hs
  have en : (F64.ofNat xs.length).val = xs.length := by
    unfold F64.ofNat
    rw [F64.ofInt_val (by omega), Int.cast_natCast]
  have fn : (F64.ofNat xs.length).isFinite = true := F64.ofInt_finite (by omega)
  have pn : 0 < (F64.ofNat xs.length).fv := by
    unfold F64.ofNat
    rw [F64.ofInt_fv (by omega)]
    exact mul_pos (by omega) (by exact_mod_cast F64.one1074_pos)
  have near := F64.div_nearest f1 fn pn
  rw [e1, en] at near
  have hne' : xs.map F64.val ≠ [] := by simpa using hne
  have low : ∃ x ∈ xs, x.val ≤ (xs.map F64.val).sum / xs.length := by
    by_contra hcon
    push Not at hcon
    have := mean_lt hne' (fun v hv => by obtain ⟨x, hx, rfl⟩ := List.mem_map.mp hv; exact hcon x hx)
    rw [List.length_map] at this
    exact lt_irrefl _ this
  have high : ∃ x ∈ xs, (xs.map F64.val).sum / xs.length ≤ x.val := by
    by_contra hcon
    push Not at hcon
    have := lt_mean hne' (fun v hv => by obtain ⟨x, hx, rfl⟩ := List.mem_map.mp hv; exact hcon x hx)
    rw [List.length_map] at this
    exact lt_irrefl _ this
  obtain ⟨x, hx, hxl⟩ := low
  obtain ⟨y, hy, hyl⟩ := high
  have lo := nearest_ge near (F64.not_nan_of_finite (hg x hx).1) hxl
  have hi := nearest_le near (F64.not_nan_of_finite (hg y hy).1) hyl
  have fin : (F64.div (xs.foldl F64.add F64.zero) (F64.ofNat xs.length)).isFinite = true := by
    rcases le_total 0 (F64.div (xs.foldl F64.add F64.zero) (F64.ofNat xs.length)).val with h | h
    · exact F64.finite_of_val_le (hg y hy).1 (by rw [abs_of_nonneg h, abs_of_nonneg (h.trans hi)]; exact hi)
    · exact F64.finite_of_val_le (hg x hx).1 (by rw [abs_of_nonpos h, abs_of_nonpos (lo.trans h)]; exact neg_le_neg lo)
  exact ⟨fin, near, ⟨x, hx, lo⟩, y, hy, hi⟩

/-- Sums on a grid do not depend on the order. -/
theorem sum_order {k : ℤ} (hk0 : -1074 ≤ k) (hk : k ≤ 970) {b : Nat} {xs ys : List F64} (hp : xs.Perm ys) (hg : ∀ x ∈ xs, OnGrid k b x)
    (hs : xs.length * 2 ^ b < 2 ^ 53) : xs.foldl F64.add F64.zero = ys.foldl F64.add F64.zero := by
  obtain ⟨-, n1, e1⟩ := F64.sum_units hk0 hk xs hg F64.zero 0 (by decide) (by decide) (by rw [F64.zero_fv, zero_mul])
    (by rw [Int.natAbs_zero, Nat.zero_add]; exact hs.le)
  obtain ⟨-, n2, e2⟩ := F64.sum_units hk0 hk ys (fun y hy => hg y (hp.mem_iff.mpr hy)) F64.zero 0 (by decide) (by decide) (by rw [F64.zero_fv, zero_mul])
    (by rw [Int.natAbs_zero, Nat.zero_add, ← hp.length_eq]; exact hs.le)
  exact eq_of_val n1 n2 (by rw [e1, e2, (hp.map F64.val).sum_eq])

section
variable {α : Type} [HasXYZ α]

theorem center_eq (ps : List α) :
    Utils.getCenter ps = ⟨F64.div ((ps.map (fun p => (pt p).x)).foldl F64.add F64.zero) (F64.ofNat (ps.map (fun p => (pt p).x)).length),
      F64.div ((ps.map (fun p => (pt p).y)).foldl F64.add F64.zero) (F64.ofNat (ps.map (fun p => (pt p).y)).length),
      F64.div ((ps.map (fun p => (pt p).z)).foldl F64.add F64.zero) (F64.ofNat (ps.map (fun p => (pt p).z)).length)⟩ := by
  unfold Utils.getCenter
  rw [foldl_center]
  simp only [List.foldl_map, List.length_map]

theorem FineCloud.coord {k : ℤ} {b : Nat} {ps : List α} (h : FineCloud k b ps) (g : α → F64) (hg : ∀ p ∈ ps, OnGrid k b (g p)) :
    (∀ x ∈ ps.map g, OnGrid k b x) ∧ (ps.map g).length * 2 ^ b < 2 ^ 53 :=
  ⟨fun x hx => by obtain ⟨p, hp, rfl⟩ := List.mem_map.mp hx; exact hg p hp, by rw [List.length_map]; exact h.2⟩

/-- **C141** (partial: coordinates on a grid, and so small that the sums are exact; see `c86_outside` for other coordinates): the center is, in each
coordinate, the double nearest to the mean of the points, and it is not to the left or to the right of all of them. -/
theorem c141_center_partial {k : ℤ} (hk0 : -1074 ≤ k) (hk : k ≤ 970) {b : Nat} (ps : List α) (hne : ps ≠ []) (h : FineCloud k b ps) :
    Spec.Fin (Utils.getCenter ps)
      ∧ (Nearest (Utils.getCenter ps).x (coordMean (·.x) ps) ∧ Nearest (Utils.getCenter ps).y (coordMean (·.y) ps)
        ∧ Nearest (Utils.getCenter ps).z (coordMean (·.z) ps))
      ∧ ((∃ p ∈ ps, (pt p).x.val ≤ (Utils.getCenter ps).x.val) ∧ ∃ p ∈ ps, (Utils.getCenter ps).x.val ≤ (pt p).x.val)
      ∧ ((∃ p ∈ ps, (pt p).y.val ≤ (Utils.getCenter ps).y.val) ∧ ∃ p ∈ ps, (Utils.getCenter ps).y.val ≤ (pt p).y.val)
      ∧ ((∃ p ∈ ps, (pt p).z.val ≤ (Utils.getCenter ps).z.val) ∧ ∃ p ∈ ps, (Utils.getCenter ps).z.val ≤ (pt p).z.val) := by
  have key : ∀ (g : Pt F64 → F64), (∀ p ∈ ps, OnGrid k b (g (pt p))) → ∀ c,
      c = F64.div ((ps.map (fun p => g (pt p))).foldl F64.add F64.zero) (F64.ofNat (ps.map (fun p => g (pt p))).length) →
      c.isFinite = true ∧ Nearest c (coordMean g ps) ∧ (∃ p ∈ ps, (g (pt p)).val ≤ c.val) ∧ ∃ p ∈ ps, c.val ≤ (g (pt p)).val := by
    rintro g hg c rfl
    obtain ⟨h1, h2⟩ := h.coord (fun p => g (pt p)) hg
    obtain ⟨r1, r2, ⟨x, hx, r3⟩, y, hy, r4⟩ := centerOf_grid hk0 hk (by simpa using hne) h1 h2
    obtain ⟨p, hp, rfl⟩ := List.mem_map.mp hx
    obtain ⟨q, hq, rfl⟩ := List.mem_map.mp hy
    refine ⟨r1, ?_, ⟨p, hp, r3⟩, q, hq, r4⟩
    rw [List.map_map, List.length_map] at r2
    rw [List.length_map]
    exact r2
  obtain ⟨x1, x2, x3⟩ := key (·.x) (fun p hp => (h.1 p hp).1) (Utils.getCenter ps).x (by rw [center_eq])
  obtain ⟨y1, y2, y3⟩ := key (·.y) (fun p hp => (h.1 p hp).2.1) (Utils.getCenter ps).y (by rw [center_eq])
  obtain ⟨z1, z2, z3⟩ := key (·.z) (fun p hp => (h.1 p hp).2.2) (Utils.getCenter ps).z (by rw [center_eq])
  exact ⟨⟨x1, y1, z1⟩, ⟨x2, y2, z2⟩, x3, y3, z3⟩

/-- **C141**, order (partial: as before; see `c141_order` for other coordinates): the points in another order have the same center, to the bit. -/
theorem c141_order_partial {k : ℤ} (hk0 : -1074 ≤ k) (hk : k ≤ 970) {b : Nat} (ps qs : List α) (hp : ps.Perm qs) (h : FineCloud k b ps) :
    Utils.getCenter qs = Utils.getCenter ps := by
  have key : ∀ (g : Pt F64 → F64), (∀ p ∈ ps, OnGrid k b (g (pt p))) →
      (qs.map (fun p => g (pt p))).foldl F64.add F64.zero = (ps.map (fun p => g (pt p))).foldl F64.add F64.zero := by
    intro g hg
    obtain ⟨h1, h2⟩ := h.coord (fun p => g (pt p)) hg
    exact (sum_order hk0 hk (hp.map _) h1 h2).symm
  rw [center_eq, center_eq, key (·.x) (fun p hp => (h.1 p hp).1), key (·.y) (fun p hp => (h.1 p hp).2.1), key (·.z) (fun p hp => (h.1 p hp).2.2)]
  simp only [List.length_map, hp.length_eq]

end

theorem recenter_both (b : Build) (z : Bool) {k : ℤ} (hk0 : -1074 ≤ k) (hk : k ≤ 970) {n : Nat} {f g : SpocFile} (h : Like f g) (hf : FineCloud k n f.prs) :
    Both (Tool.recenter b f z) (Tool.recenter b g z) := by
  have key : ∀ c : PointRecord → F64, (∀ p ∈ f.prs, OnGrid k n (c p)) → Tool.sumOf c g.prs = Tool.sumOf c f.prs := by
    intro c hc
    obtain ⟨h1, h2⟩ := hf.coord c hc
    rw [Tool.sumOf_eq, Tool.sumOf_eq]
    exact (sum_order hk0 hk (h.2.1.map _) h1 h2).symm
  have e : centred g z = centred f z := by
    funext p
    unfold centred
    rw [key (·.x) (fun p hp => (hf.1 p hp).1), key (·.y) (fun p hp => (hf.1 p hp).2.1), key (·.z) (fun p hp => (hf.1 p hp).2.2), h.2.1.length_eq]
  rw [recenter_eq b f h.2.2 z, recenter_eq b g h.uniform z, e]
  refine .ok ⟨by rw [h.1], h.2.1.map _, ?_⟩
  intro p hp q hq
  obtain ⟨p, hp', rfl⟩ := List.mem_map.mp hp
  obtain ⟨q, hq', rfl⟩ := List.mem_map.mp hq
  exact h.2.2 p hp' q hq'

/-- **C141**, tool (partial: as before; see `c130_recenter` for other coordinates): recentering the points in another order leads to the same points
in another order. -/
theorem c141_tool_partial (p : Params) (w : World) (argv argv' : List Str) (i i' o o' : Str)
    (hopt : Cmd.tool.options argv' = Cmd.tool.options argv) (hops : Cmd.tool.operands argv = [i, o])
    (hops' : Cmd.tool.operands argv' = [i', o']) (hi : i ≠ []) (hi' : i' ≠ []) (ho : o ≠ []) (ho' : o' ≠ []) (hc : CanReplace w o)
    (hc' : CanReplace w o') (a : Tool.Args) (ha : Tool.getArgs (Cmd.tool.options argv) {} = .ok a)
    (f f' : SpocFile) (hf : HasCloud p w.fs i f) (hf' : HasCloud p w.fs i' f') (ht : Rearranged f f')
    (hcmd : a.command.name = "recenter-xy" ∨ a.command.name = "recenter-xyz") {k : ℤ} (hk0 : -1074 ≤ k) (hk : k ≤ 970) {n : Nat}
    (hg : FineCloud k n f.prs) :
    InStep p w o o' (Name.tool.run p argv w) (Name.tool.run p argv' w) := by
  have hl := rearranged_like hf hf' ht
  have hch : Both (Tool.run p.build p.zlib (toolFiles w.fs) a f) (Tool.run p.build p.zlib (toolFiles w.fs) a f') := by
    unfold Tool.run
    rcases hcmd with h | h
    · simp only [h, String.reduceEq, if_false, if_true]
      exact recenter_both _ _ hk0 hk hl hg
    · simp only [h, String.reduceEq, if_false, if_true]
      exact recenter_both _ _ hk0 hk hl hg
  have hg : (a.command.name = "get-field") = False := by
    rcases hcmd with h | h <;> rw [h] <;> decide
  simp only [Name.run, Main.tool, toolArgs, withOperands, hopt, hops, hops', inOut, Res.ok_bind, ha]
  by_cases hh : a.help = true
  · right
    simp only [hh, if_true, true_and]
    split <;> rfl
  · simp only [hh, Bool.false_eq_true, if_false]
    split
    · exact .inr ⟨rfl, rfl⟩
    · split
      · exact .inr ⟨rfl, rfl⟩
      · simp only [hg, if_false]
        exact inStep_files hi hi' ho ho' hc hc' hf hf' _ hch

/-- **C141, negation**: the center depends on the order of the points: for 2^53, 1 and 1, the ones are lost at the end but not at the beginning. -/
theorem c141_order : ∃ ps qs : List (Pt F64), ps.Perm qs ∧ (∀ p ∈ ps, Spec.Fin p) ∧ (Utils.getCenter ps).x.val ≠ (Utils.getCenter qs).x.val := by
  refine ⟨[⟨num (2 ^ 53), num 0, num 0⟩, ⟨num 1, num 0, num 0⟩, ⟨num 1, num 0, num 0⟩],
    [⟨num 1, num 0, num 0⟩, ⟨num 1, num 0, num 0⟩, ⟨num (2 ^ 53), num 0, num 0⟩], by decide +kernel, by unfold Spec.Fin; decide +kernel, ?_⟩
  have key : ∀ a b : F64, a.fv ≠ b.fv → a.val ≠ b.val := fun a b h e => h (le_antisymm (F64.val_le_iff.mp e.le) (F64.val_le_iff.mp e.ge))
  exact key _ _ (by decide +kernel)

/-! ## examples -/

theorem tilePoints_fine : FineCloud 0 40 tilePoints := by
  have z : OnGrid 0 40 F64.zero := ⟨by decide, 0, by norm_num, by unfold F64.val; rw [F64.zero_fv, Int.cast_zero, zero_div, zero_mul]⟩
  have key : ∀ a b : F64, OnGrid 0 40 a → OnGrid 0 40 b → OnGrid 0 40 (pt ({ x := a, y := b } : PointRecord)).x
      ∧ OnGrid 0 40 (pt ({ x := a, y := b } : PointRecord)).y ∧ OnGrid 0 40 (pt ({ x := a, y := b } : PointRecord)).z :=
    fun a b h1 h2 => ⟨h1, h2, z⟩
  refine ⟨?_, by decide⟩
  intro p hp
  simp only [tilePoints, List.mem_cons, List.not_mem_nil, or_false] at hp
  rcases hp with rfl | rfl | rfl
  · exact key (num 0) (num 0) (onGrid_num (by norm_num) (by norm_num)) (onGrid_num (by norm_num) (by norm_num))
  · exact key (num 15) (num 3) (onGrid_num (by norm_num) (by norm_num)) (onGrid_num (by norm_num) (by norm_num))
  · exact key (num 12) (num 17) (onGrid_num (by norm_num) (by norm_num)) (onGrid_num (by norm_num) (by norm_num))

/-- The hypotheses of `c141_center_partial` and `c141_order_partial` hold. -/
example : Nearest (Utils.getCenter tilePoints).x (coordMean (·.x) tilePoints) ∧ Utils.getCenter tilePoints.reverse = Utils.getCenter tilePoints :=
  ⟨(c141_center_partial (k := 0) (by norm_num) (by norm_num) tilePoints (by decide) tilePoints_fine).2.1.1,
    c141_order_partial (k := 0) (by norm_num) (by norm_num) tilePoints _ (List.reverse_perm _).symm tilePoints_fine⟩

/-- The hypotheses of `c141_tool_partial` hold: the file `e` holds the points of `a` in the opposite order. -/
example : InStep exampleParams backDisk ['o'] ['u'] (Name.tool.run exampleParams ["--recenter-xy".toList, ['a'], ['o']] backDisk)
    (Name.tool.run exampleParams ["--recenter-xy".toList, ['e'], ['u']] backDisk) :=
  c141_tool_partial exampleParams backDisk _ _ ['a'] ['e'] ['o'] ['u'] (by decide +kernel) (by decide +kernel) (by decide +kernel)
    (by decide) (by decide) (by decide) (by decide) rfl rfl { command := ⟨"recenter-xy", []⟩ } (by decide +kernel) _ _ backDiskA backDiskE
    backA_rearranged (.inl rfl) (k := 0) (by norm_num) (by norm_num) tilePoints_fine

end Spoc.Props
