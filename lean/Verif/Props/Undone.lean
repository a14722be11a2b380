import Verif.Props.HexNumbers
import Verif.Props.Snapped

/-!
# C147: moving a cloud to the origin can be undone

`spoc_tool --subtract-min-xyz` followed by `spoc_transform --add-x --add-y --add-z` (/repo/spoc/app_utils.h, consume_double;
/repo/apps/tool/tool.h, subtract_min; /repo/apps/transform/transform.h, get_add_x_op).
-/

namespace Spoc.Props

open Spec Text AppUtils Main
open Transform (parseCommand applyOps)

/-- Subtracting and adding the same number gives the value from before, on a grid. -/
theorem sub_add_grid {k : ℤ} (hk0 : -1074 ≤ k) (hk : k ≤ 970) {x y v : F64} (hx : OnGrid k 52 x) (hy : OnGrid k 52 y) (hv : v.isFinite = true) (e : v.val = y.val) :
    (F64.add (F64.sub x y) v).isFinite = true ∧ (F64.add (F64.sub x y) v).val = x.val := by
  obtain ⟨a, ha, ea⟩ := F64.grid_fv hk0 hx
  obtain ⟨b, hb, eb⟩ := F64.grid_fv hk0 hy
  have ev : v.fv = b * 2 ^ (k + 1074).toNat := by
    obtain ⟨c, -, ec⟩ := F64.grid_fv hk0 (⟨hv, by rw [e]; exact hy.2⟩ : OnGrid k 52 v)
    have h2 : (0 : ℝ) < 2 ^ k := zpow_pos (by norm_num) _
    have : (c : ℝ) = b := by
      have h1 := F64.val_units hk0 ec
      rw [e, F64.val_units hk0 eb] at h1
      exact (mul_right_cancel₀ h2.ne' h1).symm
    rw [ec, Int.cast_injective this]
  have enb : (F64.negate y).fv = (-b) * 2 ^ (k + 1074).toNat := by rw [F64.negate_fv, eb]; ring
  obtain ⟨f1, e1⟩ := F64.add_units hk hx.1 (F64.negate_finite hy.1) ea enb (by omega)
  obtain ⟨f2, e2⟩ := F64.add_units (x := F64.sub x y) hk f1 hv e1 ev (by omega)
  refine ⟨f2, ?_⟩
  rw [F64.val_units hk0 ea, F64.val_units hk0 (m := a) (by rw [e2]; ring)]

/-- The coordinates are the same numbers, and all other fields are the same. -/
def SameNumbers (p q : PointRecord) : Prop :=
  SameExcept [.x, .y, .z] p q ∧ (q.x.isFinite = true ∧ q.x.val = p.x.val) ∧ (q.y.isFinite = true ∧ q.y.val = p.y.val) ∧ (q.z.isFinite = true ∧ q.z.val = p.z.val)

/-- **C147** (partial: coordinates on a grid, uncompressed files; see `c147_lost`): after `subtract-min-xyz`, `transform` with the least coordinates, written in hexadecimal,
gives back the cloud from before. -/
theorem c147_undone_partial {k : ℤ} (hk0 : -1074 ≤ k) (hk : k ≤ 970) (p : Params) (hz : p.zlib.Correct) (henv : p.env.stod = Text.stod) (f g : SpocFile)
    (huf : Uniform f.prs) (hg : CloudOnGrid k f.prs) (hsub : Tool.subtractMin p.build f true = .ok g) (nx ny nz : HexNumeral) (okx : nx.Ok) (oky : ny.Ok) (okz : nz.Ok)
    (lx : Least (·.x) nx.value f.prs) (ly : Least (·.y) ny.value f.prs) (lz : Least (·.z) nz.value f.prs)
    (w : World) (argv : List Str) (i o : Str) (hopt : Cmd.transform.options argv = [("add-x", nx.text), ("add-y", ny.text), ("add-z", nz.text)])
    (hops : Cmd.transform.operands argv = [i, o]) (hi : i ≠ []) (ho : o ≠ []) (hio : i ≠ o) (hc : CanReplace w o) (hf : Holds p w.fs i g) :
    ∃ qs, Makes .transform p w argv o { f with prs := qs } ∧ List.Forall₂ SameNumbers f.prs qs := by
  have hne : f.prs ≠ [] := by
    rintro e
    obtain ⟨⟨q, hq, -⟩, -⟩ := lx
    rw [e] at hq
    simp at hq
  obtain ⟨⟨o1, o2, o3⟩, -⟩ := hg.extent hne
  obtain ⟨-, hle, ⟨p1, m1, e1⟩, ⟨p2, m2, e2⟩, p3, m3, e3⟩ := lowest hne hg.fin
  have least : ∀ (c : PointRecord → F64) (m : F64) (v : ℝ), (∃ q ∈ f.prs, m = c q) → (∀ q ∈ f.prs, m.fv ≤ (c q).fv) → Least c v f.prs → m.val = v := by
    rintro c m v ⟨q, hq, rfl⟩ hm ⟨⟨r, hr, rfl⟩, hl⟩
    exact le_antisymm (F64.val_le_iff.mpr (hm r hr)) (hl q hq)
  have ex := least (·.x) _ _ ⟨p1, m1, e1⟩ (fun q hq => (hle q hq).1) lx
  have ey := least (·.y) _ _ ⟨p2, m2, e2⟩ (fun q hq => (hle q hq).2.1) ly
  have ez := least (·.z) _ _ ⟨p3, m3, e3⟩ (fun q hq => (hle q hq).2.2) lz
  have read : ∀ (n : HexNumeral) (m : F64), n.Ok → OnGrid k 52 m → m.val = n.value →
      ∃ v, Text.stod n.text = some (v, n.text.length) ∧ v.isFinite = true ∧ v.val = m.val := by
    intro n m hn hm e
    obtain ⟨h1, h2⟩ := c146_hex n hn
    obtain ⟨h3, h4⟩ := nearest_double ⟨m, hm.1, e⟩ h1
    exact ⟨_, h2 (.inl ⟨m, hm.1, e⟩), h3, by rw [h4, e]⟩
  obtain ⟨vx, sx, fx, wx⟩ := read nx _ okx o1 ex
  obtain ⟨vy, sy, fy, wy⟩ := read ny _ oky o2 ey
  obtain ⟨vz, sz, fz, wz⟩ := read nz _ okz o3 ez
  rw [Twice.subtractMin_eq p.build f huf true] at hsub
  obtain rfl := Res.ok.inj hsub
  obtain ⟨hu, hs, x, tl, x1, x2, x3⟩ := hf
  have hparse : (commandsOf [("add-x", nx.text), ("add-y", ny.text), ("add-z", nz.text)]).mapM (parseCommand p.build p.env 0
      ({ f with prs := f.prs.map (Twice.movedBy (Extent.ofPoints f.prs).minp true) } : SpocFile).extraFields) =
        .ok [Transform.addXOp vx, Transform.addYOp vy, Transform.addZOp vz] := by
    rw [← henv] at sx sy sz
    simp [commandsOf, List.mapM_cons, parseCommand, consumeDouble, sx, sy, sz, Res.ok_bind, pure]
  have hall : ∃ qs, applyAll [Transform.addXOp vx, Transform.addYOp vy, Transform.addZOp vz] 0 (f.prs.map (Twice.movedBy (Extent.ofPoints f.prs).minp true)) = .ok qs
      ∧ List.Forall₂ SameNumbers f.prs qs := by
    generalize (Extent.ofPoints f.prs).minp = m at *
    generalize f.prs = ps at hg
    generalize 0 = j
    clear hparse
    induction ps generalizing j with
    | nil => exact ⟨[], rfl, .nil⟩
    | cons q ps ih =>
      obtain ⟨qs, k1, k2⟩ := ih (fun r hr => hg r (List.mem_cons_of_mem _ hr)) (j + 1)
      obtain ⟨i1, i2, i3⟩ := hg q (by simp)
      refine ⟨{ q with x := F64.add (F64.sub q.x m.x) vx, y := F64.add (F64.sub q.y m.y) vy, z := F64.add (F64.sub q.z m.z) vz } :: qs, ?_,
        .cons ⟨⟨rfl, fun fld hfld => ?_⟩, sub_add_grid hk0 hk i1 o1 fx wx, sub_add_grid hk0 hk i2 o2 fy wy, sub_add_grid hk0 hk i3 o3 fz wz⟩ k2⟩
      · have : applyOps j [Transform.addXOp vx, Transform.addYOp vy, Transform.addZOp vz] (Twice.movedBy m true q)
            = .ok { q with x := F64.add (F64.sub q.x m.x) vx, y := F64.add (F64.sub q.y m.y) vy, z := F64.add (F64.sub q.z m.z) vz } := rfl
        simp only [List.map_cons, applyAll, this, k1, Res.ok_bind]
      · cases fld <;> first | rfl | (simp at hfld)
  obtain ⟨qs, k1, k2⟩ := hall
  obtain ⟨s1, s2⟩ := changed hs hu hparse k1
  refine ⟨qs, ?_, k2⟩
  refine outputStream_cloud hz ho hc s1 ?_
  rw [transform_run p w argv _ hopt (by simp) (by simp [commandOptions]) i o hops hi hio x x1 x2, x3, s2]
  rw [(apply_written p.build p.zlib p.env _ hs.1 hu tl _ 0 _).mpr ⟨_, qs, hparse, k1, rfl⟩]

/-- **C147**, the numerals exist (partial: as before). -/
theorem c147_numerals_partial {k : ℤ} (f : SpocFile) (hg : CloudOnGrid k f.prs) (hne : f.prs ≠ []) :
    ∃ nx ny nz : HexNumeral, nx.Ok ∧ ny.Ok ∧ nz.Ok ∧ Least (·.x) nx.value f.prs ∧ Least (·.y) ny.value f.prs ∧ Least (·.z) nz.value f.prs := by
  obtain ⟨⟨o1, o2, o3⟩, -⟩ := hg.extent hne
  obtain ⟨-, hle, ⟨p1, m1, e1⟩, ⟨p2, m2, e2⟩, p3, m3, e3⟩ := lowest hne hg.fin
  obtain ⟨nx, hx, vx, -⟩ := c146_every _ o1.1
  obtain ⟨ny, hy, vy, -⟩ := c146_every _ o2.1
  obtain ⟨nz, hz, vz, -⟩ := c146_every _ o3.1
  exact ⟨nx, ny, nz, hx, hy, hz, ⟨⟨p1, m1, by rw [vx, e1]⟩, fun q hq => by rw [vx]; exact F64.val_le_iff.mpr (hle q hq).1⟩,
    ⟨⟨p2, m2, by rw [vy, e2]⟩, fun q hq => by rw [vy]; exact F64.val_le_iff.mpr (hle q hq).2.1⟩,
    ⟨⟨p3, m3, by rw [vz, e3]⟩, fun q hq => by rw [vz]; exact F64.val_le_iff.mpr (hle q hq).2.2⟩⟩

/-- **C147, negation**: of -2^53 and 1/2, the second one is 0 after moving to the origin and back. -/
theorem c147_lost (b : Build) : ∃ f g : SpocFile, f.prs.map (·.x) = [⟨0xC340000000000000⟩, ⟨0x3FE0000000000000⟩] ∧ Tool.subtractMin b f true = .ok g
    ∧ g.prs.map (fun q => F64.add q.x ⟨0xC340000000000000⟩) = [⟨0xC340000000000000⟩, ⟨0⟩] := by
  refine ⟨{ SpocFile.empty with prs := [{ x := ⟨0xC340000000000000⟩ }, { x := ⟨0x3FE0000000000000⟩ }] }, _, rfl,
    Twice.subtractMin_eq b _ (by unfold Uniform; decide) true, ?_⟩
  decide +kernel

/-- `0x14`, `0x1e` and `0x0`. -/
def twentyHex : HexNumeral := { ip := [(1, false), (4, false)] }
def thirtyHex : HexNumeral := { ip := [(1, false), (14, false)] }
def zeroHex : HexNumeral := { ip := [(0, false)] }

theorem plainHex_ok (d : List HexDigit) (h : d ≠ []) : ({ ip := d } : HexNumeral).Ok :=
  ⟨.inl rfl, by simpa [HexNumeral.frac] using h, by rintro e s t ⟨⟩⟩

theorem plainHex_value (d : List HexDigit) (m : Nat) (h : d.foldl (fun m d => 16 * m + d.1.val) 0 = m) : ({ ip := d } : HexNumeral).value = m := by
  have h1 : ({ ip := d } : HexNumeral).mantissa = m := by unfold HexNumeral.mantissa HexNumeral.frac; simpa using h
  have h2 : ({ ip := d } : HexNumeral).power = 0 := rfl
  have h3 : ({ ip := d } : HexNumeral).frac.length = 0 := rfl
  unfold HexNumeral.value
  rw [h1, h2, h3, if_neg (by simp)]
  norm_num

theorem awayA_least : Least (·.x) twentyHex.value awayA.prs ∧ Least (·.y) thirtyHex.value awayA.prs ∧ Least (·.z) zeroHex.value awayA.prs := by
  have v1 : twentyHex.value = 20 := by simpa [twentyHex] using plainHex_value [(1, false), (4, false)] 20 (by decide)
  have v2 : thirtyHex.value = 30 := by simpa [thirtyHex] using plainHex_value [(1, false), (14, false)] 30 (by decide)
  have v3 : zeroHex.value = 0 := by simpa [zeroHex] using plainHex_value [(0, false)] 0 (by decide)
  have z : (F64.zero).val = 0 := by unfold F64.val; rw [F64.zero_fv, Int.cast_zero, zero_div]
  have key : ∀ (a1 b1 a2 b2 a3 b3 : F64) (v w : ℝ), a1.val = v → b1.val = w → v ≤ a2.val → w ≤ b2.val → v ≤ a3.val → w ≤ b3.val →
      Least (·.x) v [{ x := a1, y := b1 }, { x := a2, y := b2 }, { x := a3, y := b3 }] ∧ Least (·.y) w [{ x := a1, y := b1 }, { x := a2, y := b2 }, { x := a3, y := b3 }]
        ∧ Least (·.z) 0 [{ x := a1, y := b1 }, { x := a2, y := b2 }, { x := a3, y := b3 }] := by
    intro a1 b1 a2 b2 a3 b3 v w h1 h2 h3 h4 h5 h6
    refine ⟨⟨⟨_, List.mem_cons_self, h1⟩, ?_⟩, ⟨⟨_, List.mem_cons_self, h2⟩, ?_⟩, ⟨_, List.mem_cons_self, z⟩, ?_⟩ <;>
    · intro p hp
      simp only [List.mem_cons, List.not_mem_nil, or_false] at hp
      rcases hp with rfl | rfl | rfl <;> first | exact h1.ge | exact h2.ge | exact h3 | exact h4 | exact h5 | exact h6 | exact z.ge
  rw [v1, v2, v3]
  refine key (num 20) (num 30) (num 35) (num 33) (num 32) (num 47) 20 30 ?_ ?_ ?_ ?_ ?_ ?_ <;>
  · rw [val_num (by norm_num)]
    norm_num

/-- The hypotheses of `c147_undone_partial` hold: the cloud moved by (-20, -30, 0) is moved back. -/
example : ∃ qs, Makes .transform textParams exampleDisk ["--add-x=0x14".toList, "--add-y=0x1e".toList, "--add-z=0x0".toList, ['a'], ['o']] ['o'] { awayA with prs := qs }
    ∧ List.Forall₂ SameNumbers awayA.prs qs :=
  c147_undone_partial (k := 0) (by norm_num) (by norm_num) textParams toyZlib_correct rfl awayA cloudA awayA_survives.1.uniform awayA_onGrid awayA_moved
    twentyHex thirtyHex zeroHex (plainHex_ok _ (by simp)) (plainHex_ok _ (by simp)) (plainHex_ok _ (by simp)) awayA_least.1 awayA_least.2.1 awayA_least.2.2
    exampleDisk _ ['a'] ['o'] (by decide +kernel) (by decide +kernel) (by decide) (by decide) (by decide) rfl quantised_from

/-- The hypotheses of `c147_numerals_partial` hold. -/
example := c147_numerals_partial awayA awayA_onGrid (by decide)

end Spoc.Props
