import Verif.Model.File
import Verif.Model.Extent
import Verif.Model.Subsampling

/-!
# Model of the helpers of the tests (`/repo/spoc/test_utils.h`)

The C++ standard fixes `std::minstd_rand0`; that it is the `default_random_engine`, and the algorithms of the
distributions, are those of libstdc++ (`bits/random.tcc`, `bits/uniform_int_dist.h`).  The clock and the directory for
temporary files are parameters; `get_noisy_gaussian_point_cloud` is in `Model.Noise`.
-/

namespace Spoc.TestUtils

/-- `std::default_random_engine g (seed)`: the state of `std::minstd_rand0` (C++ standard, `rand.eng.lcong`). -/
def seed (s : Nat) : Nat := if s % 2147483647 = 0 then 1 else s % 2147483647

/-- `g ()`: the next state, which is also the number drawn. -/
def next (g : Nat) : Nat := g * 16807 % 2147483647

/-- The number of states of the engine. -/
def period : Nat := 2147483646

/-- `std::uniform_int_distribution<int> (a, b)`, when `b - a` is smaller than the range of the engine: numbers that would
make the result uneven are skipped (libstdc++).  `fuel` bounds the number of rounds; after `period` rounds the same
numbers would come again and again (`Proofs.TestUtils`, `uniformInt_spec`: the loop ends before that). -/
def uniformInt (a b : Int) : (fuel : Nat) → Nat → Int × Nat
  | 0, g => (a, g)
  | fuel + 1, g =>
    let uerange := (b - a).toNat + 1
    let scaling := 2147483645 / uerange
    let r := next g - 1
    if r < uerange * scaling then (a + (r / scaling : Nat), next g) else uniformInt a b fuel (next g)

/-- `std::generate_canonical<double, 53>`: two draws (libstdc++).  The correction of a result of 1 is omitted: it is
impossible for two draws below 2^31 - 2. -/
def canonical (g : Nat) : F64 × Nat :=
  let g1 := next g
  let g2 := next g1
  let r := F64.ofNat 2147483646
  let sum := F64.add (F64.mul (F64.ofNat (g1 - 1)) F64.one) (F64.mul (F64.ofNat (g2 - 1)) r)
  (F64.div sum (F64.mul r r), g2)

/-- `std::uniform_real_distribution<double> (a, b)` -/
def uniformReal (a b : F64) (g : Nat) : F64 × Nat :=
  let (c, g) := canonical g
  (F64.add (F64.mul c (F64.sub b a)) a, g)

/-- `di (g)` of `generate_random_point_records` (`/repo/spoc/test_utils.h` line 149). -/
def di (g : Nat) : Nat × Nat :=
  let (n, g) := uniformInt 0 32768 period g
  (n.toNat, g)

/-- The numbers of the extra fields (`/repo/spoc/test_utils.h` lines 164-165). -/
def randomExtra : Nat → Nat → List UInt64 × Nat
  | 0, g => ([], g)
  | k + 1, g =>
    let (e, g) := di g
    let (es, g) := randomExtra k g
    (UInt64.ofNat e :: es, g)

/-- One round of the loop of `generate_random_point_records` (`/repo/spoc/test_utils.h` lines 154-166). -/
def randomRecord (extraFields : Nat) (rgb : Bool) (g : Nat) : PointRecord × Nat :=
  let (x, g) := uniformReal F64.negOne F64.one g
  let (y, g) := uniformReal F64.negOne F64.one g
  let (z, g) := uniformReal F64.negOne F64.one g
  let (c, g) := di g
  let (p, g) := di g
  let (i, g) := di g
  let (rc, gc, bc, g) :=
    if rgb then
      let (rc, g) := di g
      let (gc, g) := di g
      let (bc, g) := di g
      (rc, gc, bc, g)
    else (0, 0, 0, g)
  let (e, g) := randomExtra extraFields g
  ({ x := x, y := y, z := z, c := UInt32.ofNat c, p := UInt32.ofNat p, i := UInt16.ofNat i,
     r := UInt16.ofNat rc, g := UInt16.ofNat gc, b := UInt16.ofNat bc, extra := e }, g)

/-- The loop of `generate_random_point_records` (`/repo/spoc/test_utils.h` lines 154-166). -/
def randomLoop (extraFields : Nat) (rgb : Bool) : Nat → Nat → List PointRecord
  | 0, _ => []
  | n + 1, g =>
    let (q, g) := randomRecord extraFields rgb g
    q :: randomLoop extraFields rgb n g

/-- `generate_random_point_records` (`/repo/spoc/test_utils.h` lines 142-169). -/
def randomRecords (totalPoints : Nat) (extraFields : Nat := 0) (rgb : Bool := true) (s : Nat := 123) :
    List PointRecord := randomLoop extraFields rgb totalPoints (seed s)

/-- `generate_random_spoc_file` (`/repo/spoc/test_utils.h` lines 171-181). -/
def randomFile (totalPoints : Nat) (extraFields : Nat := 0) (compressed : Bool := false) (rgb : Bool := true)
    (s : Nat := 123) : Res SpocFile :=
  SpocFile.new' [0x57, 0x4B, 0x54] compressed (randomRecords totalPoints extraFields rgb s)

/-- `get_noisy_point_cloud` (`/repo/spoc/test_utils.h` lines 86-108). -/
def noisyLoop (ex ey ez : F64) : Nat → Nat → List (Pt F64)
  | 0, _ => []
  | n + 1, g =>
    let (x, g) := uniformReal F64.zero F64.one g
    let (y, g) := uniformReal F64.zero F64.one g
    let (z, g) := uniformReal F64.zero F64.one g
    ⟨F64.mul x ex, F64.mul y ey, F64.mul z ez⟩ :: noisyLoop ex ey ez n g

/-- `get_noisy_point_cloud` (`/repo/spoc/test_utils.h` lines 86-108). -/
def noisyCloud (n : Nat) (ex ey ez : F64) (s : Nat := 123) : List (Pt F64) := noisyLoop ex ey ez n (seed s)

/-- `std::ldexp (x, e)`, for exponents for which the power of two is a double (`/repo/spoc/test_utils.h` lines 76-78). -/
def ldexp (x : F64) (e : Int) : F64 :=
  F64.mul x (if e < 0 then F64.div F64.one (F64.ofNat (2 ^ (-e).toNat)) else F64.ofNat (2 ^ e.toNat))

/-- `std::ldexp (d (g), exp (g))` (`/repo/spoc/test_utils.h` lines 76-78).  C++ does not say which of the two arguments is
evaluated first; `second` says that it is the second one. -/
def randomScaled (second : Bool) (lo hi : Int) (g : Nat) : F64 × Nat :=
  if second then
    let (e, g) := uniformInt lo hi period g
    let (d, g) := uniformReal F64.negOne F64.one g
    (ldexp d e, g)
  else
    let (d, g) := uniformReal F64.negOne F64.one g
    let (e, g) := uniformInt lo hi period g
    (ldexp d e, g)

/-- The loop of `generate_points` (`/repo/spoc/test_utils.h` lines 74-80). -/
def pointsLoop (second : Bool) (lo hi : Int) : Nat → Nat → List (Pt F64)
  | 0, _ => []
  | n + 1, g =>
    let (x, g) := randomScaled second lo hi g
    let (y, g) := randomScaled second lo hi g
    let (z, g) := randomScaled second lo hi g
    ⟨x, y, z⟩ :: pointsLoop second lo hi n g

/-- `generate_points` (`/repo/spoc/test_utils.h` lines 61-83): the engine starts with its default seed 1, and the limits of
the exponents are half of those of a double. -/
def generatePoints (second : Bool) (n : Nat) (lo : Int := -510) (hi : Int := 512) : List (Pt F64) :=
  pointsLoop second lo hi n (seed 1)

/-- `about_equal` (`/repo/spoc/test_utils.h` lines 184-189) for the default precision of 3 places. -/
def aboutEqualRes (a b : F64) : Res Bool := do
  let c ← F64.toInt32 (F64.round (F64.mul a (F64.ofNat 1000)))
  let d ← F64.toInt32 (F64.round (F64.mul b (F64.ofNat 1000)))
  return decide (c = d)

/-- `about_equal` as a condition: undefined behaviour counts as failure. -/
def aboutEqual (a b : F64) : Bool := decide (aboutEqualRes a b = .ok true)

/-- The loop of `generate_tmp_filename` (`/repo/spoc/test_utils.h` lines 212-214). -/
def nameLoop : Nat → Nat → List Char
  | 0, _ => []
  | n + 1, g =>
    let (k, g) := uniformInt 0 25 period g
    Char.ofNat (97 + k.toNat) :: nameLoop n g

/-- `generate_tmp_filename` (`/repo/spoc/test_utils.h` lines 192-220), given `temp_directory_path ()` and the number that
the clock shows; `seed` is an `unsigned`.  `operator/` of paths puts a slash after a directory that does not end with one. -/
def tmpFilename (dir : List Char) (clock : Nat) (n : Nat := 16) : List Char :=
  (if dir.getLast? = some '/' ∨ dir = [] then dir else dir ++ ['/']) ++ nameLoop n (seed (clock % 2 ^ 32))

/-! ## Parameters of the model that libstdc++ and the C++ standard determine -/

/-- `std::minstd_rand rng; rng.seed (seed)` (`/repo/spoc/radius_search.h` lines 32 and 83): draw number `n`. -/
def minstdRand (s n : Nat) : Nat := (n + 1).repeat (fun g => g * 48271 % 2147483647) (seed s)

/-- Exchange two elements. -/
def swap (l : Array Nat) (i j : Nat) : Array Nat := l.swapIfInBounds i j

/-- The loop of `std::shuffle` that uses one number for two exchanges (libstdc++, `bits/stl_algo.h`). -/
def shuffleLoop : (pairs i : Nat) → Nat → Array Nat → Array Nat
  | 0, _, _, l => l
  | k + 1, i, g, l =>
    let (x, g) := uniformInt 0 (((i + 1) * (i + 2) : Nat) - 1) period g
    shuffleLoop k (i + 2) g (swap (swap l i (x.toNat / (i + 2))) (i + 1) (x.toNat % (i + 2)))

/-- The loop of `std::shuffle` for so many elements that one number does not suffice for two exchanges (libstdc++,
`bits/stl_algo.h`). -/
def shuffleMany : (rest i : Nat) → Nat → Array Nat → Array Nat
  | 0, _, _, l => l
  | k + 1, i, g, l =>
    let (x, g) := uniformInt 0 i period g
    shuffleMany k (i + 1) g (swap l i x.toNat)

/-- `std::shuffle` with a `std::default_random_engine` (libstdc++), for at most 2147483645 elements. -/
def shuffle : Subsampling.Shuffle := fun s l =>
  if 2147483645 / l.length < l.length then (shuffleMany (l.length - 1) 1 (seed s) l.toArray).toList
  else if l.length % 2 = 0 then
    let (x, g) := uniformInt 0 1 period (seed s)
    (shuffleLoop ((l.length - 2) / 2) 2 g (if l.length = 0 then l.toArray else swap l.toArray 1 x.toNat)).toList
  else (shuffleLoop ((l.length - 1) / 2) 1 (seed s) l.toArray).toList

/-- The shuffle delivers a permutation, as the theorems about subsampling demand of it. -/
theorem shuffle_lawful : shuffle.Lawful := by
  have hs : ∀ (l : Array Nat) i j, (swap l i j).toList.Perm l.toList := fun l i j =>
    Array.perm_iff_toList_perm.mp (by
      unfold swap Array.swapIfInBounds
      split
      · split
        · exact Array.swap_perm _ _
        · exact Array.Perm.refl _
      · exact Array.Perm.refl _)
  have hl : ∀ k i g (l : Array Nat), (shuffleLoop k i g l).toList.Perm l.toList := by
    intro k
    induction k with
    | zero => intro i g l; exact List.Perm.refl _
    | succ k ih =>
      intro i g l
      exact (ih _ _ _).trans ((hs _ _ _).trans (hs _ _ _))
  have hm : ∀ k i g (l : Array Nat), (shuffleMany k i g l).toList.Perm l.toList := by
    intro k
    induction k with
    | zero => intro i g l; exact List.Perm.refl _
    | succ k ih =>
      intro i g l
      exact (ih _ _ _).trans (hs _ _ _)
  intro s l
  unfold shuffle
  split
  · exact hm _ _ _ _
  split
  · refine (hl _ _ _ _).trans ?_
    split
    · exact List.Perm.refl _
    · exact hs _ _ _
  · exact hl _ _ _ _

end Spoc.TestUtils
