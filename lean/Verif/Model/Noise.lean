import Verif.Model.Transform
import Verif.Model.TestUtils

/-!
# Model of the noise (`/repo/apps/transform/transform.h` lines 140-166 and 439-465)

`Model.Transform` takes the random offsets as a parameter (`Noise`).  Here they are those of libstdc++: the engine is
`std::minstd_rand0` (`TestUtils.seed`, `TestUtils.next`), the distributions are those of `bits/random.h` and
`bits/random.tcc`.  The logarithm is a parameter.
-/

namespace Spoc.Noise

open TestUtils

/-- `dx (rng)` where the magnitude is not zero (`/repo/apps/transform/transform.h` lines 448-450, 455-460); zero stands
for no offset. -/
def drawUniform (m : F64) (g : Nat) : F64 × Nat :=
  if F64.fne m F64.zero then uniformReal (F64.negate m) m g else (F64.zero, g)

/-- The offsets of one call of the operation and the next state of the engine (`/repo/apps/transform/transform.h` lines
453-462). -/
def uniform3 (mx my mz : F64) (g : Nat) : Pt F64 × Nat :=
  let (x, g) := drawUniform mx g
  let (y, g) := drawUniform my g
  let (z, g) := drawUniform mz g
  (⟨x, y, z⟩, g)

/-- The state of the engine before the `n`-th call. -/
def uniformState (s : Nat) (mx my mz : F64) (n : Nat) : Nat := n.repeat (fun g => (uniform3 mx my mz g).2) (seed s)

/-- The loop of `std::normal_distribution` (the polar method): two numbers of the unit disk, the square of their
distance from the origin, and the next state.  The number of rounds is bounded by the period of the engine, after which
the same numbers would come again and again; zero stands for a loop that never ends (`Proofs.Gauss`, `polar_ends`: it
does end). -/
def polar : (fuel : Nat) → Nat → F64 × F64 × F64 × Nat
  | 0, g => (F64.zero, F64.zero, F64.zero, g)
  | fuel + 1, g =>
    let (a, g) := canonical g
    let x := F64.sub (F64.mul (F64.ofNat 2) a) F64.one
    let (b, g) := canonical g
    let y := F64.sub (F64.mul (F64.ofNat 2) b) F64.one
    let r2 := F64.add (F64.mul x x) (F64.mul y y)
    if F64.gt r2 F64.one || F64.feq r2 F64.zero then polar fuel g else (x, y, r2, g)

/-- The two numbers that `std::normal_distribution` computes from a point of the unit disk: the second one is returned,
the first one is saved. -/
def scale (log : F64 → F64) (std : F64) : F64 × F64 × F64 × Nat → F64 × Option F64 × Nat
  | (x, y, r2, g) =>
    let mult := F64.sqrt (F64.div (F64.mul (F64.negate (F64.ofNat 2)) (log r2)) r2)
    (F64.add (F64.mul (F64.mul y mult) std) F64.zero, some (F64.mul x mult), g)

/-- `std::normal_distribution<double> (0.0, std)`, called with an engine: every second number was saved by the call
before. -/
def normal (log : F64 → F64) (std : F64) (saved : Option F64) (g : Nat) : F64 × Option F64 × Nat :=
  match saved with
  | some v => (F64.add (F64.mul v std) F64.zero, none, g)
  | none => scale log std (polar 2147483646 g)

/-- The engine and the three distributions that the operation captures (`/repo/apps/transform/transform.h` lines
146-151). -/
structure GaussState where
  g : Nat
  x : Option F64 := none
  y : Option F64 := none
  z : Option F64 := none
  deriving DecidableEq

/-- `d (rng)` where the deviation is not zero (`/repo/apps/transform/transform.h` lines 156-161). -/
def drawGauss (log : F64 → F64) (std : F64) (saved : Option F64) (g : Nat) : F64 × Option F64 × Nat :=
  if F64.fne std F64.zero then normal log std saved g else (F64.zero, saved, g)

/-- The offsets of one call of the operation (`/repo/apps/transform/transform.h` lines 154-163). -/
def gauss3 (log : F64 → F64) (sx sy sz : F64) (s : GaussState) : Pt F64 × GaussState :=
  let (x, vx, g) := drawGauss log sx s.x s.g
  let (y, vy, g) := drawGauss log sy s.y g
  let (z, vz, g) := drawGauss log sz s.z g
  (⟨x, y, z⟩, ⟨g, vx, vy, vz⟩)

/-- The state before the `n`-th call. -/
def gaussState (log : F64 → F64) (s : Nat) (sx sy sz : F64) (n : Nat) : GaussState :=
  n.repeat (fun t => (gauss3 log sx sy sz t).2) { g := seed s }

/-- The offsets that libstdc++ delivers. -/
def std (log : F64 → F64) : Transform.Noise where
  gauss s sx sy sz n := (gauss3 log sx sy sz (gaussState log s sx sy sz n)).1
  uniform s mx my mz n := (uniform3 mx my mz (uniformState s mx my mz n)).1

/-- `2.0 * M_PI` (`/repo/spoc/test_utils.h` line 131). -/
def pi2 : F64 := ⟨0x401921FB54442D18⟩

/-- The loop of `get_noisy_gaussian_point_cloud` (`/repo/spoc/test_utils.h` lines 125-137).  Logarithm, cosine and sine
are parameters. -/
def gaussLoop (log cos sin : F64 → F64) (radius dev : F64) : Nat → Option F64 → Nat → List (Pt F64)
  | 0, _, _ => []
  | n + 1, saved, g =>
    let (x, g) := uniformReal F64.zero F64.one g
    let (y, g) := uniformReal F64.zero F64.one g
    let s := F64.sqrt (F64.mul (F64.negate (F64.ofNat 2)) (log x))
    let (z, saved, g) := normal log F64.one saved g
    ⟨F64.mul (F64.mul radius s) (cos (F64.mul pi2 y)), F64.mul (F64.mul radius s) (sin (F64.mul pi2 y)), F64.mul dev z⟩
      :: gaussLoop log cos sin radius dev n saved g

/-- `get_noisy_gaussian_point_cloud` (`/repo/spoc/test_utils.h` lines 111-140). -/
def gaussCloud (log cos sin : F64 → F64) (n : Nat) (radius dev : F64) (s : Nat := 123) : List (Pt F64) :=
  gaussLoop log cos sin radius dev n none (seed s)

end Spoc.Noise
