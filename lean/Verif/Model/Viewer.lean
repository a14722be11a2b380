import Verif.Model.Python

/-!
# Model of the point cloud viewer

`/repo/spocpy/examples/point_cloud_viewer.py`: the function `update_figure`, which Dash calls with the values of the two controls whenever one of them
changes and when the page is loaded.  The figure is seen as the size and the colors of the markers.  The layout of the page is left out.

Trusted here: Dash calls the function as described, and an exception in it leaves the page as it was.  `np.amin` and `np.amax` give the smallest
and the largest element, not-a-number if there is one, and an exception for an empty list; if both zeros are smallest, the first is taken, which
makes no difference to the colors.
-/

namespace Spoc.Viewer

/-- A color, `'rgb(…,…,…)'`. -/
structure Colour where
  r : Nat
  g : Nat
  b : Nat
  deriving DecidableEq, Repr

/-- The values of the dropdown (`/repo/spocpy/examples/point_cloud_viewer.py` lines 115-123). -/
inductive Marker where
  | ele | rgb | cls | seg
  deriving DecidableEq, Repr

/-- `classification_colormap` (`/repo/spocpy/examples/point_cloud_viewer.py` lines 54-83). -/
def classColours : List Colour :=
  [⟨0, 64, 64⟩, ⟨255, 0, 0⟩, ⟨128, 64, 0⟩, ⟨0, 213, 0⟩, ⟨0, 128, 0⟩, ⟨0, 192, 0⟩, ⟨0, 255, 255⟩, ⟨128, 128, 192⟩, ⟨128, 128, 128⟩, ⟨0, 0, 255⟩,
   ⟨128, 128, 0⟩, ⟨192, 192, 192⟩, ⟨128, 128, 128⟩, ⟨255, 255, 0⟩, ⟨0, 128, 192⟩, ⟨255, 200, 192⟩, ⟨255, 128, 192⟩, ⟨64, 32, 0⟩, ⟨255, 128, 192⟩,
   ⟨243, 158, 0⟩, ⟨128, 64, 64⟩, ⟨128, 0, 255⟩, ⟨128, 128, 128⟩, ⟨255, 0, 128⟩, ⟨128, 0, 128⟩, ⟨0, 0, 128⟩, ⟨128, 0, 128⟩, ⟨0, 0, 160⟩]

/-- What the program has read and made before it waits (`/repo/spocpy/examples/point_cloud_viewer.py` lines 19, 22, 51 and 86-88): the header, the
file, the colors of plotly and the random colors. -/
structure Setup where
  build : Build
  header : Header
  file : SpocFile
  elevationColours : List Colour
  segmentColours : List Colour

/-- `l[i]` in Python: negative indices count from the end. -/
def pyIndex {α : Type} (l : List α) (i : Int) : Res α :=
  match (if 0 ≤ i then l[i.toNat]? else if (-i).toNat ≤ l.length then l[l.length - (-i).toNat]? else none) with
  | some a => .ok a
  | none => .throw "IndexError"

/-- `int (x)` in Python for a double. -/
def pyInt (x : F64) : Res Int :=
  if x.isNaN then .throw "ValueError" else if x.isInf then .throw "OverflowError" else .ok x.trunc

/-- One step of `np.amin`. -/
def npLess (m a : F64) : F64 := if m.isNaN then m else if a.isNaN then a else if F64.lt a m then a else m

/-- One step of `np.amax`. -/
def npMore (m a : F64) : F64 := if m.isNaN then m else if a.isNaN then a else if F64.lt m a then a else m

/-- `np.amin` -/
def amin : List F64 → Res F64
  | [] => .throw "ValueError"
  | a :: l => .ok (l.foldl npLess a)

/-- `np.amax` -/
def amax : List F64 → Res F64
  | [] => .throw "ValueError"
  | a :: l => .ok (l.foldl npMore a)

/-- The colors by elevation (`/repo/spocpy/examples/point_cloud_viewer.py` lines 167-173). -/
def elevation (colours : List Colour) (z : List F64) : Res (List Colour) := do
  let zmin ← amin z
  let zmax ← amax z
  let d := F64.sub zmax zmin
  let indexes ← z.mapM (fun a => pyInt (F64.div (F64.mul (F64.sub a zmin) (F64.ofInt (colours.length - 1))) d))
  indexes.mapM (pyIndex colours)

/-- The colors of the points (`/repo/spocpy/examples/point_cloud_viewer.py` lines 167-173, 180-184, 191-192 and 199-205). -/
def colours (s : Setup) : Marker → Res (List Colour)
  | .ele => elevation s.elevationColours (s.file.prs.map PointRecord.z)
  | .rgb => .ok (s.file.prs.map (fun q => ⟨q.r.toNat / 256, q.g.toNat / 256, q.b.toNat / 256⟩))
  | .cls => s.file.prs.mapM (fun q => pyIndex classColours q.c.toNat)
  | .seg =>
    if s.header.extraFields.toNat < 1 then .throw "Expected segment numbers in e[0],but this file has no extra fields"
    else do
      let e ← Diff.getExtra s.build 0 s.file.prs
      e.mapM (fun v => pyIndex s.segmentColours v.toNat)

/-- `control` and the figure (`/repo/spocpy/examples/point_cloud_viewer.py` lines 33-45). -/
structure State where
  lastSize : Nat
  lastMarker : Option Marker
  size : Nat
  colours : Option (List Colour)
  deriving DecidableEq, Repr

/-- The state at the start (`/repo/spocpy/examples/point_cloud_viewer.py` lines 33-45). -/
def initial : State := { lastSize := 2, lastMarker := some .rgb, size := 2, colours := none }

/-- `update_figure` (`/repo/spocpy/examples/point_cloud_viewer.py` lines 148-230).  An emptied dropdown has the value `None`; then `colors` has no
value when it is used (line 213). -/
def update (s : Setup) (st : State) (size : Nat) (marker : Option Marker) : State × Res Unit :=
  if st.lastMarker ≠ marker then
    let st := { st with lastMarker := marker }
    match (match marker with
      | some m => colours s m
      | none => .throw "UnboundLocalError") with
    | .ok c => ({ st with colours := some c }, .ok ())
    | .throw e => (st, .throw e)
    | .ub e => (st, .ub e)
    | .abort => (st, .abort)
    | .hang => (st, .hang)
  else if st.lastSize ≠ size then ({ st with lastSize := size, size := size }, .ok ())
  else (st, .ok ())

/-- The page in the browser: what the two controls show. -/
structure Page where
  size : Nat
  marker : Option Marker
  deriving DecidableEq, Repr

/-- The page when it is loaded (`/repo/spocpy/examples/point_cloud_viewer.py` lines 33-38 and 109-124). -/
def loaded : Page := { size := 2, marker := some .ele }

/-- What a user does. -/
inductive Event where
  | slide (size : Nat)
  | choose (marker : Option Marker)
  | reload
  deriving DecidableEq, Repr

/-- The page after the event. -/
def Page.after (p : Page) : Event → Page
  | .slide n => { p with size := n }
  | .choose m => { p with marker := m }
  | .reload => loaded

/-- The page is loaded and then used: Dash calls `update_figure` with the values of the controls each time. -/
def session (s : Setup) : List Event → Page × State
  | [] => (loaded, (update s initial loaded.size loaded.marker).1)
  | e :: earlier =>
    let (p, st) := session s earlier
    let p := p.after e
    (p, (update s st p.size p.marker).1)

end Spoc.Viewer
