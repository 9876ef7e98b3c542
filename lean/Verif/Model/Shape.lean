import Verif.Model.Data

/-!
# Model of the abstract shapes

`/repo/meshiphi/dataloaders/scalar/shape.py` and `/repo/meshiphi/dataloaders/vector/vector_shape.py`:
artificial data in the form of circles, rectangles, gradients and checkerboards.

Simplified: the loops that grow a dataframe row by row are list comprehensions; the conversion to an
`xr.Dataset` (`set_index(['lat', 'long']).to_xarray()`) keeps the datapoints and raises `ValueError`
when a position occurs twice.
-/

namespace Verif.Shape

/-- Element `i` of `np.linspace(lo, hi, n)`.  For `n = 1` the only element is `lo`.
See `/repo/meshiphi/dataloaders/scalar/shape.py` 110-112, 119-122, 161-167, 171-172, 249-251, 258-261. -/
def linspace (lo hi : ℚ) (n : ℕ) (i : ℕ) : ℚ := lo + i * ((hi - lo) / (n - 1))

/-- Element `i` of `np.linspace(lo, hi, n, endpoint=False)`.  See `/repo/meshiphi/dataloaders/scalar/shape.py` 205-211. -/
def linspaceOpen (lo hi : ℚ) (n : ℕ) (i : ℕ) : ℚ := lo + i * ((hi - lo) / n)

/-- The parameters of a shape loader as written in the config (`none`: not given).  See `/repo/meshiphi/dataloaders/scalar/shape.py` 11-62. -/
structure Params where
  name : String
  nx : Option ℕ := none
  ny : Option ℕ := none
  multiplier : Option ℚ := none
  multiplierU : Option ℚ := none
  multiplierV : Option ℚ := none
  radius : Option ℚ := none
  width : Option ℚ := none
  height : Option ℚ := none
  centre : Option (Option ℚ × Option ℚ) := none
  vertical : Option Bool := none
  gridsize : Option (ℚ × ℚ) := none
  deriving DecidableEq, Repr

/-- `self.x`: `AttributeError` when the parameter was neither given nor defaulted.  See `/repo/meshiphi/dataloaders/scalar/shape.py` 100-291. -/
def attr {α : Type} : Option α → Py α
  | some a => .ok a
  | none => .error .attributeError

/-- Models `shape.py` 11-62, `add_default_params` of the scalar shapes.  Without `height` it is `width`
that is set to 1 (49-50). -/
def addDefaults (p : Params) : Params :=
  let p := if p.nx = none then { p with nx := some 101 } else p
  let p := if p.ny = none then { p with ny := some 101 } else p
  let p := if p.multiplier = none then { p with multiplier := some 1 } else p
  if p.name = "circle" then
    let p := if p.radius = none then { p with radius := some 1 } else p
    if p.centre = none then { p with centre := some (none, none) } else p
  else if p.name = "rectangle" then
    let p := if p.width = none then { p with width := some 1 } else p
    let p := if p.height = none then { p with width := some 1 } else p
    if p.centre = none then { p with centre := some (none, none) } else p
  else if p.name = "gradient" then
    if p.vertical = none then { p with vertical := some true } else p
  else if p.name = "checkerboard" then
    if p.gridsize = none then { p with gridsize := some (1, 1) } else p
  else p

/-- The loops of `shape.py` 132-143: one row per pair of indices. -/
def rows {V : Type} (ny nx : ℕ) (lat long : ℕ → ℚ) (datum : ℕ → ℕ → V) : List (Row V) :=
  (List.range ny).flatMap (fun i => (List.range nx).map (fun j => ⟨lat i, long j, 0, datum i j⟩))

/-- `data.set_index(['lat', 'long']).to_xarray()` (`shape.py` 94): the same datapoints; a position that
occurs twice raises `ValueError`. -/
def toXarray {V : Type} (l : List (Row V)) : Py (List (Row V)) :=
  if (l.map (fun r => (r.lat, r.long))).Nodup then .ok l else .error .valueError

/-- `self.lat[int(self.ny/2)] if not self.centre[0] else self.centre[0]` (`shape.py` 116-117): a missing
centre and a centre of zero both give the middle element; an empty axis raises `IndexError`. -/
def centreOr (axis : ℕ → ℚ) (n : ℕ) (c : Option ℚ) : Py ℚ :=
  match c with
  | some c => if c = 0 then (if n = 0 then .error .indexError else .ok (axis (n / 2))) else .ok c
  | none => if n = 0 then .error .indexError else .ok (axis (n / 2))

/-- `np.sqrt((x-c_x)**2 + (y-c_y)**2) <= radius` (`shape.py` 126-128), without the square root. -/
def inCircle (cy cx radius y x : ℚ) : Bool :=
  decide (0 ≤ radius) && decide ((x - cx) ^ 2 + (y - cy) ^ 2 ≤ radius ^ 2)

/-- `np.logical_and(|x-c_x| <= width, |y-c_y| <= height)` (`shape.py` 266-269). -/
def inRectangle (cy cx width height y x : ℚ) : Bool :=
  decide (|x - cx| ≤ width) && decide (|y - cy| ≤ height)

/-- `astype(int)` of a truth value.  See `/repo/meshiphi/dataloaders/scalar/shape.py` 145, 287. -/
def ind (b : Bool) : ℚ := if b then 1 else 0

/-- Models `shape.py` 100-149, `gen_circle`. -/
def genCircle (p : Params) (b : Boundary) : Py (List (Row ℚ)) := do
  let ny ← attr p.ny
  let nx ← attr p.nx
  let lat := linspace b.latMin b.latMax ny
  let long := linspace b.longMin b.longMax nx
  let c ← attr p.centre
  let cy ← centreOr lat ny c.1
  let cx ← centreOr long nx c.2
  let radius ← attr p.radius
  let m ← attr p.multiplier
  return rows ny nx lat long (fun i j => ind (inCircle cy cx radius (lat i) (long j)) * m)

/-- Models `shape.py` 151-193, `gen_gradient`. -/
def genGradient (p : Params) (b : Boundary) : Py (List (Row ℚ)) := do
  let ny ← attr p.ny
  let nx ← attr p.nx
  let lat := linspace b.latMin b.latMax ny
  let long := linspace b.longMin b.longMax nx
  let vertical ← attr p.vertical
  let gradient := if vertical then linspace 0 1 ny else linspace 0 1 nx
  let m ← attr p.multiplier
  return rows ny nx lat long (fun i j => (if vertical then gradient i else gradient j) * m)

/-- Models `shape.py` 195-237, `gen_checkerboard`.  The multiplier is not used.  Division by a grid size
of zero (which numpy turns into NaN) is not modelled: such sizes give stripe `0`. -/
def genCheckerboard (p : Params) (b : Boundary) : Py (List (Row ℚ)) := do
  let ny ← attr p.ny
  let nx ← attr p.nx
  let lat := linspaceOpen b.latMin b.latMax ny
  let long := linspaceOpen b.longMin b.longMax nx
  let g ← attr p.gridsize
  let horizontal := fun i => pyMod (⌊(lat i - b.latMin) / g.2⌋ : ℤ) 2
  let vertical := fun j => pyMod (⌊(long j - b.longMin) / g.1⌋ : ℤ) 2
  return rows ny nx lat long (fun i j => pyMod (horizontal i + vertical j) 2)

/-- Models `shape.py` 239-291, `gen_rectangle`. -/
def genRectangle (p : Params) (b : Boundary) : Py (List (Row ℚ)) := do
  let ny ← attr p.ny
  let nx ← attr p.nx
  let lat := linspace b.latMin b.latMax ny
  let long := linspace b.longMin b.longMax nx
  let c ← attr p.centre
  let cy ← centreOr lat ny c.1
  let cx ← centreOr long nx c.2
  let width ← attr p.width
  let height ← attr p.height
  let m ← attr p.multiplier
  return rows ny nx lat long (fun i j => ind (inRectangle cy cx width height (lat i) (long j)) * m)

/-- Models `shape.py` 64-98, `import_data`, on the completed parameters. -/
def importData (p : Params) (b : Boundary) : Py (List (Row ℚ)) := do
  let p := addDefaults p
  let data ← (if p.name = "circle" then genCircle p b
    else if p.name = "checkerboard" then genCheckerboard p b
    else if p.name = "gradient" then genGradient p b
    else if p.name = "rectangle" then genRectangle p b
    else .error .valueError)
  toXarray data

/-! ## Vector shapes -/

/-- Models `vector_shape.py` 10-58, `add_default_params` of the vector shapes.  Without `multiplier_u`
or `multiplier_v` it is `multiplier` that is set (34-37); the shape defaults look at the names of the
scalar shapes (40-56). -/
def vecDefaults (p : Params) : Params :=
  let p := if p.nx = none then { p with nx := some 101 } else p
  let p := if p.ny = none then { p with ny := some 101 } else p
  let p := if p.multiplierU = none then { p with multiplier := some 1 } else p
  let p := if p.multiplierV = none then { p with multiplier := some 1 } else p
  if p.name = "circle" then
    let p := if p.radius = none then { p with radius := some 1 } else p
    if p.centre = none then { p with centre := some (none, none) } else p
  else if p.name = "rectangle" then
    let p := if p.width = none then { p with width := some 1 } else p
    let p := if p.height = none then { p with width := some 1 } else p
    if p.centre = none then { p with centre := some (none, none) } else p
  else if p.name = "gradient" then
    if p.vertical = none then { p with vertical := some true } else p
  else p

/-- Models `vector_shape.py` 93-147, `gen_gradient`. -/
def vecGradient (p : Params) (b : Boundary) : Py (List (Row (ℚ × ℚ))) := do
  let ny ← attr p.ny
  let nx ← attr p.nx
  let lat := linspace b.latMin b.latMax ny
  let long := linspace b.longMin b.longMax nx
  let vertical ← attr p.vertical
  let gradient := if vertical then linspace 0 1 ny else linspace 0 1 nx
  let mu ← attr p.multiplierU
  let mv ← attr p.multiplierV
  return rows ny nx lat long (fun i j =>
    if vertical then (0 * mu, gradient i * mv) else (gradient j * mu, 0 * mv))

/-- Models `vector_shape.py` 149-203, `gen_circle`. -/
def vecCircle (p : Params) (b : Boundary) : Py (List (Row (ℚ × ℚ))) := do
  let ny ← attr p.ny
  let nx ← attr p.nx
  let lat := linspace b.latMin b.latMax ny
  let long := linspace b.longMin b.longMax nx
  let c ← attr p.centre
  let cy ← centreOr lat ny c.1
  let cx ← centreOr long nx c.2
  let radius ← attr p.radius
  let mu ← attr p.multiplierU
  let mv ← attr p.multiplierV
  return rows ny nx lat long (fun i j =>
    (ind (inCircle cy cx radius (lat i) (long j)) * mu, ind (inCircle cy cx radius (lat i) (long j)) * mv))

/-- Models `vector_shape.py` 205-260, `gen_rectangle`. -/
def vecRectangle (p : Params) (b : Boundary) : Py (List (Row (ℚ × ℚ))) := do
  let ny ← attr p.ny
  let nx ← attr p.nx
  let lat := linspace b.latMin b.latMax ny
  let long := linspace b.longMin b.longMax nx
  let c ← attr p.centre
  let cy ← centreOr lat ny c.1
  let cx ← centreOr long nx c.2
  let width ← attr p.width
  let height ← attr p.height
  let mu ← attr p.multiplierU
  let mv ← attr p.multiplierV
  return rows ny nx lat long (fun i j =>
    (ind (inRectangle cy cx width height (lat i) (long j)) * mu,
     ind (inRectangle cy cx width height (lat i) (long j)) * mv))

/-- Models `vector_shape.py` 60-91, `import_data`, on the completed parameters. -/
def vecImport (p : Params) (b : Boundary) : Py (List (Row (ℚ × ℚ))) := do
  let p := vecDefaults p
  let data ← (if p.name = "vector_circle" then vecCircle p b
    else if p.name = "vector_gradient" then vecGradient p b
    else if p.name = "vector_rectangle" then vecRectangle p b
    else .error .valueError)
  toXarray data

end Verif.Shape
