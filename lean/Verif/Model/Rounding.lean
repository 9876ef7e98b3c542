import Verif.Model.EnvMesh
import Verif.Model.ConfigValidator

/-!
# Model of building a mesh in floating point

The rest of the model calculates with exact rational numbers.  Here the geometry of
`/repo/meshiphi/mesh_generation/mesh_builder.py`, `cellbox.py`, `neighbour_graph.py`, `boundary.py` and
`/repo/meshiphi/utils.py` is modelled once more with every operation followed by a rounding `r`; `round64` is that of
double precision.  With `r = id` the functions are those of the exact model.

Simplified: no overflow, no subnormal numbers (exponents are unbounded), no fused operations.  Integers of the configuration
are numbers like others: sums of integers below 2^53 are not rounded.
-/

namespace Verif.Fl

/-- `2 ^ e`.  See `/repo/meshiphi/utils.py` 15-29, the type `float` there and in the other functions below. -/
def pow2 : ℤ → ℚ
  | .ofNat n => ((2 ^ n : ℕ) : ℚ)
  | .negSucc n => mkRat 1 (2 ^ (n + 1))

/-- The exponent `e` with `2 ^ e ≤ a < 2 ^ (e + 1)`, for positive `a`.  See `/repo/meshiphi/utils.py` 15-29, the type `float`. -/
def expo (a : ℚ) : ℤ :=
  let e := (Nat.log2 a.num.natAbs : ℤ) - (Nat.log2 a.den : ℤ)
  if a < pow2 e then e - 1 else e

/-- The nearest integer, the even one of two.  See `/repo/meshiphi/utils.py` 15-29, the type `float`. -/
def roundEven (x : ℚ) : ℤ :=
  let f := ⌊x⌋
  if x - f < 1 / 2 then f
  else if x - f > 1 / 2 then f + 1
  else if f % 2 = 0 then f else f + 1

/-- Rounding to 53 binary digits (IEEE 754 binary64, to nearest, ties to even). -/
def round64 (q : ℚ) : ℚ :=
  if q = 0 then 0
  else
    let u := pow2 (expo |q| - 52)
    roundEven (q / u) * u

variable (r : ℚ → ℚ)

/-- Python's `a % b` for floats: the exact remainder of `fmod`, to which `b` is added when the signs differ.  See `/repo/meshiphi/utils.py` 15-29. -/
def fmod (a b : ℚ) : ℚ :=
  let m := a - b * (pyInt (a / b) : ℤ)
  if m ≠ 0 ∧ ((m < 0) ≠ (b < 0)) then r (m + b) else m

/-- Models `/repo/meshiphi/utils.py` 15-29, `longitude_domain`. -/
def domain (long : ℚ) : ℚ :=
  if long = -180 ∨ long = 180 then long
  else r (fmod r (r (long + 180)) 360 - 180)

/-- Models `/repo/meshiphi/mesh_generation/boundary.py` 228-237, `get_height`. -/
def height (b : Boundary) : ℚ := r (b.latMax - b.latMin)

/-- Models `boundary.py` 238-251, `get_width`. -/
def width (b : Boundary) : ℚ :=
  if b.longMax > b.longMin then r (b.longMax - b.longMin)
  else r (r (180 - b.longMin) + r (b.longMax + 180))

/-- Models `/repo/meshiphi/mesh_generation/cellbox.py` 265-304, `create_splitted_cell_boxes`. -/
def createSplitted (b : Boundary) (index : ℕ) : Py (List (Boundary × ℕ)) := do
  let halfWidth := r (width r b / 2)
  let halfHeight := r (height r b / 2)
  let lat := b.latMin
  let long := b.longMin
  let nw ← Boundary.mk? [r (lat + halfHeight), r (lat + height r b)]
    [long, domain r (r (long + halfWidth))] b.time
  let ne ← Boundary.mk? [r (lat + halfHeight), r (lat + height r b)]
    [domain r (r (long + halfWidth)), domain r (r (long + width r b))] b.time
  let sw ← Boundary.mk? [lat, r (lat + halfHeight)]
    [long, domain r (r (long + halfWidth))] b.time
  let se ← Boundary.mk? [lat, r (lat + halfHeight)]
    [domain r (r (long + halfWidth)), domain r (r (long + width r b))] b.time
  return [(nw, index), (ne, index + 1), (sw, index + 2), (se, index + 3)]

/-- Models `/repo/meshiphi/mesh_generation/neighbour_graph.py` 206-270 = 317-352. -/
def caseBounds (a b : Boundary) : Option Dir :=
  let longA := a.longMin
  let latA := a.latMin
  let longB := b.longMin
  let latB := b.latMin
  let eastA := r (longA + width r a)
  let northA := r (latA + height r a)
  let eastB := r (longB + width r b)
  let northB := r (latB + height r b)
  if eastA = longB ∧ northA = latB then some .northEast
  else if eastA = longB ∧ latB < northA ∧ northB > latA then some .east
  else if eastA = longB ∧ latA = northB then some .southEast
  else if northB = latA ∧ eastB > longA ∧ longB < eastA then some .south
  else if longA = eastB ∧ latA = northB then some .southWest
  else if eastB = longA ∧ latB < northA ∧ northB > latA then some .west
  else if longA = eastB ∧ northA = latB then some .northWest
  else if latB = northA ∧ eastB > longA ∧ longB < eastA then some .north
  else none

/-- Models `neighbour_graph.py` 354-409, `get_global_mesh_neighbour_case`. -/
def caseGlobal (a b : Boundary) : Option Dir :=
  let longA := a.longMin
  let latA := a.latMin
  let longB := b.longMin
  let latB := b.latMin
  let eastA := r (longA + width r a)
  let northA := r (latA + height r a)
  let eastB := r (longB + width r b)
  let northB := r (latB + height r b)
  if eastA = |longB| ∧ northA = latB then some .northEast
  else if eastA = |longB| ∧ latB < northA ∧ northB > latA then some .east
  else if eastA = |longB| ∧ latA = northB then some .southEast
  else if northB = latA ∧ eastB > longA ∧ longB < eastA then some .south
  else if |longA| = eastB ∧ latA = northB then some .southWest
  else if eastB = |longA| ∧ latB < northA ∧ northB > latA then some .west
  else if |longA| = eastB ∧ northA = latB then some .northWest
  else if latB = northA ∧ eastB > longA ∧ longB < eastA then some .north
  else none

/-- Models `neighbour_graph.py` 272-352, `get_neighbour_case`. -/
def case (isGlobal : Bool) (a b : Boundary) : Option Dir :=
  if isGlobal = true ∧ Graph.onGlobalBound a b then caseGlobal r a b else caseBounds r a b

variable {D : Type}

/-- Models `cellbox.py` 234-263, `split`. -/
def split (ops : DataOps D) (c : CellBox D) (startId : ℕ) : Py (List (CellBox D)) := do
  let boxes ← createSplitted r c.bounds startId
  return boxes.map (fun p =>
    { bounds := p.1, id := p.2, depth := c.depth + 1, data := ops.trim p.1 c.data,
      anc := (c.bounds, c.data) :: c.anc })

/-- `get_neighbour_case(cellboxes[i], cellboxes[j])` (`neighbour_graph.py` 153-162). -/
def caseAt (isGlobal : Bool) (bnd : ℕ → Py Boundary) (i j : ℕ) : Py (Option Dir) := do
  let a ← bnd i
  let b ← bnd j
  return case r isGlobal a b

/-- Models `neighbour_graph.py` 152-157 = 159-164. -/
def appendCase (bnd : ℕ → Py Boundary) (g : Graph) (idx n : ℕ) : Py Graph := do
  let c ← caseAt r g.isGlobal bnd idx n
  match c with
  | some e => g.addNeighbour idx e n
  | none => return g

/-- Models `neighbour_graph.py` 137-164, `update_neighbours`. -/
def updateNeighbours (bnd : ℕ → Py Boundary) (g : Graph) (k n0 n1 : ℕ) (d : Dir) : Py Graph := do
  let g ← g.removeNodeFromNeighbours k d
  let l ← g.getNeighbours k d
  l.foldlM (fun g idx => do
    let g ← appendCase r bnd g idx n0
    appendCase r bnd g idx n1) g

/-- The loop body of the `fill_*_map` methods (`mesh_builder.py` 495-555). -/
def fillStep (isGlobal : Bool) (bnd : ℕ → Py Boundary) (new : ℕ) (d1 d2 : Dir) (m : NMap) (idx : ℕ) :
    Py NMap := do
  let c ← caseAt r isGlobal bnd new idx
  let m := if c = some d1 then m.append d1 idx else m
  return (if c = some d2 then m.append d2 idx else m)

/-- The two loops of each `fill_*_map` method (`mesh_builder.py` 490-555). -/
def fillMap (isGlobal : Bool) (bnd : ℕ → Py Boundary) (new : ℕ) (l1 : List ℕ) (d1 d2 : Dir)
    (l2 : List ℕ) (d3 d4 : Dir) (m : NMap) : Py NMap := do
  let m ← l1.foldlM (fillStep r isGlobal bnd new d1 d2) m
  l2.foldlM (fillStep r isGlobal bnd new d3 d4) m

/-- The graph part of `mesh_builder.py` 397-484 (see `MeshBuilder.splitGraph`). -/
def splitGraph (bnd : ℕ → Py Boundary) (g : Graph) (k nw ne sw se : ℕ) : Py Graph := do
  let south ← g.getNeighbours k .south
  let north ← g.getNeighbours k .north
  let east ← g.getNeighbours k .east
  let west ← g.getNeighbours k .west
  let swCorner ← g.getNeighbours k .southWest
  let swMap ← fillMap r g.isGlobal bnd sw south .southEast .south west .west .northWest
    (MeshBuilder.mapOf [ne] [se] [] [] swCorner [] [] [nw])
  let g := g.addNode sw swMap
  let nwCorner ← g.getNeighbours k .northWest
  let nwMap ← fillMap r g.isGlobal bnd nw north .north .northEast west .west .southWest
    (MeshBuilder.mapOf [] [ne] [se] [sw] [] [] nwCorner [])
  let g := g.addNode nw nwMap
  let neCorner ← g.getNeighbours k .northEast
  let neMap ← fillMap r g.isGlobal bnd ne north .north .northWest east .east .southEast
    (MeshBuilder.mapOf neCorner [] [] [se] [sw] [nw] [] [])
  let g := g.addNode ne neMap
  let seCorner ← g.getNeighbours k .southEast
  let seMap ← fillMap r g.isGlobal bnd se south .south .southWest east .east .northEast
    (MeshBuilder.mapOf [] [] seCorner [] [] [sw] [nw] [ne])
  let g := g.addNode se seMap
  let g ← updateNeighbours r bnd g k nw ne .north
  let g ← updateNeighbours r bnd g k ne se .east
  let g ← updateNeighbours r bnd g k sw se .south
  let g ← updateNeighbours r bnd g k nw sw .west
  let g ← g.updateCornerNeighbours k nw ne sw se
  g.removeNode k

/-- Models `mesh_builder.py` 378-486, `split_and_replace`. -/
def splitAndReplace (ops : DataOps D) (m : MeshState D) (k : ℕ) : Py (MeshState D) := do
  let c ← cellAt m.cells k
  let n := m.cells.length
  let new ← split r ops c n
  let cells := m.cells ++ new.map some
  let g ← splitGraph r (boundsAt cells) m.graph k n (n + 1) (n + 2) (n + 3)
  return { m with cells := cells.set k none, graph := g }

/-- Models the inner loop of `mesh_builder.py` 586-598. -/
def splitPass (ops : DataOps D) (splitDepth index : ℕ) : ℕ → ℕ → MeshState D → Py (MeshState D)
  | 0, _, _ => .error .outOfFuel
  | fuel + 1, i, m =>
    match m.cells[i]? with
    | none => .ok m
    | some none => splitPass ops splitDepth index fuel (i + 1) m
    | some (some c) => do
      let should ← ops.shouldSplit (index + 1) c.bounds c.data
      if c.depth < splitDepth ∧ should = true then do
        let m ← splitAndReplace r ops m i
        splitPass ops splitDepth index fuel (i + 1) m
      else splitPass ops splitDepth index fuel (i + 1) m

/-- Models `mesh_builder.py` 575-598. -/
def splitSources (ops : DataOps D) (splitDepth fuel : ℕ) : List ℕ → ℕ → MeshState D → Py (MeshState D)
  | [], _, m => .ok m
  | n :: rest, index, m => do
    let m ← if n > 0 then splitPass r ops splitDepth index fuel 0 m else .ok m
    splitSources ops splitDepth fuel rest (index + 1) m

/-- Models `mesh_builder.py` 558-602, `split_to_depth`. -/
def splitToDepth (ops : DataOps D) (fuel splitDepth : ℕ) (m : MeshState D) : Py (MeshState D) := do
  let c0 ← cellAt m.cells 0
  splitSources r ops splitDepth fuel (ops.nConds c0.data) 0 m

/-- Models `mesh_builder.py` 604-626, `build_environmental_mesh`; the bounds of cells are written as they are. -/
def buildEnvironmentalMesh (ops : DataOps D) (aggregate : CellBox D → Py (Dict String Val)) (fuel : ℕ)
    (config : MeshConfig) (m : MeshState D) : Py EnvMesh := do
  let m ← splitToDepth r ops fuel m.maxDepth m
  MeshBuilder.toEnvMesh aggregate config m

/-- Models `/repo/meshiphi/config_validation/config_validator.py` 87-99, `assert_valid_cellsize`. -/
def assertValidCellsize (boundMin boundMax cellSize : ℚ) : Py Unit :=
  if cellSize = 0 then .error .zeroDivision
  else if fmod r (r (fmod r (r (boundMax - boundMin)) 360 / cellSize)) 1 = 0 then .ok ()
  else .error .assertionError

/-- Models `mesh_builder.py` 319-326, `validate_bounds`. -/
def validateBounds (b : Boundary) (cellWidth cellHeight : ℚ) : Py Unit :=
  if cellWidth = 0 then .error .zeroDivision
  else if fmod r (fmod r (r (b.longMax - b.longMin)) 360) cellWidth ≠ 0 then .error .assertionError
  else if cellHeight = 0 then .error .zeroDivision
  else if fmod r (r (b.latMax - b.latMin)) cellHeight ≠ 0 then .error .assertionError
  else .ok ()

/-- `np.arange(start, stop, step)` (`mesh_builder.py` 243-257): numpy calculates the length from the quotient, and the
elements from the third on with the difference of the first two. -/
def arange (start stop step : ℚ) : List ℚ :=
  let n := (⌈r (r (stop - start) / step)⌉ : ℤ).toNat
  let next := r (start + step)
  let delta := r (next - start)
  (List.range n).map (fun i : ℕ => if i = 0 then start else if i = 1 then next else r (start + r (i * delta)))

/-- The list of western edges of `mesh_builder.py` 249-260. -/
def longStarts (b : Boundary) (cellWidth : ℚ) : List ℚ :=
  (if b.longMin < b.longMax then arange r b.longMin b.longMax cellWidth
     else arange r b.longMin (r (b.longMax + 360)) cellWidth).map (domain r)

/-- Models `mesh_builder.py` 264-268: the boundary of one initial cell. -/
def initialCell (time : List ℤ) (cellWidth cellHeight lat long : ℚ) : Py Boundary :=
  if r (long + cellWidth) ≤ 180 then Boundary.mk? [lat, r (lat + cellHeight)] [long, r (long + cellWidth)] time
  else Boundary.mk? [lat, r (lat + cellHeight)] [long, r (r (long + cellWidth) - 360)] time

/-- Models `mesh_builder.py` 238-272, `initialize_cellboxes`. -/
def initializeCells (b : Boundary) (cellWidth cellHeight : ℚ) : Py (List Boundary) :=
  (arange r b.latMin b.latMax cellHeight).foldlM (fun acc lat =>
    (longStarts r b cellWidth).foldlM (fun acc long => do
      let cb ← initialCell r b.time cellWidth cellHeight lat long
      return acc ++ [cb]) acc) []

/-- Models `neighbour_graph.py` 428-473, `initialise_map`. -/
def initialiseMap (i : ℕ) (gridWidth : ℚ) (n : ℕ) : NMap :=
  let m : NMap := fun _ => []
  let up := r ((i : ℚ) + gridWidth)
  let down := r ((i : ℚ) - gridWidth)
  let m := if fmod r ((i : ℚ) + 1) gridWidth ≠ 0 then
      let m := m.append .east (i + 1)
      let m := if up < n then m.append .northEast (pyInt (r (up + 1))).toNat else m
      if down ≥ 0 then m.append .southEast (pyInt (r (down + 1))).toNat else m
    else m
  let m := if fmod r (i : ℚ) gridWidth ≠ 0 then
      let m := m.append .west (i - 1)
      let m := if up < n then m.append .northWest (pyInt (r (up - 1))).toNat else m
      if down ≥ 0 then m.append .southWest (pyInt (r (down - 1))).toNat else m
    else m
  let m := if up < n then m.append .north (pyInt up).toNat else m
  if down ≥ 0 then m.append .south (pyInt down).toNat else m

/-- Models `neighbour_graph.py` 417-426, `initialise_neighbour_graph`. -/
def initialise (n : ℕ) (gridWidth : ℚ) : Graph :=
  { nodes := (List.range n).foldl (fun d i => d.set i (initialiseMap r i gridWidth n)) [], isGlobal := false }

/-- Models `mesh_builder.py` 83-139, `MeshBuilder.__init__` (see `MeshBuilder.init`). -/
def init (b : Boundary) (cellWidth cellHeight : ℚ) (initData : Boundary → D) (splitDepth : ℕ) :
    Py (MeshState D) := do
  validateBounds r b cellWidth cellHeight
  let boxes ← initializeCells r b cellWidth cellHeight
  let cells := boxes.mapIdx (fun i cb => some { bounds := cb, id := i, data := initData cb })
  let gridWidth := r (width r b / cellWidth)
  let g := initialise r boxes.length gridWidth
  let (g, isGlobal) ← MeshBuilder.checkGlobalMesh b boxes.length (pyInt gridWidth) g
  return { bounds := b, cells := cells, graph := { g with isGlobal := isGlobal }, maxDepth := splitDepth }

end Verif.Fl
