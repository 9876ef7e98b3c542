import Verif.Model.CellBox

/-!
# Model of `meshiphi/mesh_generation/mesh_builder.py`
-/

namespace Verif

/-- Models the attributes of `/repo/meshiphi/mesh_generation/mesh.py` 6-45 used by the builder:
bounds, the list of cellboxes (replaced cells become `None`), graph and maximal split depth. -/
structure MeshState (D : Type) where
  bounds : Boundary
  cells : List (Option (CellBox D))
  graph : Graph
  maxDepth : ℕ

variable {D : Type}

/-- `cellboxes[i]` followed by an attribute access: `IndexError` when out of range,
`AttributeError` when the entry is `None`.  See `/repo/meshiphi/mesh_generation/mesh_builder.py` 490-555. -/
def cellAt (cells : List (Option (CellBox D))) (i : ℕ) : Py (CellBox D) :=
  match cells[i]? with
  | none => .error .indexError
  | some none => .error .attributeError
  | some (some c) => .ok c

/-- `cellboxes[i].get_bounds()`.  See `/repo/meshiphi/mesh_generation/mesh_builder.py` 490-555. -/
def boundsAt (cells : List (Option (CellBox D))) (i : ℕ) : Py Boundary := do
  let c ← cellAt cells i
  return c.bounds

namespace Graph

/-- `self.neighbour_graph.get_neighbour_case(cellboxes[i], cellboxes[j])` (`/repo/meshiphi/mesh_generation/mesh_builder.py` 496-554). -/
def caseAt (isGlobal : Bool) (bnd : ℕ → Py Boundary) (i j : ℕ) : Py (Option Dir) := do
  let a ← bnd i
  let b ← bnd j
  return neighbourCase isGlobal a b

/-- Models `neighbour_graph.py` 152-157 (and 159-164): append `n` to the list of `idx` in the
direction of the neighbour case, if any. -/
def appendCase (bnd : ℕ → Py Boundary) (g : Graph) (idx n : ℕ) : Py Graph := do
  let c ← caseAt g.isGlobal bnd idx n
  match c with
  | some e => g.addNeighbour idx e n
  | none => return g

/-- Models `neighbour_graph.py` 137-164, `update_neighbours`; `bnd i` is
`cellboxes[i].get_bounds()`. -/
def updateNeighbours (bnd : ℕ → Py Boundary) (g : Graph) (k n0 n1 : ℕ) (d : Dir) : Py Graph := do
  let g ← g.removeNodeFromNeighbours k d
  let l ← g.getNeighbours k d
  l.foldlM (fun g idx => do
    let g ← appendCase bnd g idx n0
    appendCase bnd g idx n1) g

/-- One `if` of `neighbour_graph.py` 190-204: the first cell in corner direction `d` of `k` gets
`[n]` as its list in the opposite direction. -/
def updateCorner (g : Graph) (k : ℕ) (d : Dir) (n : ℕ) : Py Graph := do
  let l ← g.getNeighbours k d
  match l with
  | [] => return g
  | i :: _ => g.updateNeighbour i d.opp [n]

/-- Models `neighbour_graph.py` 186-204, `update_corner_neighbours`. -/
def updateCornerNeighbours (g : Graph) (k nw ne sw se : ℕ) : Py Graph := do
  let g ← g.updateCorner k .northEast ne
  let g ← g.updateCorner k .northWest nw
  let g ← g.updateCorner k .southEast se
  g.updateCorner k .southWest sw

end Graph

namespace MeshBuilder

/-- The loop body shared by the four `fill_*_map` methods (`mesh_builder.py` 495-555): `idx` is
appended under `d1` or `d2` when that is the neighbour case of the new cell and `idx`. -/
def fillStep (isGlobal : Bool) (bnd : ℕ → Py Boundary) (new : ℕ) (d1 d2 : Dir) (m : NMap) (idx : ℕ) :
    Py NMap := do
  let c ← Graph.caseAt isGlobal bnd new idx
  let m := if c = some d1 then m.append d1 idx else m
  return (if c = some d2 then m.append d2 idx else m)

/-- The two loops of each `fill_*_map` method.  See `/repo/meshiphi/mesh_generation/mesh_builder.py` 490-555. -/
def fillMap (isGlobal : Bool) (bnd : ℕ → Py Boundary) (new : ℕ) (l1 : List ℕ) (d1 d2 : Dir)
    (l2 : List ℕ) (d3 d4 : Dir) (m : NMap) : Py NMap := do
  let m ← l1.foldlM (fillStep isGlobal bnd new d1 d2) m
  l2.foldlM (fillStep isGlobal bnd new d3 d4) m

/-- Models `mesh_builder.py` 490-504, `fill_se_map`. -/
def fillSe (isGlobal : Bool) (bnd : ℕ → Py Boundary) (se : ℕ) (south east : List ℕ) (m : NMap) : Py NMap :=
  fillMap isGlobal bnd se south .south .southWest east .east .northEast m

/-- Models `mesh_builder.py` 507-521, `fill_ne_map`. -/
def fillNe (isGlobal : Bool) (bnd : ℕ → Py Boundary) (ne : ℕ) (north east : List ℕ) (m : NMap) : Py NMap :=
  fillMap isGlobal bnd ne north .north .northWest east .east .southEast m

/-- Models `mesh_builder.py` 524-538, `fill_nw_map`. -/
def fillNw (isGlobal : Bool) (bnd : ℕ → Py Boundary) (nw : ℕ) (north west : List ℕ) (m : NMap) : Py NMap :=
  fillMap isGlobal bnd nw north .north .northEast west .west .southWest m

/-- Models `mesh_builder.py` 541-555, `fill_sw_neighbour_map`. -/
def fillSw (isGlobal : Bool) (bnd : ℕ → Py Boundary) (sw : ℕ) (south west : List ℕ) (m : NMap) : Py NMap :=
  fillMap isGlobal bnd sw south .southEast .south west .west .northWest m

/-- A neighbour map literal `{Direction.north_east: ne, Direction.east: e, ...}`.
See `/repo/meshiphi/mesh_generation/mesh_builder.py` 410-417, 424-431. -/
def mapOf (ne e se s sw w nw n : List ℕ) : NMap
  | .northEast => ne | .east => e | .southEast => se | .south => s
  | .southWest => sw | .west => w | .northWest => nw | .north => n

/-- The graph part of `mesh_builder.py` 397-484: build the four neighbour maps, update the old
neighbours and drop the node `k`.  The lists read from the node of `k` are aliased by the code in
the new maps; nothing mutates them afterwards, because `k` is removed and no cell is its own
neighbour. -/
def splitGraph (bnd : ℕ → Py Boundary) (g : Graph) (k nw ne sw se : ℕ) : Py Graph := do
  let south ← g.getNeighbours k .south
  let north ← g.getNeighbours k .north
  let east ← g.getNeighbours k .east
  let west ← g.getNeighbours k .west
  let swCorner ← g.getNeighbours k .southWest
  let swMap ← fillSw g.isGlobal bnd sw south west (mapOf [ne] [se] [] [] swCorner [] [] [nw])
  let g := g.addNode sw swMap
  let nwCorner ← g.getNeighbours k .northWest
  let nwMap ← fillNw g.isGlobal bnd nw north west (mapOf [] [ne] [se] [sw] [] [] nwCorner [])
  let g := g.addNode nw nwMap
  let neCorner ← g.getNeighbours k .northEast
  let neMap ← fillNe g.isGlobal bnd ne north east (mapOf neCorner [] [] [se] [sw] [nw] [] [])
  let g := g.addNode ne neMap
  let seCorner ← g.getNeighbours k .southEast
  let seMap ← fillSe g.isGlobal bnd se south east (mapOf [] [] seCorner [] [] [sw] [nw] [ne])
  let g := g.addNode se seMap
  let g ← g.updateNeighbours bnd k nw ne .north
  let g ← g.updateNeighbours bnd k ne se .east
  let g ← g.updateNeighbours bnd k sw se .south
  let g ← g.updateNeighbours bnd k nw sw .west
  let g ← g.updateCornerNeighbours k nw ne sw se
  g.removeNode k

/-- Models `mesh_builder.py` 378-486, `split_and_replace(cellbox)` for `cellbox = cellboxes[k]`.
`cellboxes.index(x)` finds a cell by identity (`CellBox` defines no `__eq__`), so the indices are
`k` and the four last positions. -/
def splitAndReplace (ops : DataOps D) (m : MeshState D) (k : ℕ) : Py (MeshState D) := do
  let c ← cellAt m.cells k
  let n := m.cells.length
  let new ← c.split ops n
  let cells := m.cells ++ new.map some
  let g ← splitGraph (boundsAt cells) m.graph k n (n + 1) (n + 2) (n + 3)
  return { m with cells := cells.set k none, graph := g }

/-- Models the inner loop of `mesh_builder.py` 586-598 for one data source (number `index`): a
`for` loop over the cell list while the list grows.  The loop is fuelled; `i` is the loop index. -/
def splitPass (ops : DataOps D) (splitDepth index : ℕ) : ℕ → ℕ → MeshState D → Py (MeshState D)
  | 0, _, _ => .error .outOfFuel
  | fuel + 1, i, m =>
    match m.cells[i]? with
    | none => .ok m
    | some none => splitPass ops splitDepth index fuel (i + 1) m
    | some (some c) => do
      let should ← ops.shouldSplit (index + 1) c.bounds c.data
      if c.depth < splitDepth ∧ should = true then do
        let m ← splitAndReplace ops m i
        splitPass ops splitDepth index fuel (i + 1) m
      else splitPass ops splitDepth index fuel (i + 1) m

/-- Models `mesh_builder.py` 575-598: the loop over the data sources (`conds` = numbers of
splitting conditions of sources `index`, `index + 1`, ...). -/
def splitSources (ops : DataOps D) (splitDepth fuel : ℕ) : List ℕ → ℕ → MeshState D → Py (MeshState D)
  | [], _, m => .ok m
  | n :: rest, index, m => do
    let m ← if n > 0 then splitPass ops splitDepth index fuel 0 m else .ok m
    splitSources ops splitDepth fuel rest (index + 1) m

/-- Models `mesh_builder.py` 558-602, `split_to_depth` (progress bars left out).  The data
sources are those of `cellboxes[0]` (line 570). -/
def splitToDepth (ops : DataOps D) (fuel splitDepth : ℕ) (m : MeshState D) : Py (MeshState D) := do
  let c0 ← cellAt m.cells 0
  splitSources ops splitDepth fuel (ops.nConds c0.data) 0 m

/-- Models `mesh_builder.py` 319-326, `validate_bounds`: `x % cell` raises `ZeroDivisionError`
for a zero cell size. -/
def validateBounds (b : Boundary) (cellWidth cellHeight : ℚ) : Py Unit :=
  if cellWidth = 0 then .error .zeroDivision
  else if pyMod (pyMod (b.longMax - b.longMin) 360) cellWidth ≠ 0 then .error .assertionError
  else if cellHeight = 0 then .error .zeroDivision
  else if pyMod (b.latMax - b.latMin) cellHeight ≠ 0 then .error .assertionError
  else .ok ()

/-- The list of western edges of `mesh_builder.py` 249-260. -/
def longStarts (b : Boundary) (cellWidth : ℚ) : List ℚ :=
  longitudeDomainList
    (if b.longMin < b.longMax then arange b.longMin b.longMax cellWidth
     else arange b.longMin (b.longMax + 360) cellWidth)

/-- Models `mesh_builder.py` 264-268: the boundary of one initial cell. -/
def initialCell (time : List ℤ) (cellWidth cellHeight lat long : ℚ) : Py Boundary :=
  if long + cellWidth ≤ 180 then Boundary.mk? [lat, lat + cellHeight] [long, long + cellWidth] time
  else Boundary.mk? [lat, lat + cellHeight] [long, long + cellWidth - 360] time

/-- Models `mesh_builder.py` 238-272, `initialize_cellboxes`: row by row; ids are positions.
The unused `grid_height` / `grid_width` (lines 240, 247) are left out. -/
def initializeCells (b : Boundary) (cellWidth cellHeight : ℚ) : Py (List Boundary) :=
  (arange b.latMin b.latMax cellHeight).foldlM (fun acc lat =>
    (longStarts b cellWidth).foldlM (fun acc long => do
      let cb ← initialCell b.time cellWidth cellHeight lat long
      return acc ++ [cb]) acc) []

/-- `l[start::step]` for a list of `n` positions and `step > 0`, as a list of positions.
See `/repo/meshiphi/mesh_generation/mesh_builder.py` 343-344. -/
def sliceFrom (n start step : ℕ) : List ℕ := (List.range n).filter (fun i => start ≤ i ∧ (i - start) % step = 0)

/-- Models the loop of `mesh_builder.py` 346-355: `mins`, `maxs` are the ids of the cells at the
minimal and at the maximal longitude, `n` is `len(min_long_cellboxes)`. -/
def globalStep (mins maxs : List ℕ) (g : Graph) (i : ℕ) : Py Graph := do
  let get (l : List ℕ) (i : ℕ) : Py ℕ := match l[i]? with | some x => .ok x | none => .error .indexError
  let lo ← get mins i
  let hi ← get maxs i
  let g ← g.addNeighbour lo .west hi
  let g ← g.addNeighbour hi .east lo
  let g ← if i + 1 < mins.length then do
      let hi' ← get maxs (i + 1)
      let lo' ← get mins (i + 1)
      let g ← g.addNeighbour lo .northWest hi'
      g.addNeighbour hi .northEast lo'
    else pure g
  if 0 < i then do
    let hi' ← get maxs (i - 1)
    let lo' ← get mins (i - 1)
    let g ← g.addNeighbour lo .southWest hi'
    g.addNeighbour hi .southEast lo'
  else pure g

/-- Models `mesh_builder.py` 328-357, `check_global_mesh`, on a mesh of `n` initial cells whose ids
are their positions.  A slice step of `0` raises `ValueError`; a negative `grid_width` only occurs
with an empty cell list, where both slices are empty. -/
def checkGlobalMesh (b : Boundary) (n : ℕ) (gridWidth : ℤ) (g : Graph) : Py (Graph × Bool) :=
  if b.longMax = |b.longMin| ∧ |b.longMin| = 180 then
    if gridWidth = 0 then .error .valueError
    else if gridWidth < 0 then .ok (g, true)
    else do
      let gw := gridWidth.toNat
      let mins := sliceFrom n 0 gw
      let maxs := sliceFrom n (gw - 1) gw
      let g ← (List.range mins.length).foldlM (globalStep mins maxs) g
      return (g, true)
  else .ok (g, false)

/-- Models `mesh_builder.py` 83-139, `MeshBuilder.__init__` after the configuration has been
validated and parsed into a boundary; `initData b` are the data sources trimmed to the cell
(lines 117-122).  `splitDepth` is `config['splitting']['split_depth']`, or 0. -/
def init (b : Boundary) (cellWidth cellHeight : ℚ) (initData : Boundary → D) (splitDepth : ℕ) :
    Py (MeshState D) := do
  validateBounds b cellWidth cellHeight
  let boxes ← initializeCells b cellWidth cellHeight
  let cells := boxes.mapIdx (fun i cb => some { bounds := cb, id := i, data := initData cb })
  let gridWidth := b.width / cellWidth
  let g := Graph.initialise boxes.length gridWidth
  let (g, isGlobal) ← checkGlobalMesh b boxes.length (pyInt gridWidth) g
  return { bounds := b, cells := cells, graph := { g with isGlobal := isGlobal }, maxDepth := splitDepth }

end MeshBuilder
end Verif
