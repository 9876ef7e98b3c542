import Verif.Model.MeshBuilder
import Verif.Model.Data

/-!
# Model of `meshiphi/mesh_generation/aggregated_cellbox.py` and `environment_mesh.py`

Ids are decimal strings in the code; here they are the numbers.  Coordinates in WKT text are
represented by the vertex lists of the polygons.
-/

namespace Verif

/-- Models `/repo/meshiphi/mesh_generation/aggregated_cellbox.py` 69-80, the attributes of an
`AggregatedCellBox`. -/
structure AggCell where
  bounds : Boundary
  data : Dict String Val
  id : ℕ
  deriving DecidableEq

/-- What the mesh code reads from `config['mesh_info']` (`environment_mesh.py` 82-97, 168-169,
227-230, 276-277): the parsed region, the cell size, `splitting.split_depth` (if present) and the
list of merged configurations. -/
structure MeshConfig where
  region : Boundary
  cellWidth : ℚ
  cellHeight : ℚ
  splitDepth : Option ℕ
  merged : List MeshConfig := []

/-- Models `environment_mesh.py` 99-112, the attributes of an `EnvironmentMesh`.  `strNodes` /
`strDirs`: whether the node keys / direction keys of the neighbour graph are strings (a mesh loaded
from JSON) or ints (a mesh handed over by the mesh builder). -/
structure EnvMesh where
  bounds : Boundary
  cells : List AggCell
  graph : Graph
  strNodes : Bool
  strDirs : Bool
  config : MeshConfig

namespace AggCell

/-- The extreme coordinates of a rectangular ring: `(min x, max x, min y, max y)`.
See `/repo/meshiphi/mesh_generation/aggregated_cellbox.py` 156-170. -/
def ringBounds (ring : List (ℚ × ℚ)) : Py (ℚ × ℚ × ℚ × ℚ) := do
  let x0 ← Boundary.pyMin (ring.map Prod.fst)
  let x1 ← Boundary.pyMax (ring.map Prod.fst)
  let y0 ← Boundary.pyMin (ring.map Prod.snd)
  let y1 ← Boundary.pyMax (ring.map Prod.snd)
  return (x0, x1, y0, y1)

/-- `Polygon.contains(Point(x, y))` for a rectangular ring: strict interior.  See `/repo/meshiphi/mesh_generation/aggregated_cellbox.py` 156-170. -/
def ringContains (ring : List (ℚ × ℚ)) (x y : ℚ) : Bool :=
  match ringBounds ring with
  | .ok (x0, x1, y0, y1) => x0 < x && x < x1 && y0 < y && y < y1
  | .error _ => false

/-- `shape.contains(Point(x, y))` for a polygon or for a multipolygon of two disjoint rectangles.
See `/repo/meshiphi/mesh_generation/aggregated_cellbox.py` 156-170. -/
def polyContains : Boundary.Poly → ℚ → ℚ → Bool
  | .polygon ring, x, y => ringContains ring x y
  | .multi rings, x, y => rings.any (fun r => ringContains r x y)

/-- Models `aggregated_cellbox.py` 156-170, `contains_point(lat, long)`. -/
def containsPoint (c : AggCell) (lat long : ℚ) : Bool := polyContains c.bounds.toPolygon long lat

/-- Models `aggregated_cellbox.py` 172-185, `__eq__`.  (NaN values compare equal here; in Python
they do when they are the same object.) -/
def pyEq (a b : AggCell) : Bool := a.id = b.id && a.data = b.data && a.bounds.pyEq b.bounds

/-- A JSON value of a cell: WKT text (as vertex lists), a number or NaN, or another string.
See `/repo/meshiphi/mesh_generation/aggregated_cellbox.py` 17-64, 120-152. -/
inductive JVal where
  | wkt (p : Boundary.Poly)
  | val (v : Val)
  | cellId (n : ℕ)
  deriving DecidableEq

/-- The keys that `load_agg_data` skips (`aggregated_cellbox.py` 56). -/
def reserved : List String := ["geometry", "cx", "cy", "dcx", "dcy", "id"]

/-- Models `aggregated_cellbox.py` 120-152, `to_json`. -/
def toJson (c : AggCell) : Dict String JVal :=
  let j : Dict String JVal :=
    [("geometry", .wkt c.bounds.toPolygon), ("cx", .val (.num (some c.bounds.cx))),
     ("cy", .val (.num (some c.bounds.cy))), ("dcx", .val (.num (some c.bounds.dcx))),
     ("dcy", .val (.num (some c.bounds.dcy)))]
  let j := j.update (c.data.map (fun p => (p.1, JVal.val p.2)))
  j.set "id" (.cellId c.id)

/-- `cellbox_json['id']` as an id.  See `/repo/meshiphi/mesh_generation/aggregated_cellbox.py` 17-24, 60-64. -/
def jsonId : JVal → Py ℕ
  | .cellId n => .ok n
  | _ => .error .valueError

/-- `shapely.wkt.loads(cellbox_json["geometry"])` followed by `load_bounds`
(`aggregated_cellbox.py` 25-51); text that is not WKT raises. -/
def jsonBounds : JVal → Py Boundary
  | .wkt p => Boundary.loadBounds p
  | _ => .error .exception

/-- One value kept by `load_agg_data`.  See `/repo/meshiphi/mesh_generation/aggregated_cellbox.py` 53-59. -/
def jsonVal : JVal → Option Val
  | .val v => some v
  | _ => none

/-- Models `aggregated_cellbox.py` 53-59, `load_agg_data`. -/
def loadAggData (j : Dict String JVal) : Dict String Val :=
  (j.filter (fun p => p.1 ∉ reserved)).filterMap (fun p => (jsonVal p.2).map (fun v => (p.1, v)))

/-- Models `aggregated_cellbox.py` 17-64, `from_json`. -/
def fromJson (j : Dict String JVal) : Py AggCell := do
  let jid ← j.get "id"
  let id ← jsonId jid
  let jg ← j.get "geometry"
  let b ← jsonBounds jg
  return { bounds := b, data := loadAggData j, id := id }

end AggCell

/-- The result of `EnvironmentMesh.to_json` (`environment_mesh.py` 1092-1111): all dict keys are
strings after `json.loads(json.dumps(...))`; the graph's global flag is not part of it. -/
structure MeshJson where
  config : MeshConfig
  cellboxes : List (Dict String AggCell.JVal)
  neighbourGraph : Dict ℕ NMap

namespace EnvMesh

/-- Models `environment_mesh.py` 1092-1111, `to_json`, and 1423-1454, `cellboxes_to_json`. -/
def toJson (m : EnvMesh) : MeshJson :=
  { config := m.config, cellboxes := m.cells.map AggCell.toJson, neighbourGraph := m.graph.nodes }

/-- Models `/repo/meshiphi/mesh_generation/neighbour_graph.py` 43-55, `from_json`. -/
def graphFromJson (j : Dict ℕ NMap) : Graph :=
  { nodes := j.foldl (fun acc p => acc.set p.1 p.2) [], isGlobal := false }

/-- Models `environment_mesh.py` 33-97, `load_from_json` (`Boundary.from_json(config)` is the
region of the configuration). -/
def fromJson (j : MeshJson) : Py EnvMesh := do
  let cells ← j.cellboxes.mapM AggCell.fromJson
  return { bounds := j.config.region, cells := cells, graph := graphFromJson j.neighbourGraph,
           strNodes := true, strDirs := true, config := j.config }

/-- Models `environment_mesh.py` 114-127, `query_inside_mesh`; a point is (lat, long). -/
def queryInside (m : EnvMesh) (p : ℚ × ℚ) : Bool := m.cells.any (fun c => c.containsPoint p.1 p.2)

/-- Models `environment_mesh.py` 129-148, `query_index`. -/
def queryIndex (m : EnvMesh) (p : ℚ × ℚ) : Py ℕ :=
  match m.cells.filter (fun c => c.containsPoint p.1 p.2) with
  | [] => .error .exception
  | [c] => .ok c.id
  | _ => .error .exception

/-- Models `environment_mesh.py` 197-208, `get_cellbox`; `none` is `None`. -/
def getCellbox (cells : List AggCell) (id : ℕ) : Option AggCell := cells.find? (fun c => c.id = id)

/-- `self.get_cellbox(id).get_bounds()`; `None` has no such attribute.  See `/repo/meshiphi/mesh_generation/environment_mesh.py` 197-208, 800-973. -/
def boundsOf (cells : List AggCell) (id : ℕ) : Py Boundary :=
  match getCellbox cells id with
  | some c => .ok c.bounds
  | none => .error .attributeError

/-- Models `environment_mesh.py` 727-738, `get_max_cellbox_id`. -/
def maxId (cells : List AggCell) : ℕ := cells.foldl (fun acc c => if c.id > acc then c.id else acc) 0

/-- One line of `environment_mesh.py` 781-796: a quarter with the parent's data and a new id. -/
def splitCell (c : AggCell) (b : Boundary) (id : ℕ) : AggCell :=
  { bounds := b, data := c.data.set "id" (.str (toString id)), id := id }

/-- Models `environment_mesh.py` 766-798, `sim_split_cellbox`: SW, NW, SE, NE. -/
def simSplit (cells : List AggCell) (id : ℕ) : Py (List AggCell) :=
  match getCellbox cells id with
  | none => .error .attributeError
  | some c => do
    let mx := maxId cells
    let bs ← c.bounds.split
    match bs with
    | [b0, b1, b2, b3] =>
      return [splitCell c b0 (mx + 1), splitCell c b1 (mx + 2), splitCell c b2 (mx + 3), splitCell c b3 (mx + 4)]
    | _ => .error .indexError

/-- Models `environment_mesh.py` 975-1002, `fill_se_neighbour_map`. -/
def fillSe (bnd : ℕ → Py Boundary) (se : ℕ) (south east : List ℕ) (m : NMap) : Py NMap :=
  MeshBuilder.fillMap false bnd se south .south .southWest east .east .northEast m

/-- Models `environment_mesh.py` 1004-1031, `fill_ne_neighbour_map`. -/
def fillNe (bnd : ℕ → Py Boundary) (ne : ℕ) (north east : List ℕ) (m : NMap) : Py NMap :=
  MeshBuilder.fillMap false bnd ne north .north .northWest east .east .southEast m

/-- Models `environment_mesh.py` 1033-1060, `fill_sw_neighbour_map`. -/
def fillSw (bnd : ℕ → Py Boundary) (sw : ℕ) (south west : List ℕ) (m : NMap) : Py NMap :=
  MeshBuilder.fillMap false bnd sw south .southEast .south west .west .northWest m

/-- Models `environment_mesh.py` 1062-1089, `fill_nw_neighbour_map`. -/
def fillNw (bnd : ℕ → Py Boundary) (nw : ℕ) (north west : List ℕ) (m : NMap) : Py NMap :=
  MeshBuilder.fillMap false bnd nw north .north .northEast west .west .southWest m

/-- One `if len(...) > 0` of `environment_mesh.py` 895-902: the first cell of `l` gets `[n]` as its
list in direction `d`. -/
def cornerUpdate (g : Graph) (l : List ℕ) (d : Dir) (n : ℕ) : Py Graph :=
  match l with
  | [] => .ok g
  | i :: _ => g.updateNeighbour i d [n]

/-- One `crossing_case` of `environment_mesh.py` 917-923 and so on. -/
def sideCase (bnd : ℕ → Py Boundary) (g : Graph) (idx n : ℕ) : Py Graph := do
  let c ← Graph.caseAt false bnd idx n
  match c with
  | some e => g.addNeighbour idx e n
  | none => return g

/-- One block of `environment_mesh.py` 911-967: drop `k` from the lists of its neighbours in
direction `d`, then add the new cells `n0`, `n1` to the lists of the cells in `l`. -/
def sideUpdate (bnd : ℕ → Py Boundary) (g : Graph) (k : ℕ) (d : Dir) (l : List ℕ) (n0 n1 : ℕ) : Py Graph := do
  let g ← g.removeNodeFromNeighbours k d
  l.foldlM (fun g idx => do
    let g ← sideCase bnd g idx n0
    sideCase bnd g idx n1) g

/-- The graph part of `environment_mesh.py` 819-973. -/
def splitGraph (bnd : ℕ → Py Boundary) (g : Graph) (k nw ne sw se : ℕ) : Py Graph := do
  let south ← g.getNeighbours k .south
  let north ← g.getNeighbours k .north
  let east ← g.getNeighbours k .east
  let west ← g.getNeighbours k .west
  let c0 ← g.getNeighbours k .southWest
  let swMap ← fillSw bnd sw south west (MeshBuilder.mapOf [ne] [se] [] [] c0 [] [] [nw])
  let g := g.addNode sw swMap
  let c1 ← g.getNeighbours k .northWest
  let nwMap ← fillNw bnd nw north west (MeshBuilder.mapOf [] [ne] [se] [sw] [] [] c1 [])
  let g := g.addNode nw nwMap
  let c2 ← g.getNeighbours k .northEast
  let neMap ← fillNe bnd ne north east (MeshBuilder.mapOf c2 [] [] [se] [sw] [nw] [] [])
  let g := g.addNode ne neMap
  let c3 ← g.getNeighbours k .southEast
  let seMap ← fillSe bnd se south east (MeshBuilder.mapOf [] [] c3 [] [] [sw] [nw] [ne])
  let g := g.addNode se seMap
  let neCorner ← g.getNeighbours k .northEast
  let seCorner ← g.getNeighbours k .southEast
  let nwCorner ← g.getNeighbours k .northWest
  let swCorner ← g.getNeighbours k .southWest
  let g ← cornerUpdate g neCorner .southWest ne
  let g ← cornerUpdate g seCorner .northWest se
  let g ← cornerUpdate g nwCorner .southEast nw
  let g ← cornerUpdate g swCorner .northEast sw
  let g ← sideUpdate bnd g k .north north ne nw
  let g ← sideUpdate bnd g k .south south se sw
  let g ← sideUpdate bnd g k .east east ne se
  let g ← sideUpdate bnd g k .west west nw sw
  g.removeNode k

/-- `self.agg_cellboxes.remove(cellbox)`.  See `/repo/meshiphi/mesh_generation/environment_mesh.py` 747, 972. -/
def removeFromList (cells : List AggCell) (c : AggCell) : List AggCell := cells.eraseP (fun x => x.pyEq c)

/-- Models `environment_mesh.py` 800-973, `split_and_replace(cellbox_id)` for a string id: with int
keys the first `get_neighbours` raises `KeyError`. -/
def splitAndReplace (m : EnvMesh) (k : ℕ) : Py EnvMesh := do
  let new ← simSplit m.cells k
  if m.strNodes = false ∨ m.strDirs = false then .error .keyError
  else do
    let cells := m.cells ++ new
    let mx := maxId m.cells
    let g ← splitGraph (boundsOf cells) m.graph k (mx + 2) (mx + 4) (mx + 1) (mx + 3)
    match getCellbox cells k with
    | none => .error .valueError
    | some c => return { m with cells := removeFromList cells c, graph := g }

/-- Models `environment_mesh.py` 152-180, `_split_loc`: the new mesh, and whether it was split. -/
def splitLoc (m : EnvMesh) (p : ℚ × ℚ) : Py (EnvMesh × Bool) := do
  let id ← m.queryIndex p
  match getCellbox m.cells id, m.config.splitDepth with
  | some c, some depth =>
    let minDcx := m.config.cellWidth / 2 ^ depth
    let minDcy := m.config.cellHeight / 2 ^ depth
    if c.bounds.width ≤ minDcx ∨ c.bounds.height ≤ minDcy then return (m, false)
    else do
      let m ← m.splitAndReplace c.id
      return (m, true)
  | _, none => .error .keyError
  | none, _ => .error .attributeError

/-- The `while` loop of `environment_mesh.py` 194-195, fuelled. -/
def splitLoop : ℕ → EnvMesh → ℚ × ℚ → Py EnvMesh
  | 0, _, _ => .error .outOfFuel
  | fuel + 1, m, p => do
    let (m, again) ← m.splitLoc p
    if again then splitLoop fuel m p else return m

/-- Models `environment_mesh.py` 183-195, `split_points`. -/
def splitPoints (fuel : ℕ) (m : EnvMesh) (pts : List (ℚ × ℚ)) : Py EnvMesh :=
  pts.foldlM (fun m p => if m.queryInside p then splitLoop fuel m p else .ok m) m

/-- Models `neighbour_graph.py` 57-75, `increment_ids`. -/
def incrementGraph (g : Graph) (inc : ℕ) : Graph :=
  { g with nodes := g.nodes.foldl (fun acc p => acc.set (p.1 + inc) (fun d => (p.2 d).map (· + inc))) [] }

/-- The loop body of `environment_mesh.py` 759-761: the second statement reads the id that the first
one has just increased. -/
def incrementCell (inc : ℕ) (c : AggCell) : AggCell :=
  { c with id := c.id + inc, data := c.data.set "id" (.str (toString (c.id + inc + inc))) }

/-- Models `environment_mesh.py` 757-763, `increment_ids` (a natural number as increment; the only
caller passes one). -/
def incrementIds (m : EnvMesh) (inc : ℕ) : EnvMesh :=
  { m with cells := m.cells.map (incrementCell inc), graph := incrementGraph m.graph inc, strNodes := true }

/-- Models `environment_mesh.py` 740-749, `remove_cellbox`, on a string-keyed graph. -/
def removeCellbox (m : EnvMesh) (c : AggCell) : Py EnvMesh := do
  let g ← m.graph.removeNodeAndUpdateNeighbours c.id
  return { m with cells := removeFromList m.cells c, graph := g }

/-- The test of `environment_mesh.py` 589-592. -/
def isWithin (b : Boundary) (c : AggCell) : Bool :=
  b.longMin ≤ c.bounds.longMin && c.bounds.longMax ≤ b.longMax && b.latMin ≤ c.bounds.latMin && c.bounds.latMax ≤ b.latMax

/-- Models `environment_mesh.py` 574-596, `get_cellboxes_within_bounds`. -/
def within (m : EnvMesh) (b : Boundary) : List AggCell := m.cells.filter (isWithin b)

/-- Models `environment_mesh.py` 715-725, `remove_cellboxes_within_bounds`. -/
def removeWithin (m : EnvMesh) (b : Boundary) : Py EnvMesh := (m.within b).foldlM removeCellbox m

/-- Models `environment_mesh.py` 599-620, `get_cellboxes_north_of_bounds`. -/
def northOf (m : EnvMesh) (b : Boundary) : List AggCell := m.cells.filter (fun c =>
  c.bounds.latMin = b.latMax && b.longMin ≤ c.bounds.longMax && c.bounds.longMin ≤ b.longMax)

/-- Models `environment_mesh.py` 622-633, `get_cellboxes_south_of_bounds`. -/
def southOf (m : EnvMesh) (b : Boundary) : List AggCell := m.cells.filter (fun c =>
  c.bounds.latMax = b.latMin && b.longMin ≤ c.bounds.longMax && c.bounds.longMin ≤ b.longMax)

/-- Models `environment_mesh.py` 635-646, `get_cellboxes_east_of_bounds`. -/
def eastOf (m : EnvMesh) (b : Boundary) : List AggCell := m.cells.filter (fun c =>
  c.bounds.longMin = b.longMax && b.latMin ≤ c.bounds.latMin && c.bounds.latMax ≤ b.latMax)

/-- Models `environment_mesh.py` 648-659, `get_cellboxes_west_of_bounds`. -/
def westOf (m : EnvMesh) (b : Boundary) : List AggCell := m.cells.filter (fun c =>
  c.bounds.longMax = b.longMin && b.latMin ≤ c.bounds.latMin && c.bounds.latMax ≤ b.latMax)

/-- Models `environment_mesh.py` 662-673, `get_top_edge_cellboxes`. -/
def topEdge (m : EnvMesh) : List AggCell := m.cells.filter (fun c => c.bounds.latMax = m.bounds.latMax)
/-- Models `environment_mesh.py` 675-686, `get_bottom_edge_cellboxes`. -/
def bottomEdge (m : EnvMesh) : List AggCell := m.cells.filter (fun c => c.bounds.latMin = m.bounds.latMin)
/-- Models `environment_mesh.py` 688-699, `get_right_edge_cellboxes`. -/
def rightEdge (m : EnvMesh) : List AggCell := m.cells.filter (fun c => c.bounds.longMax = m.bounds.longMax)
/-- Models `environment_mesh.py` 701-712, `get_left_edge_cellboxes`. -/
def leftEdge (m : EnvMesh) : List AggCell := m.cells.filter (fun c => c.bounds.longMin = m.bounds.longMin)

/-- The ids of the cells of `l` that lie in direction `d` of `c`.
See `/repo/meshiphi/mesh_generation/environment_mesh.py` 312-337 and the same loops up to 571. -/
def casesIn (c : AggCell) (l : List AggCell) (d : Dir) : List ℕ :=
  (l.filter (fun x => Graph.neighbourCaseBounds c.bounds x.bounds = some d)).map (·.id)

/-- The body of the outer loops of the four `tie_*` methods (for instance `environment_mesh.py`
312-337): the ids of the cells of `l` in the three directions `ds` are appended to the lists of
`c`. -/
def tieCell (l : List AggCell) (ds : List Dir) (g : Graph) (c : AggCell) : Py Graph :=
  ds.foldlM (fun g d => (casesIn c l d).foldlM (fun g n => g.addNeighbour c.id d n) g) g

/-- Models the two loops of a `tie_*` method: `as` are tied to `bs` in the directions `ds`, then
`bs` to `as` in the directions `es`.  See `/repo/meshiphi/mesh_generation/environment_mesh.py` 301-571. -/
def tie (g : Graph) (as bs : List AggCell) (ds es : List Dir) : Py Graph := do
  let g ← as.foldlM (tieCell bs ds) g
  bs.foldlM (tieCell as es) g

/-- Models `environment_mesh.py` 301-367, `tie_northern_cellbox_ng`. -/
def tieNorthern (g : Graph) (ext int : List AggCell) : Py Graph :=
  tie g ext int [.south, .southWest, .southEast] [.north, .northWest, .northEast]
/-- Models `environment_mesh.py` 369-435, `tie_southern_cellbox_ng`. -/
def tieSouthern (g : Graph) (ext int : List AggCell) : Py Graph :=
  tie g ext int [.north, .northWest, .northEast] [.south, .southWest, .southEast]
/-- Models `environment_mesh.py` 437-503, `tie_eastern_cellbox_ng`. -/
def tieEastern (g : Graph) (ext int : List AggCell) : Py Graph :=
  tie g ext int [.west, .southWest, .northWest] [.east, .southEast, .northEast]
/-- Models `environment_mesh.py` 505-571, `tie_western_cellbox_ng`. -/
def tieWestern (g : Graph) (ext int : List AggCell) : Py Graph :=
  tie g ext int [.east, .southEast, .northEast] [.west, .southWest, .northWest]

/-- Models `environment_mesh.py` 262-298, `validate_merge_compatibility`. -/
def compatible (m m2 : EnvMesh) : Py Bool :=
  let w := m.config.cellWidth
  let h := m.config.cellHeight
  if h = 0 then .error .zeroDivision
  else if pyMod m2.bounds.height h ≠ 0 then .ok false
  else if w = 0 then .error .zeroDivision
  else if pyMod m2.bounds.width w ≠ 0 then .ok false
  else if pyMod (m.bounds.latMin - m2.bounds.latMin) h ≠ 0 then .ok false
  else if pyMod (m.bounds.longMin - m2.bounds.longMin) w ≠ 0 then .ok false
  else .ok true

/-- The aliasing of `environment_mesh.py` 242-245 with `neighbour_graph.py` 120-127: `add_node` stores
the neighbour map objects of the second mesh in the graph of the first, so that what is later appended
to the maps of these nodes in `g` also appears in `g2`. -/
def shareMaps (g g2 : Graph) : Graph :=
  { g2 with nodes := g2.nodes.map (fun p => (p.1, (g.nodes.get? p.1).getD p.2)) }

/-- Models `environment_mesh.py` 211-260, `merge_mesh`: the merged mesh and the second mesh after
the call (renumbered, and with neighbour maps shared with the merged graph).  Restricted to meshes
with string keys (loaded from JSON); for others the code raises `KeyError` as soon as a cell is
removed or tied, and mixes key types otherwise, which is not modelled. -/
def mergeMesh (m m2 : EnvMesh) : Py (EnvMesh × EnvMesh) := do
  let ok ← compatible m m2
  if ok = false then .error .assertionError
  else if (m.strNodes && m.strDirs && m2.strNodes && m2.strDirs) = false then .error .keyError
  else do
    let b := m2.bounds
    let m := { m with config := { m.config with merged := m.config.merged ++ [m2.config] } }
    let m ← m.removeWithin b
    let m2 := m2.incrementIds (maxId m.cells + 1)
    let m := { m with cells := m.cells ++ m2.cells }
    let g := m2.graph.nodes.foldl (fun (g : Graph) p => g.addNode p.1 p.2) m.graph
    let g ← tieNorthern g (m.northOf b) m2.topEdge
    let g ← tieSouthern g (m.southOf b) m2.bottomEdge
    let g ← tieEastern g (m.eastOf b) m2.rightEdge
    let g ← tieWestern g (m.westOf b) m2.leftEdge
    return ({ m with graph := g }, { m2 with graph := shareMaps g m2.graph })

/-- Models `cli.py` 180-187, the loop of `merge_mesh_cli` over the meshes of a directory. -/
def mergeAll (m : EnvMesh) (ms : List EnvMesh) : Py EnvMesh :=
  ms.foldlM (fun m m2 => (mergeMesh m m2).map Prod.fst) m

/-- Models `environment_mesh.py` 1456-1467, `update_cellbox`.  The guard `index > -1 or index < len`
is true for every index, so a wrong index reaches the list access: negative indices count from the
end, others raise `IndexError`. -/
def updateCellbox (m : EnvMesh) (index : ℤ) (values : Dict String Val) : Py EnvMesh :=
  if index > -1 ∨ index < m.cells.length then
    let i := if index < 0 then index + m.cells.length else index
    if i < 0 then .error .indexError
    else match m.cells[i.toNat]? with
      | none => .error .indexError
      | some c => .ok { m with cells := m.cells.set i.toNat { c with data := c.data.update values } }
  else .error .valueError

end EnvMesh

namespace MeshBuilder
variable {S C : Type}

/-- Models `mesh_builder.py` 613-625: the live cells are aggregated in order; the graph keeps its int
keys. -/
def toEnvMesh (aggregate : CellBox D → Py (Dict String Val)) (config : MeshConfig) (m : MeshState D) : Py EnvMesh := do
  let cells ← (m.cells.filterMap id).mapM (fun c => do
    let data ← aggregate c
    return ({ bounds := c.bounds, data := data, id := c.id } : AggCell))
  return { bounds := m.bounds, cells := cells, graph := m.graph, strNodes := false, strDirs := false, config := config }

/-- Models `mesh_builder.py` 604-626, `build_environmental_mesh`. -/
def buildEnvironmentalMesh (ops : DataOps D) (aggregate : CellBox D → Py (Dict String Val)) (fuel : ℕ)
    (config : MeshConfig) (m : MeshState D) : Py EnvMesh := do
  let m ← splitToDepth ops fuel m.maxDepth m
  toEnvMesh aggregate config m

end MeshBuilder
end Verif
