import Verif.Model.NeighbourGraph

/-!
# Model of `meshiphi/mesh_generation/cellbox.py` (geometry and splitting)

The list of `Metadata` objects of a cell (data loaders, splitting conditions, fill types and data
subsets) is an abstract type `D` with operations `DataOps D`.  `Verif/Model/Data.lean` gives the
concrete instance.
-/

namespace Verif

/-- What the mesh code does with the data sources of a cell.
* `trim b d`: `trim_datapoints(bounds, data=subset)` of every source (`cellbox.py` 250-259),
  assumed not to raise;
* `nConds d`: the number of splitting conditions of each source, in source order;
* `shouldSplit stop b d`: `cellbox.py` 153-194 on a cell with bounds `b` and data `d`. -/
structure DataOps (D : Type) where
  trim : Boundary → D → D
  nConds : D → List ℕ
  shouldSplit : ℕ → Boundary → D → Py Bool

/-- Models `/repo/meshiphi/mesh_generation/cellbox.py` 36-72, the attributes of a `CellBox`.
`id` is the integer in the string `id`.  `parent` is kept as the list `anc` of (bounds, data) of
all ancestors, nearest first: the only things later read from a parent. -/
structure CellBox (D : Type) where
  bounds : Boundary
  id : ℕ
  depth : ℕ := 0
  data : D
  anc : List (Boundary × D) := []

namespace CellBox
variable {D : Type}

/-- Models `cellbox.py` 265-304, `create_splitted_cell_boxes`: boundaries and ids in the order
NW, NE, SW, SE. -/
def createSplitted (b : Boundary) (index : ℕ) : Py (List (Boundary × ℕ)) := do
  let halfWidth := b.width / 2
  let halfHeight := b.height / 2
  let lat := b.latMin
  let long := b.longMin
  let nw ← Boundary.mk? [lat + halfHeight, lat + b.height]
    [long, longitudeDomain (long + halfWidth)] b.time
  let ne ← Boundary.mk? [lat + halfHeight, lat + b.height]
    [longitudeDomain (long + halfWidth), longitudeDomain (long + b.width)] b.time
  let sw ← Boundary.mk? [lat, lat + halfHeight]
    [long, longitudeDomain (long + halfWidth)] b.time
  let se ← Boundary.mk? [lat, lat + halfHeight]
    [longitudeDomain (long + halfWidth), longitudeDomain (long + b.width)] b.time
  return [(nw, index), (ne, index + 1), (sw, index + 2), (se, index + 3)]

/-- Models `cellbox.py` 234-263, `split`: depth, data sources (trimmed from the parent's subsets)
and parent of the four new cells. -/
def split (ops : DataOps D) (c : CellBox D) (startId : ℕ) : Py (List (CellBox D)) := do
  let boxes ← createSplitted c.bounds startId
  return boxes.map (fun p =>
    { bounds := p.1, id := p.2, depth := c.depth + 1, data := ops.trim p.1 c.data,
      anc := (c.bounds, c.data) :: c.anc })

end CellBox
end Verif
