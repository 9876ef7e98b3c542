import Verif.Model.EnvMesh
import Verif.Spec.Geometry
import Verif.Spec.Circle

/-!
# Specification: what an aggregated mesh should look like
-/

namespace Verif.Spec
open Verif

/-- The rectangle of the cell with id `i`. -/
def envRect (m : EnvMesh) (i : ℕ) : Option Rect := (m.cells.find? (fun c => c.id = i)).map (fun c => rectOf c.bounds)

/-- A consistent regional mesh: ids are unique, bounds are as documented, and the neighbour graph is
exactly geometric adjacency on the plane (so cells have positive size, do not overlap and do not
cross the antimeridian). -/
structure EnvOK (m : EnvMesh) : Prop where
  ids : (m.cells.map (·.id)).Nodup
  valid : ∀ c ∈ m.cells, Valid c.bounds
  graph : Exact false (envRect m) (fun i => m.graph.nodes.get? i)

/-- The graph of the mesh has string keys, as after loading from JSON. -/
def Loaded (m : EnvMesh) : Prop := m.strNodes = true ∧ m.strDirs = true

/-- The cells of the mesh tile the region `b`. -/
def EnvTiles (m : EnvMesh) (b : Boundary) : Prop := Tiles (m.cells.map (·.bounds)) b

/-- The data of `x` is that of `c`, apart from the entry `id`. -/
def SameData (x c : AggCell) : Prop := ∀ key, key ≠ "id" → x.data.get? key = c.data.get? key

/-- Meshes reachable by any finite sequence of splits of an aggregated mesh. -/
inductive EnvSplits : EnvMesh → EnvMesh → Prop
  | refl (m : EnvMesh) : EnvSplits m m
  | step {m m' m'' : EnvMesh} (k : ℕ) : EnvSplits m m' → m'.splitAndReplace k = .ok m'' → EnvSplits m m''

end Verif.Spec
