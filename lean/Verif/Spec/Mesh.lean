import Verif.Model.MeshBuilder
import Verif.Spec.Geometry
import Verif.Spec.Circle

/-!
# Specification: what a mesh of cells should look like

Stated on the observable parts of a mesh: its list of cells (with `None` at replaced positions) and
its neighbour graph.
-/

namespace Verif.Spec
open Verif

variable {D : Type}

/-- Position `i` of the cell list holds the cell `c`. -/
def Live (m : MeshState D) (i : ℕ) (c : CellBox D) : Prop := m.cells[i]? = some (some c)

/-- The live cells tile the region `b`: every point of `b` is in exactly one live half-open cell and
no live cell has a point outside of `b`. -/
def MeshTiles (m : MeshState D) (b : Boundary) : Prop :=
  (∀ x y, HCovers b x y → ∃! i, ∃ c, Live m i c ∧ HCovers c.bounds x y) ∧
  (∀ i c x y, Live m i c → HCovers c.bounds x y → HCovers b x y)

/-- Area (in square degrees) of an entry of the cell list. -/
def cellArea : Option (CellBox D) → ℚ
  | some c => c.bounds.width * c.bounds.height
  | none => 0

/-- Total area of the live cells. -/
def totalArea (m : MeshState D) : ℚ := (m.cells.map cellArea).sum

/-- The rectangle of the live cell at position `i`. -/
def liveRect (m : MeshState D) (i : ℕ) : Option Rect :=
  match m.cells[i]? with
  | some (some c) => some (rectOf c.bounds)
  | _ => none

/-- The neighbour lists of the node with key `i`. -/
def nbrs (m : MeshState D) (i : ℕ) : Option NMap := m.graph.nodes.get? i

/-- The neighbour graph of the mesh is exactly geometric adjacency of its live cells. -/
def GraphExact (isGlobal : Bool) (m : MeshState D) : Prop := Exact isGlobal (liveRect m) (nbrs m)

/-- States reachable by any finite sequence of splits, from a start state. -/
inductive Splits (ops : DataOps D) : MeshState D → MeshState D → Prop
  | refl (m : MeshState D) : Splits ops m m
  | step {m m' m'' : MeshState D} (k : ℕ) : Splits ops m m' → MeshBuilder.splitAndReplace ops m' k = .ok m'' → Splits ops m m''

/-- A mesh reached from a freshly built one by any finite sequence of splits. -/
def Reach (ops : DataOps D) (b : Boundary) (W H : ℚ) (initData : Boundary → D) (depth : ℕ) (m : MeshState D) : Prop :=
  ∃ m0, MeshBuilder.init b W H initData depth = .ok m0 ∧ Splits ops m0 m

end Verif.Spec
