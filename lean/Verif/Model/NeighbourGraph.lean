import Verif.Model.Boundary

/-!
# Model of `meshiphi/mesh_generation/direction.py` and `neighbour_graph.py`
-/

namespace Verif

/-- Models `/repo/meshiphi/mesh_generation/direction.py` 1-9. -/
inductive Dir where
  | northEast | east | southEast | south | southWest | west | northWest | north
  deriving DecidableEq, Repr

namespace Dir

/-- Models the integer codes of `direction.py` 2-9. -/
def code : Dir → ℤ
  | northEast => 1 | east => 2 | southEast => 3 | south => 4
  | southWest => -1 | west => -2 | northWest => -3 | north => -4

/-- The direction whose code is `-1*direction` (`neighbour_graph.py` 182). -/
def opp : Dir → Dir
  | northEast => southWest | east => west | southEast => northWest | south => north
  | southWest => northEast | west => east | northWest => southEast | north => south

/-- The values of `Direction().__dict__` in order (`direction.py` 11-19). -/
def all : List Dir := [northEast, east, southEast, south, southWest, west, northWest, north]

theorem code_opp (d : Dir) : d.opp.code = -1 * d.code := by cases d <;> rfl
theorem code_injective : Function.Injective code := by
  intro a b h; cases a <;> cases b <;> simp_all [code]
@[simp] theorem opp_opp (d : Dir) : d.opp.opp = d := by cases d <;> rfl
theorem mem_all (d : Dir) : d ∈ all := by cases d <;> decide

end Dir

/-- The neighbour map of one cell: a dict with the eight direction keys, all of which are always
present (`neighbour_graph.py` 432-439), hence a total function. -/
abbrev NMap := Dir → List ℕ

/-- `m[d] = l` (`/repo/meshiphi/mesh_generation/neighbour_graph.py` 152-184, 432-475). -/
def NMap.set (m : NMap) (d : Dir) (l : List ℕ) : NMap := fun e => if e = d then l else m e

/-- `m[d].append(x)` (`/repo/meshiphi/mesh_generation/neighbour_graph.py` 156, 163, 443-471). -/
def NMap.append (m : NMap) (d : Dir) (x : ℕ) : NMap := m.set d (m d ++ [x])

@[simp] theorem NMap.set_apply (m : NMap) (d e : Dir) (l : List ℕ) :
    m.set d l e = if e = d then l else m e := rfl

theorem NMap.append_apply (m : NMap) (d e : Dir) (x : ℕ) :
    m.append d x e = if e = d then m d ++ [x] else m e := rfl

/-- Models the attributes of `neighbour_graph.py` 6-41: the dict of neighbour maps (integer
cell ids) and the flag `_is_global_mesh`. -/
structure Graph where
  nodes : Dict ℕ NMap
  isGlobal : Bool

namespace Graph

/-- Models `neighbour_graph.py` 114-118, `get_neighbours`. -/
def getNeighbours (g : Graph) (i : ℕ) (d : Dir) : Py (List ℕ) := do
  let m ← g.nodes.get i
  return m d

/-- Models `neighbour_graph.py` 84-88, `update_neighbour`. -/
def updateNeighbour (g : Graph) (i : ℕ) (d : Dir) (l : List ℕ) : Py Graph := do
  let ns ← g.nodes.modifyM i (fun m => .ok (m.set d l))
  return { g with nodes := ns }

/-- Models `neighbour_graph.py` 90-99, `add_neighbour`. -/
def addNeighbour (g : Graph) (i : ℕ) (d : Dir) (x : ℕ) : Py Graph := do
  let ns ← g.nodes.modifyM i (fun m => .ok (m.append d x))
  return { g with nodes := ns }

/-- Models `neighbour_graph.py` 120-127, `add_node`. -/
def addNode (g : Graph) (i : ℕ) (m : NMap) : Graph := { g with nodes := g.nodes.set i m }

/-- Models `neighbour_graph.py` 129-135, `remove_node`. -/
def removeNode (g : Graph) (i : ℕ) : Py Graph := do
  let ns ← g.nodes.pop i
  return { g with nodes := ns }

/-- Models `neighbour_graph.py` 411-415, `remove_neighbour`. -/
def removeNeighbour (g : Graph) (i : ℕ) (d : Dir) (x : ℕ) : Py Graph := do
  let ns ← g.nodes.modifyM i (fun m => do let l ← pyRemove (m d) x; return m.set d l)
  return { g with nodes := ns }

/-- Models `neighbour_graph.py` 166-184, `remove_node_from_neighbours`.  The int-key / string-key
fallback is irrelevant here because the graph has one uniform key type (see
`Verif/Model/EnvMesh.lean` for the key type flag).  The list iterated over is the one of
`i` itself; it is not modified by the loop unless `i` is its own neighbour. -/
def removeNodeFromNeighbours (g : Graph) (i : ℕ) (d : Dir) : Py Graph := do
  let l ← g.getNeighbours i d
  l.foldlM (fun g idx => g.removeNeighbour idx d.opp i) g

/-- Models `neighbour_graph.py` 101-112, `remove_node_and_update_neighbours`. -/
def removeNodeAndUpdateNeighbours (g : Graph) (i : ℕ) : Py Graph := do
  let g ← Dir.all.foldlM (fun g d => g.removeNodeFromNeighbours i d) g
  g.removeNode i

/-- Models `neighbour_graph.py` 206-270, `get_neighbour_case_bounds`; `none` is case `0`. -/
def neighbourCaseBounds (a b : Boundary) : Option Dir :=
  let longA := a.longMin
  let latA := a.latMin
  let longB := b.longMin
  let latB := b.latMin
  if longA + a.width = longB ∧ latA + a.height = latB then some .northEast
  else if longA + a.width = longB ∧ latB < latA + a.height ∧ latB + b.height > latA then some .east
  else if longA + a.width = longB ∧ latA = latB + b.height then some .southEast
  else if latB + b.height = latA ∧ longB + b.width > longA ∧ longB < longA + a.width then some .south
  else if longA = longB + b.width ∧ latA = latB + b.height then some .southWest
  else if longB + b.width = longA ∧ latB < latA + a.height ∧ latB + b.height > latA then some .west
  else if longA = longB + b.width ∧ latA + a.height = latB then some .northWest
  else if latB = latA + a.height ∧ longB + b.width > longA ∧ longB < longA + a.width then some .north
  else none

/-- Models `neighbour_graph.py` 354-409, `get_global_mesh_neighbour_case`. -/
def globalNeighbourCase (a b : Boundary) : Option Dir :=
  let longA := a.longMin
  let latA := a.latMin
  let longB := b.longMin
  let latB := b.latMin
  if longA + a.width = |longB| ∧ latA + a.height = latB then some .northEast
  else if longA + a.width = |longB| ∧ latB < latA + a.height ∧ latB + b.height > latA then some .east
  else if longA + a.width = |longB| ∧ latA = latB + b.height then some .southEast
  else if latB + b.height = latA ∧ longB + b.width > longA ∧ longB < longA + a.width then some .south
  else if |longA| = longB + b.width ∧ latA = latB + b.height then some .southWest
  else if longB + b.width = |longA| ∧ latB < latA + a.height ∧ latB + b.height > latA then some .west
  else if |longA| = longB + b.width ∧ latA + a.height = latB then some .northWest
  else if latB = latA + a.height ∧ longB + b.width > longA ∧ longB < longA + a.width then some .north
  else none

/-- Models `neighbour_graph.py` 301-313, the nested `on_global_bound`. -/
def onGlobalBound (a b : Boundary) : Prop :=
  (a.longMin = -180 ∧ b.longMax = 180) ∨ (b.longMin = -180 ∧ a.longMax = 180)

/-- Used for `/repo/meshiphi/mesh_generation/neighbour_graph.py` 301-313. -/
instance (a b : Boundary) : Decidable (onGlobalBound a b) := by
  unfold onGlobalBound; infer_instance

/-- Models `neighbour_graph.py` 272-352, `get_neighbour_case`: lines 317-352 are line by line the
tests of `get_neighbour_case_bounds` on the two cells' bounds. -/
def neighbourCase (isGlobal : Bool) (a b : Boundary) : Option Dir :=
  if isGlobal = true ∧ onGlobalBound a b then globalNeighbourCase a b
  else neighbourCaseBounds a b

/-- Models `neighbour_graph.py` 428-473, `initialise_map`.  `gridWidth` is a float in the code
(`np.divide`), a rational here; `% 0` raises in the model's caller only when there are cells. -/
def initialiseMap (i : ℕ) (gridWidth : ℚ) (n : ℕ) : NMap :=
  let m : NMap := fun _ => []
  let m := if pyMod ((i : ℚ) + 1) gridWidth ≠ 0 then
      let m := m.append .east (i + 1)
      let m := if (i : ℚ) + gridWidth < n then m.append .northEast (pyInt ((i + gridWidth) + 1)).toNat else m
      if (i : ℚ) - gridWidth ≥ 0 then m.append .southEast (pyInt ((i - gridWidth) + 1)).toNat else m
    else m
  let m := if pyMod (i : ℚ) gridWidth ≠ 0 then
      let m := m.append .west (i - 1)
      let m := if (i : ℚ) + gridWidth < n then m.append .northWest (pyInt ((i + gridWidth) - 1)).toNat else m
      if (i : ℚ) - gridWidth ≥ 0 then m.append .southWest (pyInt ((i - gridWidth) - 1)).toNat else m
    else m
  let m := if (i : ℚ) + gridWidth < n then m.append .north (pyInt (i + gridWidth)).toNat else m
  if (i : ℚ) - gridWidth ≥ 0 then m.append .south (pyInt (i - gridWidth)).toNat else m

/-- Models `neighbour_graph.py` 35-41 and 417-426, `__init__` / `initialise_neighbour_graph`
(`cellboxes.index(cellbox)` compares by identity, so it is the position). -/
def initialise (n : ℕ) (gridWidth : ℚ) : Graph :=
  { nodes := (List.range n).foldl (fun d i => d.set i (initialiseMap i gridWidth n)) [], isGlobal := false }

end Graph
end Verif
