import Verif.Model.Validation
import Verif.Model.Vector
import Mathlib.Analysis.SpecialFunctions.Pow.Real

/-!
# Model of the error statistics of `meshiphi/mesh_validation` and of the getters of `Mesh`

* `full_mesh_validator.py` 34-118, `validate_vector` and `validate_scalar`;
* `mesh_validator.py` 46-94 and 113-147, `validate_mesh` with the values from the data and from the mesh;
* `/repo/meshiphi/mesh_generation/mesh.py` 59-76, 92-144, `add_data_points`, `get_cellboxes`, `get_cellbox`.

Square roots are over the real numbers.
-/

namespace Verif.ErrorStats

/-- A datapoint of the source data: latitude, longitude and value.  See `/repo/meshiphi/mesh_validation/full_mesh_validator.py` 120-133. -/
abbrev Pt (V : Type) := ℚ × ℚ × V

/-- Models `/repo/meshiphi/mesh_validation/full_mesh_validator.py` 120-133, `slice_data`, with the values. -/
def slice {V : Type} (b : Boundary) (pts : List (Pt V)) : List (Pt V) :=
  (pts.filter (fun p => b.latMin ≤ p.1 && p.1 ≤ b.latMax)).filter (fun p => b.longMin ≤ p.2.1 && p.2.1 ≤ b.longMax)

/-- A number stored in a cell; subtracting text from a column of numbers raises `TypeError`
(`full_mesh_validator.py` 59-60, 100). -/
def numVal : Val → Py (Option ℚ)
  | .num x => .ok x
  | .str _ => .error .typeError

/-- Models `full_mesh_validator.py` 94-103: the absolute differences in one cell (`none` for NaN). -/
def cellDiffs (name : String) (pts : List (Pt (Option ℚ))) (c : AggCell) : Py (List (Option ℚ)) := do
  let s := slice c.bounds pts
  let v ← c.data.get name
  if s = [] then return []
  else
    let a ← numVal v
    return s.map (fun p => match p.2.2, a with
      | some x, some a => some |x - a|
      | _, _ => none)

/-- The mean of the squares (`full_mesh_validator.py` 109). -/
def meanSquare (l : List ℚ) : Option ℚ := listMean (l.map (fun x => x ^ 2))

/-- The results of a validation.  See `/repo/meshiphi/mesh_validation/full_mesh_validator.py` 73-79, 111-117. -/
structure Stats where
  cells : ℕ
  mean : Option ℝ
  rms : Option ℝ

/-- Models `full_mesh_validator.py` 81-117, `validate_scalar`: without cells the frame has no column `d_scalar`. -/
noncomputable def validateScalar (name : String) (cells : List AggCell) (pts : List (Pt (Option ℚ))) : Py Stats := do
  let l ← cells.mapM (cellDiffs name pts)
  if cells = [] then .error .keyError
  else
    let d := present l.flatten
    return ⟨cells.length, (listMean d).map (fun x : ℚ => (x : ℝ)), (meanSquare d).map (fun x : ℚ => Real.sqrt (x : ℝ))⟩

/-- Models `full_mesh_validator.py` 45-66: the squares of the lengths of the difference vectors in one cell. -/
def cellDiffsV (names : String × String) (pts : List (Pt Vec)) (c : AggCell) : Py (List (Option ℚ)) := do
  let s := slice c.bounds pts
  let v1 ← c.data.get names.1
  let v2 ← c.data.get names.2
  if s = [] then return []
  else
    let a1 ← numVal v1
    let a2 ← numVal v2
    return s.map (fun p => match p.2.2.1, p.2.2.2, a1, a2 with
      | some x, some y, some a, some b => some ((x - a) ^ 2 + (y - b) ^ 2)
      | _, _, _, _ => none)

/-- The mean of a list of real numbers; NaN if there are none.  See `/repo/meshiphi/mesh_validation/full_mesh_validator.py` 70. -/
noncomputable def meanR (l : List ℝ) : Option ℝ := if l = [] then none else some (l.sum / l.length)

/-- Models `full_mesh_validator.py` 34-79, `validate_vector`. -/
noncomputable def validateVector (names : String × String) (cells : List AggCell) (pts : List (Pt Vec)) : Py Stats := do
  let l ← cells.mapM (cellDiffsV names pts)
  if cells = [] then .error .keyError
  else
    let d := present l.flatten
    return ⟨cells.length, meanR (d.map (fun s : ℚ => Real.sqrt (s : ℝ))), (listMean d).map (fun x : ℚ => Real.sqrt (x : ℝ))⟩

/-! ## Validation by samples -/

/-- A data source of the first cell, as `validate_mesh` uses it.  See `/repo/meshiphi/mesh_validation/mesh_validator.py` 88, 132. -/
inductive Src where
  | scalar (name : String) (d : Dataset (Option ℚ))
  | vector (name : String) (d : Dataset Vec)

/-- The sources of `mesh.cellboxes[0]` (`/repo/meshiphi/mesh_validation/mesh_validator.py` 88, 132): a replaced cell is `None`. -/
def firstSources {D : Type} (toSrc : D → List Src) (cells : List (Option (CellBox D))) : Py (List Src) :=
  match cells with
  | [] => .error .indexError
  | none :: _ => .error .attributeError
  | some c :: _ => .ok (toSrc c.data)

/-- Models one turn of `mesh_validator.py` 88-92: the values of one source in a box.  The name of vector data is
the two names joined, which is no column. -/
def actualOf (box : Boundary) : Src → Py (List (Option ℚ))
  | .scalar _ d => do return (← d.trim box).vals
  | .vector _ d => do
    let _ ← d.trim box
    .error .keyError

/-- The value of the first cell that contains the point (`mesh_validator.py` 141-144). -/
def meshValueAt (cells : List AggCell) (name : String) (r : Row (Option ℚ)) : Py (List Val) :=
  match cells.find? (fun c => c.containsPoint r.lat r.long) with
  | some c => do return [← c.data.get name]
  | none => .ok []

/-- Models one turn of `mesh_validator.py` 132-144.  (Vectors raise before this is reached.) -/
def meshOf (box : Boundary) (cells : List AggCell) : Src → Py (List Val)
  | .scalar name d => do
    let t ← d.trim box
    let l ← t.rows.mapM (meshValueAt cells name)
    return l.flatten
  | .vector _ _ => .error .keyError

/-- Models `mesh_validator.py` 62-68 for one sample `(lat, long)`: the values of data and mesh. -/
def sampleValues (b : Boundary) (len : ℚ) (srcs : Py (List Src)) (cells : List AggCell) (s : ℚ × ℚ) :
    Py (List (Option ℚ) × List Val) := do
  let srcs ← srcs
  if srcs.isEmpty then return ([], [])
  else
    let box ← Validation.sampleBox b len s.1 s.2
    let a ← srcs.mapM (actualOf box)
    let m ← srcs.mapM (meshOf box cells)
    return (a.flatten, m.flatten)

/-- `check_array` of `sklearn` refuses NaN (called at `mesh_validator.py` 70). -/
def finite : Option ℚ → Py ℚ
  | some x => .ok x
  | none => .error .valueError

/-- The same for a value of the mesh (called at `mesh_validator.py` 70). -/
def finiteVal : Val → Py ℚ
  | .num (some y) => .ok y
  | _ => .error .valueError

/-- `sklearn.metrics.mean_squared_error` (`mesh_validator.py` 70): lists of different lengths, empty lists, NaN and text
raise `ValueError`. -/
def meanSquaredError (a : List (Option ℚ)) (m : List Val) : Py ℚ :=
  if a.length ≠ m.length ∨ a = [] then .error .valueError
  else do
    let xs ← a.mapM finite
    let ys ← m.mapM finiteVal
    return ((List.zipWith (fun x y => (x - y) ^ 2) xs ys).sum / a.length)

/-- Models `mesh_validator.py` 46-71, `validate_mesh`, for the given samples. -/
noncomputable def validateMesh (b : Boundary) (len : ℚ) (srcs : Py (List Src)) (cells : List AggCell) (samples : List (ℚ × ℚ)) : Py ℝ := do
  let l ← samples.mapM (sampleValues b len srcs cells)
  let e ← meanSquaredError (l.map Prod.fst).flatten (l.map Prod.snd).flatten
  return Real.sqrt (e : ℝ)

/-! ## `Mesh` -/

/-- Models `/repo/meshiphi/mesh_generation/mesh.py` 92-125, the second and effective definition of `get_cellboxes`. -/
def getCellboxes {D : Type} (m : MeshState D) : List (CellBox D) := m.cells.filterMap id

/-- One turn of `mesh.py` 137-140: the attribute is looked up on every cell that is not `None`. -/
def missingAttribute {D A : Type} (a : A) (c : Option (CellBox D)) : Py A :=
  match c with
  | some _ => .error .attributeError
  | none => .ok a

/-- Models `mesh.py` 127-144, `get_cellbox`: the class `CellBox` has no method `contains_point`. -/
def getCellbox {D : Type} (m : MeshState D) (_long _lat : ℚ) : Py (CellBox D) := do
  let selected ← m.cells.foldlM missingAttribute ([] : List (CellBox D))
  match selected with
  | [] => .error .indexError
  | c :: _ => return c

/-- Models `mesh.py` 59-76, `add_data_points`: `CellBox` has no attribute `long`. -/
def addDataPoints {D : Type} (m : MeshState D) (_pts : List (ℚ × ℚ)) : Py (MeshState D) := do
  m.cells.foldlM missingAttribute m

end Verif.ErrorStats
