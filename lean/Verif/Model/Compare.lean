import Verif.Model.Validation

/-!
# Model of the comparison of values and attributes

`/repo/meshiphi/mesh_validation/mesh_comparator.py` 10-33 (`_return_as`), 74-130 (`compare_cellbox_values`) and
133-176 (`compare_cellbox_attributes`).

Cells are those of JSON files, whose values are numbers, NaN or strings (no lists).  Geometries are taken to
be distinct within a mesh: with duplicates `loc` would repeat rows.
-/

namespace Verif.Compare

/-- A value of a JSON file: an `int`, a `float` (`none` for NaN) or a string.  See `/repo/meshiphi/mesh_validation/mesh_comparator.py` 91-92. -/
inductive Entry where
  | int (n : ℤ)
  | flt (x : Option ℚ)
  | str (s : String)
  deriving DecidableEq, Repr

/-- A cell of a JSON file (`aggregated_cellbox.py` 120-152 writes it with the geometry first). -/
structure JCell where
  geometry : Boundary.Poly
  entries : Dict String Entry
  deriving DecidableEq

/-- The value that JSON has for a value of a cell; numbers are written as `float`s.
See `/repo/meshiphi/mesh_generation/aggregated_cellbox.py` 133-150. -/
def ofVal : Val → Entry
  | .num x => .flt x
  | .str s => .str s

/-- The cell written by `/repo/meshiphi/mesh_generation/aggregated_cellbox.py` 120-152. -/
def ofCell (c : AggCell) : JCell where
  geometry := c.bounds.toPolygon
  entries :=
    let j : Dict String Entry := [("cx", .flt (some c.bounds.cx)), ("cy", .flt (some c.bounds.cy)), ("dcx", .flt (some c.bounds.dcx)),
      ("dcy", .flt (some c.bounds.dcy))]
    (j.update (c.data.map (fun p => (p.1, ofVal p.2)))).set "id" (.str (toString c.id))

/-- The columns of `pd.DataFrame(mesh['cellboxes']).set_index('geometry')` (`mesh_comparator.py` 91-92). -/
def columns (m : List JCell) : List String := (m.flatMap (fun c => c.entries.keys)).dedup

/-- A value of that data frame; NaN where a cell does not have the column.  See `/repo/meshiphi/mesh_validation/mesh_comparator.py` 91-92. -/
def entry (c : JCell) (k : String) : Entry := (c.entries.get? k).getD (.flt none)

/-- Whether an entry is a string.  See `/repo/meshiphi/mesh_validation/mesh_comparator.py` 109, the type of a column. -/
def Entry.isStr : Entry → Bool
  | .str _ => true
  | _ => false

/-- Whether an entry is an `int`.  See `/repo/meshiphi/mesh_validation/mesh_comparator.py` 109, the type of a column. -/
def Entry.isInt : Entry → Bool
  | .int _ => true
  | _ => false

/-- Whether pandas makes a column of type `float64` (`mesh_comparator.py` 91-92, 109): numbers only, and not only
`int`s. -/
def floatColumn (m : List JCell) (k : String) : Bool :=
  m.all (fun c => !(entry c k).isStr) && m.any (fun c => !(entry c k).isInt)

/-- Rounding to four significant figures (`mesh_comparator.py` 7, 111). -/
def Entry.round : Entry → Entry
  | .int n => .flt (some (Utils.roundSigfig 4 n))
  | .flt x => .flt (x.map (Utils.roundSigfig 4))
  | .str s => .str s

/-- A value after lines 107-122 of `mesh_comparator.py`: columns of type `float64` are rounded. -/
def shown (m : List JCell) (k : String) (c : JCell) : Entry :=
  if floatColumn m k then (entry c k).round else entry c k

/-- The number that an entry is, if any.  See `/repo/meshiphi/mesh_validation/mesh_comparator.py` 111, 126. -/
def Entry.num : Entry → Option ℚ
  | .int n => some n
  | .flt x => x
  | .str _ => none

/-- Equality of values in `DataFrame.compare` (`mesh_comparator.py` 126): NaN equals NaN, `1` equals `1.0`. -/
def Entry.same (a b : Entry) : Bool :=
  match a, b with
  | .str s, .str t => s = t
  | .str _, _ => false
  | _, .str _ => false
  | a, b => a.num = b.num

/-- The row of a geometry.  See `/repo/meshiphi/mesh_validation/mesh_comparator.py` 91-92, 126. -/
def rowAt (m : List JCell) (g : Boundary.Poly) : Option JCell := m.find? (fun c => c.geometry = g)

/-- Models `mesh_comparator.py` 74-130, `compare_cellbox_values`, with the default return type: the rows of the second mesh with the
common columns. -/
def compareValues (m1 m2 : List JCell) : Py (List JCell) :=
  if m1 = [] ∨ m2 = [] then .error .keyError
  else
    let common := (m1.map JCell.geometry).filter (fun g => g ∈ m2.map JCell.geometry)
    let cols := (columns m1).filter (fun k => k ∈ columns m2)
    .ok (common.filterMap (fun g =>
      match rowAt m1 g, rowAt m2 g with
      | some c1, some c2 =>
        if cols.any (fun k => !(shown m1 k c1).same (shown m2 k c2)) then some ⟨g, cols.map (fun k => (k, shown m2 k c2))⟩ else none
      | _, _ => none))

/-- Models `mesh_comparator.py` 133-176, `compare_cellbox_attributes`, with the default return type: `Index.equals` compares the
names in order. -/
def compareAttributes (m1 m2 : List JCell) : List JCell :=
  m1.filterMap (fun c1 =>
    match rowAt m2 c1.geometry with
    | some c2 => if c1.entries.keys = c2.entries.keys then none else some c2
    | none => none)

/-- What `_return_as` gives (`mesh_comparator.py` 10-33). -/
inductive Output where
  | frame (l : List JCell)
  | ids (l : List Entry)
  | nothing
  deriving DecidableEq

/-- Models `mesh_comparator.py` 10-33, `_return_as`, on a data frame with columns `cols`: no frame has a column
`cellboxes`. -/
def returnAs (cols : List String) (l : List JCell) : Option String → Py Output
  | none => .ok (.frame l)
  | some t =>
    if t = "cellboxes" ∨ t = "cb" then .error .keyError
    else if t = "id" then (if "id" ∈ cols then .ok (.ids (l.map (fun c => entry c "id"))) else .error .keyError)
    else if t = "dataframe" ∨ t = "df" then .ok (.frame l)
    else .ok .nothing

/-- `compare_cellbox_values` with a return type (`mesh_comparator.py` 130): an empty result keeps its columns. -/
def compareValuesAs (m1 m2 : List JCell) (t : Option String) : Py Output := do
  let l ← compareValues m1 m2
  returnAs ((columns m1).filter (fun k => k ∈ columns m2)) l t

/-- `compare_cellbox_attributes` with a return type (`mesh_comparator.py` 169-176): without differences the frame
has no columns. -/
def compareAttributesAs (m1 m2 : List JCell) (t : Option String) : Py Output :=
  let l := compareAttributes m1 m2
  returnAs (columns l) l t

end Verif.Compare
