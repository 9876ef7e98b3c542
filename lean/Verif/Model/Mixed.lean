import Verif.Model.Lut
import Verif.Model.LoaderInit
import Verif.Model.VectorHom

/-!
# Model of cells whose sources are of different kinds

In Python the list of data sources of a cell holds loaders of any class; here their data and their conditions are put into sum
types.
-/

namespace Verif

/-! ## Look-up tables as sources of cells -/

/-- A table of `/repo/meshiphi/dataloaders/lut/abstract_lut.py` 131-169: whether it is indexed by `time` (220), and its rows. -/
structure LutTable where
  timed : Bool
  rows : List Lut.Row

/-- The points of `bounds.to_polygon()` (`abstract_lut.py` 225 and 334; `boundary.py` 340-393). -/
def Lut.cellPoints (b : Boundary) : ℚ → ℚ → Prop := fun x y =>
  ∃ r ∈ LoaderInit.rects b, r.x0 ≤ x ∧ x ≤ r.x1 ∧ r.y0 ≤ y ∧ y ≤ r.y1

/-- `bounds.get_time_min()`, `bounds.get_time_max()` (`abstract_lut.py` 220-221), asked for only if the table is indexed by `time`. -/
def LutTable.limits (b : Boundary) (t : LutTable) : Py (ℤ × ℤ) := if t.timed = true then timeLimits b else .ok (0, 0)

/-- Models `abstract_lut.py` 206-229, `trim_datapoints`. -/
noncomputable def LutTable.trim (b : Boundary) (t : LutTable) : Py LutTable := do
  let time ← t.limits b
  return ⟨t.timed, Lut.trim (Lut.cellPoints b) time t.rows⟩

/-- The verdict of a look-up table as one of the verdicts of `cellbox.py` 184-190. -/
def Lut.Cond.verdict : Lut.Cond → Verdict
  | .clr => .clr
  | .hom => .hom
  | .het => .het

/-- A look-up table as seen by cells (`abstract_lut.py` 206-229, 231-309 with the default `skipna=False`, 311-348).  The coverage of
a box by polygons (171-203) is a parameter. -/
noncomputable def lutLoader (coverage : Boundary → List Lut.Geom → ℚ) (id : ℕ) (name : String) (agg : Lut.Agg) : Loader LutTable Lut.Conds where
  id := id
  dataName := name
  trim := fun b t => match t.trim b with | .ok t' => t' | .error _ => t
  getValue := fun b t => do
    let time ← t.limits b
    let v ← Lut.getValue (coverage b) (Lut.cellPoints b) time agg false t.rows
    return [(name, .num v)]
  homCond := fun b c t => do
    let time ← t.limits b
    let v ← Lut.homCondition (Lut.cellPoints b) time c t.rows
    return v.verdict

/-! ## Vector sources with their conditions -/

/-- A vector source as seen by cells, with the homogeneity of `/repo/meshiphi/dataloaders/vector/abstract_vector.py` 527-600, which
looks at all the data of the loader instead of the subset it is given. -/
def vectorSource (id : ℕ) (name : String) (agg : AggType) (minDp : ℕ) (conds : List VectorHom.Conds) (fill : Fill) (data : Dataset Vec) :
    Source (Dataset Vec) VectorHom.Conds :=
  ⟨vectorLoader id name agg (fun b c _ => VectorHom.hom minDp c b data), conds, fill, data⟩

/-! ## Sources of any kind -/

/-- The data of a source: `/repo/meshiphi/mesh_generation/mesh_builder.py` 162-182 puts loaders of any class into one list. -/
inductive AnyData where
  | scalar (d : Dataset (Option ℚ))
  | vector (d : Dataset Vec)
  | lut (t : LutTable)

/-- A splitting condition of a source (`mesh_builder.py` 168-172). -/
inductive AnyCond where
  | scalar (c : Cond)
  | vector (c : VectorHom.Conds)
  | lut (c : Lut.Conds)

/-- A source whose data and conditions are put into larger types (`mesh_builder.py` 180-182; a loader never meets data that is not
its own). -/
def Source.wrap {S C S' C' : Type} (put : S → S') (get : S' → Option S) (putC : C → C') (getC : C' → Option C) (s : Source S C) :
    Source S' C' where
  loader := {
    id := s.loader.id
    dataName := s.loader.dataName
    trim := fun b d => match get d with | some d => put (s.loader.trim b d) | none => d
    getValue := fun b d => match get d with | some d => s.loader.getValue b d | none => .error .typeError
    homCond := fun b c d => match get d, getC c with | some d, some c => s.loader.homCond b c d | _, _ => .error .typeError }
  conds := s.conds.map putC
  fill := s.fill
  subset := put s.subset

/-- A scalar source among others (`mesh_builder.py` 162-182). -/
def Source.ofScalar : Source (Dataset (Option ℚ)) Cond → Source AnyData AnyCond :=
  Source.wrap .scalar (fun | .scalar d => some d | _ => none) .scalar (fun | .scalar c => some c | _ => none)

/-- A vector source among others (`mesh_builder.py` 162-182). -/
def Source.ofVector : Source (Dataset Vec) VectorHom.Conds → Source AnyData AnyCond :=
  Source.wrap .vector (fun | .vector d => some d | _ => none) .vector (fun | .vector c => some c | _ => none)

/-- A look-up table among others (`mesh_builder.py` 162-182). -/
def Source.ofLut : Source LutTable Lut.Conds → Source AnyData AnyCond :=
  Source.wrap .lut (fun | .lut d => some d | _ => none) .lut (fun | .lut c => some c | _ => none)

end Verif
