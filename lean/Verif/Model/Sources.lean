import Verif.Model.LoaderInit
import Verif.Model.MeshBuilder

/-!
# Model of attaching data sources to cells

`/repo/meshiphi/mesh_generation/mesh_builder.py` 141-216 (`initialize_meta_data`,
`initialize_meta_data_subsets`), 274-315 (`add_dataloader`) and
`/repo/meshiphi/mesh_generation/metadata.py` 17-41.
-/

namespace Verif.Sources

/-- One entry of `config['data_sources']`: what is left of it once the loader is built.  `conds` are the
`splitting_conditions` (each a dictionary from data name to condition), `fill` the `value_fill_types`.
See `/repo/meshiphi/mesh_generation/mesh_builder.py` 157-184. -/
structure SourceCfg (P C : Type) where
  loader : String
  params : P
  conds : Option (List (Dict String C))
  fill : FillSpec

/-- Models the loop body of `mesh_builder.py` 161-182; `build` stands for
`DataLoaderFactory.get_dataloader` and yields the loader and its data. -/
def initSource {P S C : Type} (floatStr : String → Bool) (build : SourceCfg P C → Py (Loader S C × S)) (cfg : SourceCfg P C) :
    Py (Source S C) := do
  let (loader, data) ← build cfg
  let conds ← (cfg.conds.getD []).mapM (fun d => d.get loader.dataName)
  let fill ← checkValueFillType floatStr cfg.fill
  return ⟨loader, conds, fill, data⟩

/-- Models `mesh_builder.py` 141-184, `initialize_meta_data`. -/
def initMetaData {P S C : Type} (floatStr : String → Bool) (build : SourceCfg P C → Py (Loader S C × S)) (cfgs : List (SourceCfg P C)) :
    Py (List (Source S C)) :=
  cfgs.mapM (initSource floatStr build)

/-- The data subset kept in a `Metadata` of a scalar source: a frame with coordinates, or (`metadata.py`
34-39, when no subset is given) only the column of values. -/
inductive Subset where
  | frame (d : Dataset (Option ℚ))
  | column (vals : List (Option ℚ))

/-- A scalar loader over such subsets, whose whole data is `whole`.  `trim_datapoints`
(`abstract_scalar.py` 325-332) returns `None` for a column; `Metadata` replaces `None` by the column of the
whole data, `get_value` fails with `TypeError` (`None[...]`, line 455), `get_hom_condition` looks up the data
name in the column (`KeyError`, line 589). -/
def columnLoader (id : ℕ) (name : String) (agg : AggType) (minDp : ℕ) (whole : Dataset (Option ℚ)) : Loader Subset Cond where
  id := id
  dataName := name
  trim := fun b s => match s with
    | .frame d => match d.trim b with | .ok d' => .frame d' | .error _ => .frame d
    | .column _ => .column whole.vals
  getValue := fun b s => match s with
    | .frame d => do let v ← scalarValue agg b d; return [(name, .num v)]
    | .column _ => .error .typeError
  homCond := fun _ c s => match s with
    | .frame d => .ok (homCondition minDp c d.vals)
    | .column _ => .error .keyError

/-- Models `mesh_builder.py` 274-315, `add_dataloader`, for a scalar loader: the subset is not given, so it
is the column of the whole data. -/
def addDataloader (m : MeshState (List (Source Subset Cond))) (loader : Loader Subset Cond) (whole : Dataset (Option ℚ))
    (conds : List Cond) (fill : Fill) : MeshState (List (Source Subset Cond)) :=
  { m with cells := m.cells.map (fun c => c.map (fun c => { c with data := c.data ++ [⟨loader, conds, fill, .column whole.vals⟩] })) }

end Verif.Sources
