import Verif.Model.Params
import Verif.Props.Config
import Verif.Props.LutFiles

/-!
# C97: the parameters of data loaders, completed with defaults
-/

namespace Verif
open Params Config

/-- The value that a table has for a key. -/
def Spec.lookup : List (String × JVal) → String → Option JVal
  | [], _ => none
  | (k, v) :: t, k' => if k = k' then some v else Spec.lookup t k'

/-- The parameters given by the user, once `file` or `folder` has become `files`. -/
def Spec.given (listing : List Char → List (List Char)) (p : Dict String JVal) (k : String) : Option JVal :=
  match Dict.get? p "file", Dict.get? p "folder" with
  | some v, _ => if k = "file" then none else if k = "files" then some (.arr [v]) else Dict.get? p k
  | none, some (.str f) => if k = "folder" then none else if k = "files" then some (.arr ((listing f).map .str)) else Dict.get? p k
  | none, _ => Dict.get? p k

/-- The parameters that the factory hands to a loader: those given, its name and the minimum number of datapoints. -/
def Spec.handed (listing : List Char → List (List Char)) (name : List Char) (minDp : JVal) (p : Dict String JVal) (k : String) : Option JVal :=
  if k = "min_dp" then some minDp else if k = "dataloader_name" then some (.str name) else Spec.given listing p k

/-- The defaults of all scalar and vector loaders. -/
def Spec.common : List (String × JVal) :=
  [("data_name", .null), ("downsample_factors", .arr [.int 1, .int 1]), ("aggregate_type", .str "MEAN".toList), ("in_proj", .str "EPSG:4326".toList),
    ("out_proj", .str "EPSG:4326".toList), ("x_col", .str "lat".toList), ("y_col", .str "long".toList), ("fast_reprojection", .bool false)]

/-- The classes with defaults of their own. -/
def Spec.special : List String :=
  ["ScalarGRFDataLoader", "AMSRDataLoader", "ShapeDataLoader", "VectorGRFDataLoader", "VectorShapeDataLoader"]

/-- The classes of look-up tables. -/
def Spec.lutClasses : List String := ["LutGeoJSON", "LutShapefile", "ThicknessDataLoader", "DensityDataLoader", "ScotlandNCMPA", "LutCSV"]

theorem lookup_cons (a : String) (v : JVal) (t : List (String × JVal)) (k : String) :
    Spec.lookup ((a, v) :: t) k = if a = k then some v else Spec.lookup t k := rfl

theorem lookup_append (t t' : List (String × JVal)) (k : String) : Spec.lookup (t ++ t') k = (Spec.lookup t k).or (Spec.lookup t' k) := by
  induction t with
  | nil => simp [Spec.lookup]
  | cons a t ih =>
    obtain ⟨a, v⟩ := a
    rw [List.cons_append, lookup_cons, lookup_cons, ih]
    split <;> simp

theorem lookup_skip (t t' : List (String × JVal)) (a k : String) (v : JVal) (h : k ≠ a) :
    Spec.lookup (t ++ (a, v) :: t') k = Spec.lookup (t ++ t') k := by
  rw [lookup_append, lookup_append, lookup_cons, if_neg (Ne.symm h)]

theorem dflt_get (p : Dict String JVal) (k k' : String) (v : JVal) :
    Dict.get? (dflt p k v) k' = (Dict.get? p k').or (if k = k' then some v else none) := by
  unfold dflt
  split
  · next x h =>
    by_cases e : k = k'
    · subst e; rw [h]; rfl
    · rw [if_neg e, Option.or_none]
  · next h =>
    rw [Dict.get?_set]
    by_cases e : k = k'
    · subst e; rw [if_pos rfl, h, if_pos rfl]; rfl
    · rw [if_neg e, if_neg e, Option.or_none]

theorem foldl_dflt_get (t : List (String × JVal)) (p : Dict String JVal) (k : String) :
    Dict.get? (t.foldl (fun p kv => dflt p kv.1 kv.2) p) k = (Dict.get? p k).or (Spec.lookup t k) := by
  induction t generalizing p with
  | nil => simp [Spec.lookup]
  | cons a t ih =>
    rw [List.foldl_cons, ih, dflt_get, Option.or_assoc]
    congr 1
    rw [lookup_cons]
    split <;> simp

/-- The table of `baseDefaults`. -/
theorem baseDefaults_get (cls : String) (p : Dict String JVal) (k : String) (h1 : (Dict.get? p "dataloader_name").isSome)
    (h2 : (Dict.get? p "min_dp").isSome) :
    Dict.get? (baseDefaults cls p) k = (Dict.get? p k).or (Spec.lookup Spec.common k) := by
  have e : baseDefaults cls p = ([("dataloader_name", text cls), ("data_name", .null), ("downsample_factors", .arr [.int 1, .int 1]),
      ("aggregate_type", text "MEAN"), ("min_dp", .int 5), ("in_proj", text "EPSG:4326"), ("out_proj", text "EPSG:4326"), ("x_col", text "lat"),
      ("y_col", text "long"), ("fast_reprojection", .bool false)] : List (String × JVal)).foldl (fun p kv => dflt p kv.1 kv.2) p := rfl
  rw [e, foldl_dflt_get]
  by_cases hk : k = "dataloader_name"
  · subst hk; obtain ⟨v, hv⟩ := Option.isSome_iff_exists.1 h1; rw [hv]; rfl
  · by_cases hk' : k = "min_dp"
    · subst hk'; obtain ⟨v, hv⟩ := Option.isSome_iff_exists.1 h2; rw [hv]; rfl
    · congr 1
      rw [lookup_cons, if_neg (Ne.symm hk)]
      exact lookup_skip [("data_name", .null), ("downsample_factors", .arr [.int 1, .int 1]), ("aggregate_type", text "MEAN")] _ _ _ _ hk'

theorem translate_get {listing : List Char → List (List Char)} {p q : Dict String JVal} (h : translate listing p = .ok q) (k : String) :
    Dict.get? q k = Spec.given listing p k := by
  unfold translate at h
  unfold Spec.given
  split at h
  · next v hv =>
    injection h with h
    rw [← h, hv, Dict.get?_del, Dict.get?_set]
    by_cases e : k = "file"
    · subst e; simp
    · by_cases e' : k = "files"
      · subst e'; simp
      · simp [Ne.symm e, Ne.symm e', e, e']
  · next hv =>
    rw [hv]
    split at h
    · next f hf =>
      injection h with h
      rw [← h, hf, Dict.get?_del, Dict.get?_set]
      by_cases e : k = "folder"
      · subst e; simp
      · by_cases e' : k = "files"
        · subst e'; simp
        · simp [Ne.symm e, Ne.symm e', e, e']
    · cases h
    · next hf =>
      injection h with h
      rw [← h, hf]

theorem translate_ok_iff (listing : List Char → List (List Char)) (p : Dict String JVal) :
    (∃ q, translate listing p = .ok q) ↔ (Dict.get? p "file").isSome ∨ ∀ v, Dict.get? p "folder" = some v → ∃ f, v = .str f := by
  unfold translate
  cases hf : Dict.get? p "file" with
  | some v => simp
  | none =>
    cases hd : Dict.get? p "folder" with
    | none => simp
    | some v => cases v <;> simp

/-- What completing parameters amounts to. -/
theorem complete_ok_iff (listing : List Char → List (List Char)) (name params minDp : JVal) (cls : String) (p' : Dict String JVal) :
    complete listing name params minDp = .ok (cls, p') ↔ ∃ s p q required, name = .str s ∧ params = .obj p ∧ translate listing p = .ok q ∧
      Dict.get? Factory.table (String.ofList (s.map Char.toLower)) = some (cls, required) ∧
      (∀ k ∈ required, (Dict.get? (Dict.set (Dict.set q "dataloader_name" (.str (s.map Char.toLower))) "min_dp" minDp) k).isSome) ∧
      classDefaults cls (Dict.set (Dict.set q "dataloader_name" (.str (s.map Char.toLower))) "min_dp" minDp) = .ok p' := by
  constructor
  · intro h
    unfold complete at h
    cases name with
    | str s =>
      simp only [asStr, bind, Except.bind] at h
      cases params with
      | obj p =>
        simp only at h
        cases ht : translate listing p with
        | error e => simp [ht] at h
        | ok q =>
          simp only [ht] at h
          split at h
          · cases h
          · next c req hc =>
            split at h
            · next hr =>
              cases hd : classDefaults c (Dict.set (Dict.set q "dataloader_name" (.str (s.map Char.toLower))) "min_dp" minDp) with
              | error e => simp [hd] at h
              | ok r =>
                simp only [hd, pure, Except.pure, Except.ok.injEq, Prod.mk.injEq] at h
                obtain ⟨rfl, rfl⟩ := h
                exact ⟨s, p, q, req, rfl, rfl, ht, hc, List.all_eq_true.1 hr, hd⟩
            · cases h
      | _ => simp at h
    | _ => simp [asStr, bind, Except.bind] at h
  · rintro ⟨s, p, q, required, rfl, rfl, ht, hc, hr, hd⟩
    unfold complete
    simp only [asStr, bind, Except.bind, ht, hc, List.all_eq_true.2 hr, if_true, hd, pure, Except.pure]

/-- The parameters before the defaults are those that the factory hands over. -/
theorem handed_get {listing : List Char → List (List Char)} {p q : Dict String JVal} (h : translate listing p = .ok q) (s : List Char) (minDp : JVal)
    (k : String) : Dict.get? (Dict.set (Dict.set q "dataloader_name" (.str s)) "min_dp" minDp) k = Spec.handed listing s minDp p k := by
  unfold Spec.handed
  rw [Dict.get?_set]
  by_cases e : k = "min_dp"
  · subst e; simp
  · rw [if_neg (Ne.symm e), if_neg e, Dict.get?_set]
    by_cases e' : k = "dataloader_name"
    · subst e'; simp
    · rw [if_neg (Ne.symm e'), if_neg e', translate_get h]

theorem handed_name (listing : List Char → List (List Char)) (s : List Char) (minDp : JVal) (p : Dict String JVal) :
    Spec.handed listing s minDp p "dataloader_name" = some (.str s) := by simp [Spec.handed]

theorem handed_min (listing : List Char → List (List Char)) (s : List Char) (minDp : JVal) (p : Dict String JVal) :
    Spec.handed listing s minDp p "min_dp" = some minDp := by simp [Spec.handed]

/-- C97: the loaders without defaults of their own have the parameters given by the user, with `file` or `folder` as `files`, the name in lower
case and the minimum number of datapoints of the configuration, which replace any that are given, and the eight common defaults where
nothing is given.  They have no others. -/
theorem C97_plain (listing : List Char → List (List Char)) (name p' : _) (p : Dict String JVal) (minDp : JVal) (cls : String)
    (h : complete listing (.str name) (.obj p) minDp = .ok (cls, p')) (hc : cls ∉ Spec.special ++ Spec.lutClasses) (k : String) :
    Dict.get? p' k = (Spec.handed listing (name.map Char.toLower) minDp p k).or (Spec.lookup Spec.common k) := by
  obtain ⟨s, p0, q, req, e1, e2, ht, -, -, hd⟩ := (complete_ok_iff _ _ _ _ _ _).1 h
  cases e1; cases e2
  simp only [Spec.special, Spec.lutClasses, List.cons_append, List.nil_append, List.mem_cons, List.not_mem_nil, or_false, not_or] at hc
  obtain ⟨h1, h2, h3, h4, h5, h6, h7, h8, h9, h10, h11⟩ := hc
  unfold classDefaults at hd
  simp only [h1, h2, h3, h4, h5, h6, h7, h8, h9, h10, h11, if_false, List.mem_cons, List.not_mem_nil, or_self] at hd
  injection hd with hd
  rw [← hd, baseDefaults_get, handed_get ht]
  · rw [handed_get ht, handed_name]; rfl
  · rw [handed_get ht, handed_min]; rfl

/-- C97: look-up tables have only the name of the data (`None`) and the way of aggregating as defaults. -/
theorem C97_lut (listing : List Char → List (List Char)) (name p' : _) (p : Dict String JVal) (minDp : JVal) (cls : String)
    (h : complete listing (.str name) (.obj p) minDp = .ok (cls, p')) (hc : cls ∈ Spec.lutClasses) (k : String) :
    Dict.get? p' k = (Spec.handed listing (name.map Char.toLower) minDp p k).or
      (Spec.lookup [("data_name", .null), ("aggregate_type", .str "MEAN".toList)] k) := by
  obtain ⟨s, p0, q, req, e1, e2, ht, -, -, hd⟩ := (complete_ok_iff _ _ _ _ _ _).1 h
  cases e1; cases e2
  have hadd : LutInit.addDefault = dflt := by funext p k v; rfl
  have hb : ∀ q' : Dict String JVal, (Dict.get? q' "dataloader_name").isSome → ∀ k,
      Dict.get? (LutInit.addDefaults cls q') k = (Dict.get? q' k).or (Spec.lookup [("data_name", .null), ("aggregate_type", .str "MEAN".toList)] k) := by
    intro q' hq k
    have e : LutInit.addDefaults cls q' = ([("dataloader_name", .str cls.toList), ("data_name", .null), ("aggregate_type", .str "MEAN".toList)] :
        List (String × JVal)).foldl (fun p kv => dflt p kv.1 kv.2) q' := rfl
    rw [e, foldl_dflt_get]
    by_cases hk : k = "dataloader_name"
    · subst hk; obtain ⟨v, hv⟩ := Option.isSome_iff_exists.1 hq; rw [hv]; rfl
    · simp only [lookup_cons, if_neg (Ne.symm hk)]
  have hq : (Dict.get? (Dict.set (Dict.set q "dataloader_name" (.str (name.map Char.toLower))) "min_dp" minDp) "dataloader_name").isSome := by
    rw [handed_get ht, handed_name]; rfl
  have hf : ∀ q' : Dict String JVal, (Dict.get? q' "dataloader_name").isSome → LutInit.addFileDefaults cls q' = LutInit.addDefaults cls q' := by
    intro q' hq
    unfold LutInit.addFileDefaults
    rw [hadd]
    have : (Dict.get? (LutInit.addDefaults cls q') "data_name").isSome := by
      rw [hb q' hq]; cases Dict.get? q' "data_name" <;> rfl
    obtain ⟨v, hv⟩ := Option.isSome_iff_exists.1 this
    unfold dflt
    rw [hv]
  have hd' : p' = LutInit.addDefaults cls (Dict.set (Dict.set q "dataloader_name" (.str (name.map Char.toLower))) "min_dp" minDp) := by
    simp only [Spec.lutClasses, List.mem_cons, List.not_mem_nil, or_false] at hc
    rcases hc with rfl | rfl | rfl | rfl | rfl | rfl <;>
      simp only [classDefaults, String.reduceEq, if_false, if_true, List.mem_cons, List.not_mem_nil, or_self, or_false, or_true] at hd <;>
      injection hd with hd
    · rw [← hd, hf _ hq]
    · rw [← hd, hf _ hq]
    all_goals rw [← hd]
  rw [hd', hb _ hq, handed_get ht]

/-- The defaults of random fields, for binary ones and for others. -/
def Spec.grfTable (binary : Bool) : List (String × JVal) :=
  [("seed", .null), ("size", .int 512), ("alpha", .int 3)] ++
    if binary then [("min", .int 0), ("max", .int 1), ("threshold", .flt (some (1 / 2)))]
    else [("min", .int (-10)), ("max", .int 10), ("threshold", .arr [.int 0, .int 1]), ("multiplier", .int 1), ("offset", .int 0)]

/-- The values that Python takes as equal to `True`. -/
def Spec.EqTrue (v : JVal) : Prop := v = .bool true ∨ v = .int 1 ∨ v = .flt (some 1)

/-- A name that is given and not `None`, or else the default. -/
def Spec.nameOr (given : Option JVal) (d : String) : JVal :=
  match given with
  | none => .str d.toList
  | some .null => .str d.toList
  | some v => v

theorem eqTrue_iff (v : JVal) : eqTrue v = true ↔ Spec.EqTrue v := by
  unfold Spec.EqTrue
  cases v with
  | flt x => cases x <;> simp [eqTrue]
  | _ => simp [eqTrue]

theorem nameDefault_get {p q : Dict String JVal} {d : String} (x : Option JVal) (hx : Dict.get? p "data_name" = x.or (some .null))
    (h : nameDefault p d = .ok q) (k : String) :
    Dict.get? q k = if k = "data_name" then some (Spec.nameOr x d) else Dict.get? p k := by
  unfold nameDefault at h
  have hg : ∃ v, Dict.get? p "data_name" = some v ∧ v = (x.getD .null) := by
    rw [hx]; cases x <;> simp
  obtain ⟨v, hv, e⟩ := hg
  simp only [Dict.get, hv, bind, Except.bind, pure, Except.pure] at h
  by_cases hk : k = "data_name"
  · subst hk
    rw [if_pos rfl]
    split at h
    · next hn =>
      injection h with h
      rw [← h, Dict.get?_set, if_pos rfl]
      cases x with
      | none => rfl
      | some y =>
        simp only [Option.getD_some] at e
        subst e
        cases v <;> simp [isNull] at hn
        rfl
    · next hn =>
      injection h with h
      rw [← h, hv]
      cases x with
      | none => simp only [Option.getD_none] at e; subst e; simp [isNull] at hn
      | some y =>
        simp only [Option.getD_some] at e
        subst e
        cases v <;> first | rfl | simp [isNull] at hn
  · rw [if_neg hk]
    split at h <;> injection h with h <;> rw [← h]
    rw [Dict.get?_set, if_neg (Ne.symm hk)]

theorem nameDefault_ok {p : Dict String JVal} (h : (Dict.get? p "data_name").isSome) (d : String) : ∃ q, nameDefault p d = .ok q := by
  obtain ⟨v, hv⟩ := Option.isSome_iff_exists.1 h
  unfold nameDefault
  simp only [Dict.get, hv, bind, Except.bind, pure, Except.pure]
  split <;> exact ⟨_, rfl⟩

/-- C97: scalar random fields have, beside the common parameters, a seed (`None`, unless it is given), a size, an exponent, limits, a threshold and,
where `binary` is not true, a factor and an offset.  Where no name of the data is given, or `None`, it depends on `binary`. -/
theorem C97_grf (listing : List Char → List (List Char)) (name p' : _) (p : Dict String JVal) (minDp : JVal)
    (h : complete listing (.str name) (.obj p) minDp = .ok ("ScalarGRFDataLoader", p')) :
    ∃ binary, Spec.given listing p "binary" = some binary ∧ ∀ t : Bool, (t = true ↔ Spec.EqTrue binary) → ∀ k, Dict.get? p' k =
      if k = "data_name" then some (Spec.nameOr (Spec.given listing p k) (if t then "binary_data" else "scalar_data"))
      else (Spec.handed listing (name.map Char.toLower) minDp p k).or (Spec.lookup (Spec.common ++ Spec.grfTable t) k) := by
  obtain ⟨s, p0, q, req, e1, e2, ht, htab, hreq, hd⟩ := (complete_ok_iff _ _ _ _ _ _).1 h
  cases e1; cases e2
  generalize hq : Dict.set (Dict.set q "dataloader_name" (.str (name.map Char.toLower))) "min_dp" minDp = r at hreq hd
  have hr : ∀ k, Dict.get? r k = Spec.handed listing (name.map Char.toLower) minDp p k := fun k => by rw [← hq, handed_get ht]
  have hbase : ∀ k, Dict.get? (baseDefaults "ScalarGRFDataLoader" r) k = (Dict.get? r k).or (Spec.lookup Spec.common k) := fun k =>
    baseDefaults_get _ _ _ (by rw [hr, handed_name]; rfl) (by rw [hr, handed_min]; rfl)
  simp only [classDefaults, if_true] at hd
  unfold grfDefaults at hd
  generalize hb : baseDefaults "ScalarGRFDataLoader" r = u at hd hbase
  have hs : dflt (dflt (dflt u "seed" .null) "size" (.int 512)) "alpha" (.int 3) =
      ([("seed", .null), ("size", .int 512), ("alpha", .int 3)] : List (String × JVal)).foldl (fun p kv => dflt p kv.1 kv.2) u := rfl
  simp only [hs] at hd
  generalize hu' : ([("seed", .null), ("size", .int 512), ("alpha", .int 3)] : List (String × JVal)).foldl (fun p kv => dflt p kv.1 kv.2) u = u' at hd
  have hu : ∀ k, Dict.get? u' k = (Dict.get? r k).or (Spec.lookup (Spec.common ++ [("seed", .null), ("size", .int 512), ("alpha", .int 3)]) k) := by
    intro k
    rw [← hu', foldl_dflt_get, hbase, lookup_append, Option.or_assoc]
  have hbin : Dict.get? u' "binary" = Spec.given listing p "binary" := by
    rw [hu, hr]
    have : Spec.lookup (Spec.common ++ [("seed", .null), ("size", .int 512), ("alpha", .int 3)]) "binary" = none := by rfl
    rw [this, Option.or_none]
    rfl
  cases hB : Spec.given listing p "binary" with
  | none =>
    rw [hB] at hbin
    simp [Dict.get, hbin, bind, Except.bind] at hd
  | some binary =>
    rw [hB] at hbin
    refine ⟨binary, rfl, ?_⟩
    intro t htr k
    have hdn : Dict.get? u' "data_name" = (Spec.given listing p "data_name").or (some .null) := by
      rw [hu, hr]; rfl
    have tail : ∀ (v : Dict String JVal) (d : String) (tb : List (String × JVal)), Spec.lookup tb "data_name" = none → nameDefault u' d = .ok v → ∀ k,
        Dict.get? (tb.foldl (fun p kv => dflt p kv.1 kv.2) v) k = if k = "data_name" then some (Spec.nameOr (Spec.given listing p k) d) else
          (Spec.handed listing (name.map Char.toLower) minDp p k).or
            (Spec.lookup (Spec.common ++ ([("seed", .null), ("size", .int 512), ("alpha", .int 3)] ++ tb)) k) := by
      intro v d tb htb hv k
      rw [foldl_dflt_get, nameDefault_get _ hdn hv]
      by_cases hk : k = "data_name"
      · subst hk; rw [if_pos rfl, if_pos rfl, htb, Option.or_none]
      · rw [if_neg hk, if_neg hk, hu, hr, ← List.append_assoc, lookup_append (_ ++ _), Option.or_assoc]
    simp only [Dict.get, hbin, bind, Except.bind] at hd
    have hcase : eqTrue binary = t := by
      cases hi : eqTrue binary with
      | true => exact (htr.2 ((eqTrue_iff _).1 hi)).symm
      | false =>
        cases t with
        | false => rfl
        | true => rw [(eqTrue_iff _).2 (htr.1 rfl)] at hi; cases hi
    rw [hcase] at hd
    cases t with
    | true =>
      simp only [if_true] at hd
      cases hv : nameDefault u' "binary_data" with
      | error e => simp [hv] at hd
      | ok v =>
        simp only [hv, pure, Except.pure] at hd
        injection hd with hd
        rw [← hd]
        exact tail v "binary_data" [("min", .int 0), ("max", .int 1), ("threshold", .flt (some (1 / 2)))] rfl hv k
    | false =>
      simp only [Bool.false_eq_true, if_false] at hd
      cases hv : nameDefault u' "scalar_data" with
      | error e => simp [hv] at hd
      | ok v =>
        simp only [hv, pure, Except.pure] at hd
        injection hd with hd
        rw [← hd]
        exact tail v "scalar_data" [("min", .int (-10)), ("max", .int 10), ("threshold", .arr [.int 0, .int 1]), ("multiplier", .int 1), ("offset", .int 0)]
          rfl hv k

/-- C97: for AMSR data the projection belongs to the hemisphere and the columns are called `x` and `y`, whatever is given for them. -/
theorem C97_amsr (listing : List Char → List (List Char)) (name p' : _) (p : Dict String JVal) (minDp : JVal)
    (h : complete listing (.str name) (.obj p) minDp = .ok ("AMSRDataLoader", p')) :
    ∃ (hem : List Char) (north : Bool), Spec.given listing p "hemisphere" = some (.str hem) ∧ hem.map Char.toLower = (if north then "north" else "south").toList ∧ ∀ k,
      Dict.get? p' k = if k = "in_proj" then some (.str (if north then "EPSG:3411" else "EPSG:3412").toList) else if k = "x_col" then some (.str ['x'])
        else if k = "y_col" then some (.str ['y']) else (Spec.handed listing (name.map Char.toLower) minDp p k).or (Spec.lookup Spec.common k) := by
  obtain ⟨s, p0, q, req, e1, e2, ht, htab, hreq, hd⟩ := (complete_ok_iff _ _ _ _ _ _).1 h
  cases e1; cases e2
  generalize hq : Dict.set (Dict.set q "dataloader_name" (.str (name.map Char.toLower))) "min_dp" minDp = r at hreq hd
  have hr : ∀ k, Dict.get? r k = Spec.handed listing (name.map Char.toLower) minDp p k := fun k => by rw [← hq, handed_get ht]
  have hbase : ∀ k, Dict.get? (baseDefaults "AMSRDataLoader" r) k = (Dict.get? r k).or (Spec.lookup Spec.common k) := fun k =>
    baseDefaults_get _ _ _ (by rw [hr, handed_name]; rfl) (by rw [hr, handed_min]; rfl)
  simp only [classDefaults, String.reduceEq, if_false, if_true] at hd
  unfold amsrDefaults at hd
  generalize hb : baseDefaults "AMSRDataLoader" r = u at hd hbase
  have hhem : Dict.get? u "hemisphere" = Spec.given listing p "hemisphere" := by
    rw [hbase, hr]
    have : Spec.lookup Spec.common "hemisphere" = none := by rfl
    rw [this, Option.or_none]
    rfl
  have fin : ∀ v : String, ∀ k, Dict.get? (Dict.set (Dict.set (Dict.set u "in_proj" (text v)) "x_col" (text "x")) "y_col" (text "y")) k =
      if k = "in_proj" then some (.str v.toList) else if k = "x_col" then some (.str ['x']) else if k = "y_col" then some (.str ['y']) else
        (Spec.handed listing (name.map Char.toLower) minDp p k).or (Spec.lookup Spec.common k) := by
    intro v k
    rw [Dict.get?_set, Dict.get?_set, Dict.get?_set, hbase, hr]
    by_cases k1 : k = "in_proj"
    · subst k1; simp [text]
    · by_cases k2 : k = "x_col"
      · subst k2; simp [text]
      · by_cases k3 : k = "y_col"
        · subst k3; simp [text]
        · rw [if_neg (Ne.symm k3), if_neg (Ne.symm k2), if_neg (Ne.symm k1), if_neg k1, if_neg k2, if_neg k3]
  cases hH : Spec.given listing p "hemisphere" with
  | none => rw [hH] at hhem; simp [Dict.get, hhem, bind, Except.bind] at hd
  | some v =>
    rw [hH] at hhem
    simp only [Dict.get, hhem, bind, Except.bind] at hd
    cases v with
    | str hem =>
      simp only [asStr, pure, Except.pure] at hd
      split at hd
      · next hn =>
        injection hd with hd
        refine ⟨hem, true, rfl, hn, fun k => ?_⟩
        rw [← hd]
        exact fin _ k
      · split at hd
        · next hn =>
          injection hd with hd
          refine ⟨hem, false, rfl, hn, fun k => ?_⟩
          rw [← hd]
          exact fin _ k
        · cases hd
    | _ => simp [asStr] at hd

/-- The defaults of the scalar shapes: where a height is given. -/
def Spec.shapeTable (name : List Char) : List (String × JVal) :=
  [("nx", .int 101), ("ny", .int 101), ("multiplier", .int 1)] ++
    if name = "circle".toList then [("radius", .int 1), ("centre", .arr [.null, .null])]
    else if name = "rectangle".toList then [("width", .int 1), ("centre", .arr [.null, .null])]
    else if name = "gradient".toList then [("vertical", .bool true)]
    else if name = "checkerboard".toList then [("gridsize", .arr [.int 1, .int 1])]
    else []

theorem misDefault_get (p : Dict String JVal) (k o k' : String) :
    Dict.get? (misDefault p k o) k' = if (Dict.get? p k = none ∧ k' = o) then some (.int 1) else Dict.get? p k' := by
  unfold misDefault
  split
  · next x h => rw [h]; simp
  · next h =>
    rw [h, Dict.get?_set]
    by_cases e : k' = o
    · subst e; simp
    · rw [if_neg (Ne.symm e), if_neg (fun h => e h.2)]

theorem isText_str (s : String) (l : List Char) : isText s (.str l) = decide (l = s.toList) := rfl

/-- C97: the scalar shapes have numbers of points, a factor and the parameters of their kind.  A rectangle without height is an exception: its
width is 1, whatever is given for it, and it has no height. -/
theorem C97_shape (listing : List Char → List (List Char)) (name p' : _) (p : Dict String JVal) (minDp : JVal)
    (h : complete listing (.str name) (.obj p) minDp = .ok ("ShapeDataLoader", p')) (k : String) :
    Dict.get? p' k = if name.map Char.toLower = "rectangle".toList ∧ Spec.given listing p "height" = none ∧ k = "width" then some (.int 1)
      else (Spec.handed listing (name.map Char.toLower) minDp p k).or (Spec.lookup (Spec.common ++ Spec.shapeTable (name.map Char.toLower)) k) := by
  obtain ⟨s, p0, q, req, e1, e2, ht, htab, hreq, hd⟩ := (complete_ok_iff _ _ _ _ _ _).1 h
  cases e1; cases e2
  generalize hq : Dict.set (Dict.set q "dataloader_name" (.str (name.map Char.toLower))) "min_dp" minDp = r at hreq hd
  have hr : ∀ k, Dict.get? r k = Spec.handed listing (name.map Char.toLower) minDp p k := fun k => by rw [← hq, handed_get ht]
  have hbase : ∀ k, Dict.get? (baseDefaults "ShapeDataLoader" r) k = (Dict.get? r k).or (Spec.lookup Spec.common k) := fun k =>
    baseDefaults_get _ _ _ (by rw [hr, handed_name]; rfl) (by rw [hr, handed_min]; rfl)
  simp only [classDefaults, String.reduceEq, if_false, if_true] at hd
  unfold shapeDefaults at hd
  generalize hb : baseDefaults "ShapeDataLoader" r = u at hd hbase
  have hs : dflt (dflt (dflt u "nx" (.int 101)) "ny" (.int 101)) "multiplier" (.int 1) =
      ([("nx", .int 101), ("ny", .int 101), ("multiplier", .int 1)] : List (String × JVal)).foldl (fun p kv => dflt p kv.1 kv.2) u := rfl
  simp only [hs] at hd
  generalize hu' : ([("nx", .int 101), ("ny", .int 101), ("multiplier", .int 1)] : List (String × JVal)).foldl (fun p kv => dflt p kv.1 kv.2) u = u' at hd
  have hu : ∀ k, Dict.get? u' k = (Spec.handed listing (name.map Char.toLower) minDp p k).or
      (Spec.lookup (Spec.common ++ [("nx", .int 101), ("ny", .int 101), ("multiplier", .int 1)]) k) := by
    intro k
    rw [← hu', foldl_dflt_get, hbase, lookup_append, Option.or_assoc, hr]
  have hn : Dict.get? u' "dataloader_name" = some (.str (name.map Char.toLower)) := by rw [hu, handed_name]; rfl
  have tail : ∀ tb : List (String × JVal), ∀ k, Dict.get? (tb.foldl (fun p kv => dflt p kv.1 kv.2) u') k =
      (Spec.handed listing (name.map Char.toLower) minDp p k).or
        (Spec.lookup (Spec.common ++ ([("nx", .int 101), ("ny", .int 101), ("multiplier", .int 1)] ++ tb)) k) := by
    intro tb k
    rw [foldl_dflt_get, hu, ← List.append_assoc, lookup_append (_ ++ _), Option.or_assoc]
  simp only [Dict.get, hn, bind, Except.bind, pure, Except.pure, isText_str] at hd
  have hne : ∀ a b : List Char, a ≠ b → name.map Char.toLower = a → name.map Char.toLower ≠ b := fun a b hab e => e ▸ hab
  by_cases h4 : name.map Char.toLower = "checkerboard".toList
  · simp only [h4, decide_true, if_true] at hd
    injection hd with hd
    rw [← hd, if_neg (fun hh => hne _ _ (by decide) h4 hh.1)]
    have := tail [("gridsize", .arr [.int 1, .int 1])] k
    unfold Spec.shapeTable
    rw [if_neg (hne _ _ (by decide) h4), if_neg (hne _ _ (by decide) h4), if_neg (hne _ _ (by decide) h4), if_pos h4]
    exact this
  · simp only [h4, decide_false, Bool.false_eq_true, if_false] at hd
    injection hd with hd
    rw [← hd]
    unfold namedDefaults
    simp only [isText_str]
    by_cases h1 : name.map Char.toLower = "circle".toList
    · rw [if_neg (fun hh => hne _ _ (by decide) h1 hh.1)]
      have := tail [("radius", .int 1), ("centre", .arr [.null, .null])] k
      unfold Spec.shapeTable
      rw [if_pos h1]
      simp only [h1, decide_true, if_true] at this ⊢
      exact this
    · simp only [h1, decide_false, Bool.false_eq_true, if_false]
      by_cases h2 : name.map Char.toLower = "rectangle".toList
      · simp only [h2, decide_true, if_true, true_and]
        rw [← h2]
        have hw : ∀ k, Dict.get? (dflt u' "width" (.int 1)) k = (Spec.handed listing (name.map Char.toLower) minDp p k).or
            (Spec.lookup (Spec.common ++ ([("nx", .int 101), ("ny", .int 101), ("multiplier", .int 1)] ++ [("width", .int 1)])) k) :=
          fun k => tail [("width", .int 1)] k
        have hh : Dict.get? (dflt u' "width" (.int 1)) "height" = Spec.given listing p "height" := by
          rw [hw]
          have : Spec.lookup (Spec.common ++ ([("nx", .int 101), ("ny", .int 101), ("multiplier", .int 1)] ++ [("width", .int 1)])) "height" = none := by rfl
          rw [this, Option.or_none]
          rfl
        unfold Spec.shapeTable
        rw [if_neg h1, if_pos h2, dflt_get, misDefault_get, hh, hw]
        by_cases hk : Spec.given listing p "height" = none ∧ k = "width"
        · rw [if_pos hk, if_pos hk]; rfl
        · rw [if_neg hk, if_neg hk, Option.or_assoc]
          congr 1
          rw [show (if "centre" = k then some (JVal.arr [.null, .null]) else none) = Spec.lookup [("centre", .arr [.null, .null])] k from rfl,
            ← lookup_append]
          rfl
      · simp only [h2, decide_false, Bool.false_eq_true, if_false, false_and]
        by_cases h3 : name.map Char.toLower = "gradient".toList
        · have := tail [("vertical", .bool true)] k
          unfold Spec.shapeTable
          rw [if_neg h1, if_neg h2, if_pos h3]
          simp only [h3, decide_true, if_true] at this ⊢
          exact this
        · simp only [h3, decide_false, Bool.false_eq_true, if_false]
          have := tail [] k
          unfold Spec.shapeTable
          rw [if_neg h1, if_neg h2, if_neg h3, if_neg h4]
          exact this

theorem mem_of_table {n cls : String} {req : List String} : ∀ {t : List (String × String × List String)},
    Dict.get? t n = some (cls, req) → (n, cls, req) ∈ t
  | [], h => by cases h
  | (k, v) :: t, h => by
    unfold Dict.get? at h
    split at h
    · next e => cases h; rw [e]; exact List.mem_cons_self
    · exact List.mem_cons_of_mem _ (mem_of_table h)

/-- C97: the vector shapes have no defaults but the numbers of points: none of a radius, a centre, a width, a height and a direction, and where
one of the two factors is missing it stays so, and a parameter `multiplier`, which is not used, is set to 1. -/
theorem C97_vector_shape (listing : List Char → List (List Char)) (name p' : _) (p : Dict String JVal) (minDp : JVal)
    (h : complete listing (.str name) (.obj p) minDp = .ok ("VectorShapeDataLoader", p')) (k : String) :
    Dict.get? p' k =
      if k = "multiplier" ∧ (Spec.given listing p "multiplier_u" = none ∨ Spec.given listing p "multiplier_v" = none) then some (.int 1)
      else (Spec.handed listing (name.map Char.toLower) minDp p k).or
        (Spec.lookup (Spec.common ++ [("nx", .int 101), ("ny", .int 101)]) k) := by
  obtain ⟨s, p0, q, req, e1, e2, ht, htab, hreq, hd⟩ := (complete_ok_iff _ _ _ _ _ _).1 h
  cases e1; cases e2
  generalize hq : Dict.set (Dict.set q "dataloader_name" (.str (name.map Char.toLower))) "min_dp" minDp = r at hreq hd
  have hr : ∀ k, Dict.get? r k = Spec.handed listing (name.map Char.toLower) minDp p k := fun k => by rw [← hq, handed_get ht]
  have hbase : ∀ k, Dict.get? (baseDefaults "VectorShapeDataLoader" r) k = (Dict.get? r k).or (Spec.lookup Spec.common k) := fun k =>
    baseDefaults_get _ _ _ (by rw [hr, handed_name]; rfl) (by rw [hr, handed_min]; rfl)
  simp only [classDefaults, String.reduceEq, if_false, if_true] at hd
  unfold vectorShapeDefaults at hd
  generalize hb : baseDefaults "VectorShapeDataLoader" r = u at hd hbase
  have hs : dflt (dflt u "nx" (.int 101)) "ny" (.int 101) =
      ([("nx", .int 101), ("ny", .int 101)] : List (String × JVal)).foldl (fun p kv => dflt p kv.1 kv.2) u := rfl
  simp only [hs] at hd
  generalize hu' : ([("nx", .int 101), ("ny", .int 101)] : List (String × JVal)).foldl (fun p kv => dflt p kv.1 kv.2) u = u' at hd
  have hu : ∀ k, Dict.get? u' k = (Spec.handed listing (name.map Char.toLower) minDp p k).or
      (Spec.lookup (Spec.common ++ [("nx", .int 101), ("ny", .int 101)]) k) := by
    intro k
    rw [← hu', foldl_dflt_get, hbase, lookup_append, Option.or_assoc, hr]
  have hmu : Dict.get? u' "multiplier_u" = Spec.given listing p "multiplier_u" := by
    rw [hu]
    have : Spec.lookup (Spec.common ++ [("nx", .int 101), ("ny", .int 101)]) "multiplier_u" = none := by rfl
    rw [this, Option.or_none]; rfl
  have hmv : Dict.get? u' "multiplier_v" = Spec.given listing p "multiplier_v" := by
    rw [hu]
    have : Spec.lookup (Spec.common ++ [("nx", .int 101), ("ny", .int 101)]) "multiplier_v" = none := by rfl
    rw [this, Option.or_none]; rfl
  have hm : ∀ k, Dict.get? (misDefault (misDefault u' "multiplier_u" "multiplier") "multiplier_v" "multiplier") k =
      if k = "multiplier" ∧ (Spec.given listing p "multiplier_u" = none ∨ Spec.given listing p "multiplier_v" = none) then some (.int 1)
      else Dict.get? u' k := by
    intro k
    have hv : Dict.get? (misDefault u' "multiplier_u" "multiplier") "multiplier_v" = Spec.given listing p "multiplier_v" := by
      rw [misDefault_get, if_neg (fun h => absurd h.2 (by decide)), hmv]
    rw [misDefault_get, hv, misDefault_get, hmu]
    by_cases hk : k = "multiplier"
    · by_cases g1 : Spec.given listing p "multiplier_u" = none <;> by_cases g2 : Spec.given listing p "multiplier_v" = none <;> simp [hk, g1, g2]
    · simp [hk]
  have hn : Dict.get? (misDefault (misDefault u' "multiplier_u" "multiplier") "multiplier_v" "multiplier") "dataloader_name" =
      some (.str (name.map Char.toLower)) := by
    rw [hm, if_neg (fun h => absurd h.1 (by decide)), hu, handed_name]; rfl
  simp only [Dict.get, hn, bind, Except.bind, pure, Except.pure] at hd
  injection hd with hd
  have hnames : ∀ x ∈ Factory.table, x.2.1 = "VectorShapeDataLoader" →
      x.1.toList ≠ "circle".toList ∧ x.1.toList ≠ "rectangle".toList ∧ x.1.toList ≠ "gradient".toList := by decide +kernel
  obtain ⟨n1, n2, n3⟩ := hnames _ (mem_of_table htab) rfl
  simp only [String.toList_ofList] at n1 n2 n3
  unfold namedDefaults at hd
  simp only [isText_str, n1, n2, n3, decide_false, Bool.false_eq_true, if_false] at hd
  rw [← hd, hm, hu]

theorem splitComma_ne (l : List Char) : splitComma l ≠ [] := by
  cases l with
  | nil => simp [splitComma]
  | cons c l =>
    unfold splitComma
    split
    · simp
    · split <;> simp

theorem splitComma_zero (l : List Char) : (splitComma l)[0]? = some (l.takeWhile (· ≠ ',')) := by
  induction l with
  | nil => rfl
  | cons c l ih =>
    unfold splitComma
    by_cases h : c = ','
    · rw [if_pos h, List.takeWhile_cons_of_neg (by simp [h])]; rfl
    · rw [if_neg h, List.takeWhile_cons_of_pos (by simp [h])]
      cases hs : splitComma l with
      | nil => exact absurd hs (splitComma_ne l)
      | cons w ws => rw [hs] at ih; simp only [List.getElem?_cons_zero, Option.some.injEq] at ih ⊢; rw [ih]

theorem splitComma_one (l : List Char) :
    (splitComma l)[1]? = if ',' ∈ l then some ((l.dropWhile (· ≠ ',')).tail.takeWhile (· ≠ ',')) else none := by
  induction l with
  | nil => rfl
  | cons c l ih =>
    unfold splitComma
    by_cases h : c = ','
    · rw [if_pos h, if_pos (by rw [h]; exact List.mem_cons_self), List.dropWhile_cons_of_neg (by simp [h])]
      simp only [List.getElem?_cons_succ, List.tail_cons]
      exact splitComma_zero l
    · rw [if_neg h, List.dropWhile_cons_of_pos (by simp [h])]
      have e : (',' ∈ c :: l) = (',' ∈ l) := by
        rw [List.mem_cons, eq_iff_iff]; exact ⟨fun h' => h'.resolve_left (fun e => h e.symm), Or.inr⟩
      simp only [e]
      cases hs : splitComma l with
      | nil => exact absurd hs (splitComma_ne l)
      | cons w ws => rw [hs] at ih; simpa using ih

theorem splitDefault_ok {p q : Dict String JVal} {k : String} {i : ℕ} (h : splitDefault p k i = .ok q) :
    ((Dict.get? p k).isSome ∧ q = p) ∨
      (Dict.get? p k = none ∧ ∃ l w, Dict.get? p "data_name" = some (.str l) ∧ (splitComma l)[i]? = some w ∧ q = Dict.set p k (.str w)) := by
  unfold splitDefault at h
  split at h
  · next v hv => injection h with h; exact Or.inl ⟨by rw [hv]; rfl, h.symm⟩
  · next hv =>
    refine Or.inr ⟨hv, ?_⟩
    cases hd : Dict.get? p "data_name" with
    | none => simp [Dict.get, hd, bind, Except.bind] at h
    | some v =>
      simp only [Dict.get, hd, bind, Except.bind] at h
      cases v with
      | str l =>
        simp only [asStr] at h
        split at h
        · next w hw =>
          simp only [pure, Except.pure] at h
          injection h with h
          exact ⟨l, w, rfl, hw, h.symm⟩
        · cases h
      | _ => simp [asStr] at h

/-- C97: vector random fields have a seed, a size, an exponent and limits, and, unless they are given, the two parts of the name of the data as names
of the components; without a second part they are refused. -/
theorem C97_vector_grf (listing : List Char → List (List Char)) (name p' : _) (p : Dict String JVal) (minDp : JVal)
    (h : complete listing (.str name) (.obj p) minDp = .ok ("VectorGRFDataLoader", p')) :
    (∀ k, k ≠ "vec_x" → k ≠ "vec_y" → Dict.get? p' k = if k = "data_name" then some (Spec.nameOr (Spec.given listing p k) "uC,vC")
      else (Spec.handed listing (name.map Char.toLower) minDp p k).or (Spec.lookup (Spec.common ++
        [("seed", .null), ("size", .int 512), ("alpha", .int 3), ("min", .int 0), ("max", .int 10)]) k)) ∧
    (∀ v, Spec.given listing p "vec_x" = some v → Dict.get? p' "vec_x" = some v) ∧
    (∀ v, Spec.given listing p "vec_y" = some v → Dict.get? p' "vec_y" = some v) ∧
    (Spec.given listing p "vec_x" = none → ∃ l, Spec.nameOr (Spec.given listing p "data_name") "uC,vC" = .str l ∧
      Dict.get? p' "vec_x" = some (.str (l.takeWhile (· ≠ ',')))) ∧
    (Spec.given listing p "vec_y" = none → ∃ l, Spec.nameOr (Spec.given listing p "data_name") "uC,vC" = .str l ∧ ',' ∈ l ∧
      Dict.get? p' "vec_y" = some (.str ((l.dropWhile (· ≠ ',')).tail.takeWhile (· ≠ ',')))) := by
  obtain ⟨s, p0, q, req, e1, e2, ht, htab, hreq, hd⟩ := (complete_ok_iff _ _ _ _ _ _).1 h
  cases e1; cases e2
  generalize hq : Dict.set (Dict.set q "dataloader_name" (.str (name.map Char.toLower))) "min_dp" minDp = r at hreq hd
  have hr : ∀ k, Dict.get? r k = Spec.handed listing (name.map Char.toLower) minDp p k := fun k => by rw [← hq, handed_get ht]
  have hbase : ∀ k, Dict.get? (baseDefaults "VectorGRFDataLoader" r) k = (Dict.get? r k).or (Spec.lookup Spec.common k) := fun k =>
    baseDefaults_get _ _ _ (by rw [hr, handed_name]; rfl) (by rw [hr, handed_min]; rfl)
  simp only [classDefaults, String.reduceEq, if_false, if_true] at hd
  unfold vectorGrfDefaults at hd
  generalize hb : baseDefaults "VectorGRFDataLoader" r = u at hd hbase
  have hs : dflt (dflt (dflt u "seed" .null) "size" (.int 512)) "alpha" (.int 3) =
      ([("seed", .null), ("size", .int 512), ("alpha", .int 3)] : List (String × JVal)).foldl (fun p kv => dflt p kv.1 kv.2) u := rfl
  simp only [hs] at hd
  generalize hu' : ([("seed", .null), ("size", .int 512), ("alpha", .int 3)] : List (String × JVal)).foldl (fun p kv => dflt p kv.1 kv.2) u = u' at hd
  have hu : ∀ k, Dict.get? u' k = (Spec.handed listing (name.map Char.toLower) minDp p k).or
      (Spec.lookup (Spec.common ++ [("seed", .null), ("size", .int 512), ("alpha", .int 3)]) k) := by
    intro k
    rw [← hu', foldl_dflt_get, hbase, lookup_append, Option.or_assoc, hr]
  have hdn : Dict.get? u' "data_name" = (Spec.given listing p "data_name").or (some .null) := by rw [hu]; rfl
  have hgiv : ∀ k, k ≠ "min_dp" → k ≠ "dataloader_name" → Spec.lookup (Spec.common ++ [("seed", .null), ("size", .int 512), ("alpha", .int 3)]) k = none →
      Dict.get? u' k = Spec.given listing p k := by
    intro k k1 k2 hk
    rw [hu, hk, Option.or_none]
    unfold Spec.handed
    rw [if_neg k1, if_neg k2]
  have hx := hgiv "vec_x" (by decide) (by decide) rfl
  have hy := hgiv "vec_y" (by decide) (by decide) rfl
  cases hv : nameDefault u' "uC,vC" with
  | error e => simp [hv, bind, Except.bind] at hd
  | ok v =>
    have gv := nameDefault_get _ hdn hv
    simp only [hv, bind, Except.bind] at hd
    cases h1 : splitDefault v "vec_x" 0 with
    | error e => simp [h1] at hd
    | ok v1 =>
      simp only [h1] at hd
      cases h2 : splitDefault v1 "vec_y" 1 with
      | error e => simp [h2] at hd
      | ok v2 =>
        simp only [h2, pure, Except.pure] at hd
        injection hd with hd
        have hfin : ∀ k, Dict.get? p' k = (Dict.get? v2 k).or (Spec.lookup [("min", .int 0), ("max", .int 10)] k) := by
          intro k
          rw [← hd]
          exact foldl_dflt_get [("min", .int 0), ("max", .int 10)] v2 k
        have s1 := splitDefault_ok h1
        have s2 := splitDefault_ok h2
        have o1 : ∀ k, k ≠ "vec_x" → Dict.get? v1 k = Dict.get? v k := by
          intro k hk
          rcases s1 with ⟨-, e⟩ | ⟨-, l, w, -, -, e⟩ <;> rw [e]
          rw [Dict.get?_set, if_neg (Ne.symm hk)]
        have o2 : ∀ k, k ≠ "vec_y" → Dict.get? v2 k = Dict.get? v1 k := by
          intro k hk
          rcases s2 with ⟨-, e⟩ | ⟨-, l, w, -, -, e⟩ <;> rw [e]
          rw [Dict.get?_set, if_neg (Ne.symm hk)]
        have vx : Dict.get? v "vec_x" = Spec.given listing p "vec_x" := by rw [gv, if_neg (by decide), hx]
        have vy : Dict.get? v1 "vec_y" = Spec.given listing p "vec_y" := by rw [o1 _ (by decide), gv, if_neg (by decide), hy]
        have vd : Dict.get? v "data_name" = some (Spec.nameOr (Spec.given listing p "data_name") "uC,vC") := by rw [gv, if_pos rfl]
        refine ⟨?_, ?_, ?_, ?_, ?_⟩
        · intro k hkx hky
          rw [hfin, o2 k hky, o1 k hkx, gv]
          by_cases hk : k = "data_name"
          · subst hk; rw [if_pos rfl, if_pos rfl]; rfl
          · rw [if_neg hk, if_neg hk, hu, Option.or_assoc, ← lookup_append]; rfl
        · intro x hgx
          rw [hfin, o2 _ (by decide)]
          rcases s1 with ⟨-, e⟩ | ⟨e, -⟩
          · rw [e, vx, hgx]; rfl
          · rw [vx, hgx] at e; cases e
        · intro x hgx
          rw [hfin]
          rcases s2 with ⟨-, e⟩ | ⟨e, -⟩
          · rw [e, vy, hgx]; rfl
          · rw [vy, hgx] at e; cases e
        · intro hgx
          rcases s1 with ⟨e, -⟩ | ⟨-, l, w, hl, hw, e⟩
          · rw [vx, hgx] at e; cases e
          · rw [vd] at hl
            refine ⟨l, Option.some.inj hl, ?_⟩
            rw [splitComma_zero] at hw
            cases hw
            rw [hfin, o2 _ (by decide), e, Dict.get?_set, if_pos rfl]; rfl
        · intro hgx
          rcases s2 with ⟨e, -⟩ | ⟨-, l, w, hl, hw, e⟩
          · rw [vy, hgx] at e; cases e
          · rw [o1 _ (by decide), vd] at hl
            rw [splitComma_one] at hw
            split at hw
            · next hc =>
              refine ⟨l, Option.some.inj hl, hc, ?_⟩
              cases hw
              rw [hfin, e, Dict.get?_set, if_pos rfl]; rfl
            · cases hw

/-- What a class demands of its parameters beyond their presence. -/
def Spec.Fitting (cls : String) (given : String → Option JVal) : Prop :=
  (cls = "AMSRDataLoader" → ∃ h, given "hemisphere" = some (.str h) ∧ (h.map Char.toLower = "north".toList ∨ h.map Char.toLower = "south".toList)) ∧
  (cls = "VectorGRFDataLoader" → ((given "vec_x").isSome ∨ ∃ l, Spec.nameOr (given "data_name") "uC,vC" = .str l) ∧
    ((given "vec_y").isSome ∨ ∃ l, Spec.nameOr (given "data_name") "uC,vC" = .str l ∧ ',' ∈ l))

theorem splitDefault_given {p : Dict String JVal} {k : String} (i : ℕ) (h : (Dict.get? p k).isSome) : splitDefault p k i = .ok p := by
  obtain ⟨v, hv⟩ := Option.isSome_iff_exists.1 h
  unfold splitDefault
  rw [hv]

theorem splitDefault_split {p : Dict String JVal} {k : String} {i : ℕ} {l w : List Char} (hd : Dict.get? p "data_name" = some (.str l))
    (hw : (splitComma l)[i]? = some w) : ∃ q, splitDefault p k i = .ok q := by
  unfold splitDefault
  split
  · exact ⟨_, rfl⟩
  · simp only [Dict.get, hd, bind, Except.bind, asStr, hw, pure, Except.pure]
    exact ⟨_, rfl⟩

/-- C97: parameters are accepted exactly if the folder is a text (unless a file is given), the loader is known, the parameters it requires are given, and, for
AMSR data, the hemisphere is north or south in any case, and, for vector random fields, the names of the components are given or in the name of the
data. -/
theorem C97_accepted (listing : List Char → List (List Char)) (name : List Char) (p : Dict String JVal) (minDp : JVal) :
    (∃ r, complete listing (.str name) (.obj p) minDp = .ok r) ↔
      ((Dict.get? p "file").isSome ∨ ∀ v, Dict.get? p "folder" = some v → ∃ f, v = .str f) ∧
      ∃ cls req, Dict.get? Factory.table (String.ofList (name.map Char.toLower)) = some (cls, req) ∧ (∀ k ∈ req, (Spec.given listing p k).isSome) ∧
        Spec.Fitting cls (Spec.given listing p) := by
  have hreqs : ∀ x ∈ Factory.table, ∀ k ∈ x.2.2, k ≠ "min_dp" ∧ k ≠ "dataloader_name" := by decide +kernel
  constructor
  · rintro ⟨⟨cls, p'⟩, h⟩
    obtain ⟨s, p0, q, req, e1, e2, ht, htab, hreq, hd⟩ := (complete_ok_iff _ _ _ _ _ _).1 h
    cases e1; cases e2
    refine ⟨(translate_ok_iff listing p).1 ⟨q, ht⟩, cls, req, htab, ?_, ?_, ?_⟩
    · intro k hk
      have := hreq k hk
      obtain ⟨n1, n2⟩ := hreqs _ (mem_of_table htab) k hk
      rw [handed_get ht] at this
      unfold Spec.handed at this
      rwa [if_neg n1, if_neg n2] at this
    · rintro rfl
      obtain ⟨hem, north, hg, hn, -⟩ := C97_amsr _ _ _ _ _ h
      refine ⟨hem, hg, ?_⟩
      cases north
      · exact Or.inr hn
      · exact Or.inl hn
    · rintro rfl
      obtain ⟨-, -, -, hx, hy⟩ := C97_vector_grf _ _ _ _ _ h
      constructor
      · cases hv : Spec.given listing p "vec_x" with
        | some v => exact Or.inl rfl
        | none => obtain ⟨l, hl, -⟩ := hx hv; exact Or.inr ⟨l, hl⟩
      · cases hv : Spec.given listing p "vec_y" with
        | some v => exact Or.inl rfl
        | none => obtain ⟨l, hl, hc, -⟩ := hy hv; exact Or.inr ⟨l, hl, hc⟩
  · rintro ⟨hf, cls, req, htab, hreq, ham, hgrf⟩
    obtain ⟨q, ht⟩ := (translate_ok_iff listing p).2 hf
    have hr : ∀ k, Dict.get? (Dict.set (Dict.set q "dataloader_name" (.str (name.map Char.toLower))) "min_dp" minDp) k =
      Spec.handed listing (name.map Char.toLower) minDp p k := fun k => handed_get ht _ _ _
    have hreq' : ∀ k ∈ req, (Dict.get? (Dict.set (Dict.set q "dataloader_name" (.str (name.map Char.toLower))) "min_dp" minDp) k).isSome := by
      intro k hk
      obtain ⟨n1, n2⟩ := hreqs _ (mem_of_table htab) k hk
      rw [hr]
      unfold Spec.handed
      rw [if_neg n1, if_neg n2]
      exact hreq k hk
    suffices hs : ∃ p', classDefaults cls (Dict.set (Dict.set q "dataloader_name" (.str (name.map Char.toLower))) "min_dp" minDp) = .ok p' by
      obtain ⟨p', hp'⟩ := hs
      exact ⟨(cls, p'), (complete_ok_iff _ _ _ _ _ _).2 ⟨name, p, q, req, rfl, rfl, ht, htab, hreq', hp'⟩⟩
    generalize Dict.set (Dict.set q "dataloader_name" (.str (name.map Char.toLower))) "min_dp" minDp = r at *
    have hbase : ∀ c k, Dict.get? (baseDefaults c r) k = (Spec.handed listing (name.map Char.toLower) minDp p k).or (Spec.lookup Spec.common k) :=
      fun c k => by rw [baseDefaults_get _ _ _ (by rw [hr, handed_name]; rfl) (by rw [hr, handed_min]; rfl), hr]
    have hgivb : ∀ c k, k ≠ "min_dp" → k ≠ "dataloader_name" → Spec.lookup Spec.common k = none → Dict.get? (baseDefaults c r) k = Spec.given listing p k := by
      intro c k k1 k2 hk
      rw [hbase, hk, Option.or_none]
      unfold Spec.handed
      rw [if_neg k1, if_neg k2]
    have keep : ∀ (p : Dict String JVal) (k a : String) (v : JVal), a ≠ k → Dict.get? (dflt p a v) k = Dict.get? p k := by
      intro p k a v hak
      rw [dflt_get, if_neg hak, Option.or_none]
    have hname : ∀ c, ∃ v, Dict.get? (baseDefaults c r) "data_name" = some v := by
      intro c
      rw [hbase]
      cases Spec.handed listing (name.map Char.toLower) minDp p "data_name" with
      | some v => exact ⟨v, rfl⟩
      | none => exact ⟨_, rfl⟩
    have hln : ∀ c, Dict.get? (baseDefaults c r) "dataloader_name" = some (.str (name.map Char.toLower)) := by
      intro c; rw [hbase, handed_name]; rfl
    unfold classDefaults
    by_cases c1 : cls = "ScalarGRFDataLoader"
    · rw [if_pos c1]
      have hbin : (Spec.given listing p "binary").isSome := by
        have htr : ∀ x ∈ Factory.table, x.2.1 = "ScalarGRFDataLoader" → "binary" ∈ x.2.2 := by decide +kernel
        exact hreq "binary" (htr _ (mem_of_table htab) c1)
      obtain ⟨v, hv⟩ := Option.isSome_iff_exists.1 hbin
      obtain ⟨dn, hdn⟩ := hname cls
      have hb' : ∀ k, k ≠ "seed" → k ≠ "size" → k ≠ "alpha" →
          Dict.get? (dflt (dflt (dflt (baseDefaults cls r) "seed" .null) "size" (.int 512)) "alpha" (.int 3)) k = Dict.get? (baseDefaults cls r) k := by
        intro k k1 k2 k3
        rw [keep _ _ _ _ (Ne.symm k3), keep _ _ _ _ (Ne.symm k2), keep _ _ _ _ (Ne.symm k1)]
      have hb2 : Dict.get? (dflt (dflt (dflt (baseDefaults cls r) "seed" .null) "size" (.int 512)) "alpha" (.int 3)) "binary" = some v := by
        rw [hb' _ (by decide) (by decide) (by decide), hgivb _ _ (by decide) (by decide) rfl, hv]
      have hd2 : (Dict.get? (dflt (dflt (dflt (baseDefaults cls r) "seed" .null) "size" (.int 512)) "alpha" (.int 3)) "data_name").isSome := by
        rw [hb' _ (by decide) (by decide) (by decide), hdn]; rfl
      unfold grfDefaults
      simp only [Dict.get, hb2, bind, Except.bind]
      split
      · obtain ⟨w, hw⟩ := nameDefault_ok hd2 "binary_data"
        simp only [hw]; exact ⟨_, rfl⟩
      · obtain ⟨w, hw⟩ := nameDefault_ok hd2 "scalar_data"
        simp only [hw]; exact ⟨_, rfl⟩
    · rw [if_neg c1]
      by_cases c2 : cls = "AMSRDataLoader"
      · rw [if_pos c2]
        obtain ⟨h, hh, hc⟩ := ham c2
        have hh2 : Dict.get? (baseDefaults cls r) "hemisphere" = some (.str h) := by rw [hgivb _ _ (by decide) (by decide) rfl, hh]
        unfold amsrDefaults
        simp only [Dict.get, hh2, bind, Except.bind, asStr]
        split
        · exact ⟨_, rfl⟩
        · next hn => rw [if_pos (hc.resolve_left hn)]; exact ⟨_, rfl⟩
      · rw [if_neg c2]
        by_cases c3 : cls = "ShapeDataLoader"
        · rw [if_pos c3]
          have hn : Dict.get? (dflt (dflt (dflt (baseDefaults cls r) "nx" (.int 101)) "ny" (.int 101)) "multiplier" (.int 1)) "dataloader_name" =
              some (.str (name.map Char.toLower)) := by
            rw [keep _ _ _ _ (by decide), keep _ _ _ _ (by decide), keep _ _ _ _ (by decide), hln]
          unfold shapeDefaults
          simp only [Dict.get, hn, bind, Except.bind]
          split <;> exact ⟨_, rfl⟩
        · rw [if_neg c3]
          by_cases c4 : cls = "VectorGRFDataLoader"
          · rw [if_pos c4]
            obtain ⟨hx, hy⟩ := hgrf c4
            have hb' : ∀ k, k ≠ "seed" → k ≠ "size" → k ≠ "alpha" →
                Dict.get? (dflt (dflt (dflt (baseDefaults cls r) "seed" .null) "size" (.int 512)) "alpha" (.int 3)) k = Dict.get? (baseDefaults cls r) k := by
              intro k k1 k2 k3
              rw [keep _ _ _ _ (Ne.symm k3), keep _ _ _ _ (Ne.symm k2), keep _ _ _ _ (Ne.symm k1)]
            have hdn : Dict.get? (dflt (dflt (dflt (baseDefaults cls r) "seed" .null) "size" (.int 512)) "alpha" (.int 3)) "data_name" =
                (Spec.given listing p "data_name").or (some .null) := by
              rw [hb' _ (by decide) (by decide) (by decide), hbase]; rfl
            have hdn' : (Dict.get? (dflt (dflt (dflt (baseDefaults cls r) "seed" .null) "size" (.int 512)) "alpha" (.int 3)) "data_name").isSome := by
              rw [hdn]; cases Spec.given listing p "data_name" <;> rfl
            obtain ⟨w, hw⟩ := nameDefault_ok hdn' "uC,vC"
            have gw := nameDefault_get _ hdn hw
            have gx : Dict.get? w "vec_x" = Spec.given listing p "vec_x" := by
              rw [gw, if_neg (by decide), hb' _ (by decide) (by decide) (by decide), hgivb _ _ (by decide) (by decide) rfl]
            have gy : Dict.get? w "vec_y" = Spec.given listing p "vec_y" := by
              rw [gw, if_neg (by decide), hb' _ (by decide) (by decide) (by decide), hgivb _ _ (by decide) (by decide) rfl]
            have gd : Dict.get? w "data_name" = some (Spec.nameOr (Spec.given listing p "data_name") "uC,vC") := by rw [gw, if_pos rfl]
            have s1 : ∃ w1, splitDefault w "vec_x" 0 = .ok w1 := by
              rcases hx with hx | ⟨l, hl⟩
              · exact ⟨w, splitDefault_given 0 (by rw [gx]; exact hx)⟩
              · exact splitDefault_split (by rw [gd, hl]) (splitComma_zero l)
            obtain ⟨w1, hw1⟩ := s1
            have o1 : ∀ k, k ≠ "vec_x" → Dict.get? w1 k = Dict.get? w k := by
              intro k hk
              rcases splitDefault_ok hw1 with ⟨-, e⟩ | ⟨-, l, w, -, -, e⟩ <;> rw [e]
              rw [Dict.get?_set, if_neg (Ne.symm hk)]
            have s2 : ∃ w2, splitDefault w1 "vec_y" 1 = .ok w2 := by
              rcases hy with hy | ⟨l, hl, hc⟩
              · exact ⟨w1, splitDefault_given 1 (by rw [o1 _ (by decide), gy]; exact hy)⟩
              · exact splitDefault_split (by rw [o1 _ (by decide), gd, hl]) (by rw [splitComma_one, if_pos hc])
            obtain ⟨w2, hw2⟩ := s2
            unfold vectorGrfDefaults
            simp only [hw, hw1, hw2, bind, Except.bind]
            exact ⟨_, rfl⟩
          · rw [if_neg c4]
            by_cases c5 : cls = "VectorShapeDataLoader"
            · rw [if_pos c5]
              have hn : (Dict.get? (misDefault (misDefault (dflt (dflt (baseDefaults cls r) "nx" (.int 101)) "ny" (.int 101)) "multiplier_u" "multiplier")
                  "multiplier_v" "multiplier") "dataloader_name") = some (.str (name.map Char.toLower)) := by
                rw [misDefault_get, if_neg (fun h => absurd h.2 (by decide)), misDefault_get, if_neg (fun h => absurd h.2 (by decide)),
                  keep _ _ _ _ (by decide), keep _ _ _ _ (by decide), hln]
              unfold vectorShapeDefaults
              simp only [Dict.get, hn, bind, Except.bind]
              exact ⟨_, rfl⟩
            · rw [if_neg c5]
              split
              · exact ⟨_, rfl⟩
              · split <;> exact ⟨_, rfl⟩

/-- A folder with two files. -/
def exListing (f : List Char) : List (List Char) := [f ++ "/a.nc".toList, f ++ "/b.nc".toList]

/-- Parameters of each kind to which the theorems apply: a plain loader with a folder, a random field, AMSR data, a rectangle without height, a vector random field
and a vector circle, and a look-up table. -/
example : (complete exListing (.str "GEBCO".toList) (.obj [("folder", text "bathymetry"), ("data_name", text "elevation"), ("min_dp", .int 2)]) (.int 7)).toOption.map Prod.fst =
      some "GEBCODataLoader" ∧
    (complete exListing (.str "binary_grf".toList) (.obj [("binary", .bool true)]) (.int 5)).toOption.map Prod.fst = some "ScalarGRFDataLoader" ∧
    (complete exListing (.str "amsr".toList) (.obj [("file", text "f.nc"), ("hemisphere", text "South"), ("x_col", text "lon")]) (.int 5)).toOption.map Prod.fst =
      some "AMSRDataLoader" ∧
    (complete exListing (.str "rectangle".toList) (.obj [("width", .int 4)]) (.int 5)).toOption.map Prod.fst = some "ShapeDataLoader" ∧
    (complete exListing (.str "vector_grf".toList) (.obj [("data_name", text "u,v")]) (.int 5)).toOption.map Prod.fst = some "VectorGRFDataLoader" ∧
    (complete exListing (.str "vector_circle".toList) (.obj [("radius", .int 2)]) (.int 5)).toOption.map Prod.fst = some "VectorShapeDataLoader" ∧
    (complete exListing (.str "lut_csv".toList) (.obj [("file", text "f.csv")]) (.int 5)).toOption.map Prod.fst = some "LutCSV" := by
  refine ⟨rfl, rfl, rfl, rfl, rfl, rfl, rfl⟩

/-- Check of `C97_shape`: the given width 4 of a rectangle without height becomes 1. -/
example : ((complete exListing (.str "rectangle".toList) (.obj [("width", .int 4)]) (.int 5)).toOption.map
    (fun r => (Dict.get? r.2 "width", Dict.get? r.2 "height"))) = some (some (.int 1), none) := rfl

end Verif
