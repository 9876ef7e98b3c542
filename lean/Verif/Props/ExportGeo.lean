import Verif.Model.Export
import Verif.Props.ErrorStats
import Verif.Props.EnvJson
import Mathlib.Tactic.Tauto

/-!
# C87: the GeoJSON export
-/

namespace Verif
open Spec Export

/-- What becomes of the value of a cell under a name, `none` where there is no value.  `flags` tells that every cell has a
boolean under that name. -/
inductive Spec.GeoValue (flags : Prop) : Option XVal → Option XVal → Prop
  | missing : GeoValue flags none none
  | nan : GeoValue flags (some (.flt .nan)) none
  | inf (s : Bool) : GeoValue flags (some (.flt (.inf s))) none
  | num (q : ℚ) : GeoValue flags (some (.flt (.fin q))) (some (.flt (.fin q)))
  | text (s : String) : GeoValue flags (some (.str s)) (some (.str s))
  | shape (p : Boundary.Poly) : GeoValue flags (some (.wkt p)) (some (.wkt p))
  | yes : GeoValue flags (some (.bool true)) (some (.flt (.fin 1)))
  | noFlag (h : flags) : GeoValue flags (some (.bool false)) none
  | no (h : ¬ flags) : GeoValue flags (some (.bool false)) (some (.flt (.fin 0)))
  | list (l : List ℚ) (h : l ≠ []) : GeoValue flags (some (.lst (l.map .fin))) (some (.flt (.fin (l.sum / l.length))))
  | listNone (l : List Flt) (h : l = [] ∨ ∃ x ∈ l, ∀ q, x ≠ .fin q) : GeoValue flags (some (.lst l)) none

/-- The names under which something is written: those of any cell but the geometry and the sizes, and of a single layer only
its name and the id. -/
def Spec.Shown (rows : List XRow) (only : Option String) (k : String) : Prop :=
  (∃ r ∈ rows, k ∈ r.map Prod.fst) ∧ k ≠ "geometry" ∧ k ≠ "cx" ∧ k ≠ "cy" ∧ k ≠ "dcx" ∧ k ≠ "dcy" ∧ ∀ d, only = some d → k = d ∨ k = "id"
  
/-- A text, also that of a geometry. -/
def Spec.IsText (v : XVal) : Prop := (∃ s, v = .str s) ∨ ∃ p, v = .wkt p

/-- No text among the values of a name; or, where texts have a dtype of their own, nothing but texts. -/
def Spec.Exportable (strings : Bool) (rows : List XRow) (k : String) : Prop :=
  (∀ r ∈ rows, ∀ v, Dict.get? r k = some v → ¬ IsText v) ∨
  (strings = true ∧ ∀ r ∈ rows, ∀ v, Dict.get? r k = some v → IsText v ∨ v = .flt .nan)

/-- The layer that the file of parameters names. -/
def Spec.Layer (repr : JVal → String) (params : Option (Py JVal)) (only : Option String) : Prop :=
  (params = none ∧ only = none) ∨ ∃ d v, params = some (.ok (.obj d)) ∧ Dict.get? d "data_name" = some v ∧
    ((∃ s, v = .str s ∧ only = some (String.ofList s)) ∨ ((∀ s, v ≠ .str s) ∧ only = some (repr v)))

/-- The feature of a cell. -/
def Spec.FeatureOf (rows : List XRow) (only : Option String) (r : XRow) (f : Feature) : Prop :=
  Dict.get? r "geometry" = some (.wkt f.geometry) ∧ (f.properties.map Prod.fst).Nodup ∧
  (∀ k, k ∈ f.properties.map Prod.fst ↔ Shown rows only k) ∧
  ∀ k v, (k, v) ∈ f.properties →
    (k = "id" → ∀ s, Dict.get? r "id" = some (.str s) → v = some (.str s)) ∧
    (k ≠ "id" → GeoValue (∀ r' ∈ rows, ∃ b, Dict.get? r' k = some (.bool b)) (Dict.get? r k) v)

/-! ### Names -/

theorem firstSeen_foldl (l : List String) : ∀ acc : List String, acc.Nodup →
    (l.foldl (fun acc k => if k ∈ acc then acc else acc ++ [k]) acc).Nodup ∧
    ∀ k, k ∈ l.foldl (fun acc k => if k ∈ acc then acc else acc ++ [k]) acc ↔ k ∈ acc ∨ k ∈ l := by
  induction l with
  | nil => intro acc h; simp [h]
  | cons a l ih =>
    intro acc h
    simp only [List.foldl_cons]
    by_cases ha : a ∈ acc
    · rw [if_pos ha]
      refine ⟨(ih acc h).1, fun k => ?_⟩
      rw [(ih acc h).2 k, List.mem_cons]
      constructor
      · tauto
      · rintro (h | rfl | h)
        · exact Or.inl h
        · exact Or.inl ha
        · exact Or.inr h
    · rw [if_neg ha]
      have hn : (acc ++ [a]).Nodup := by
        rw [List.nodup_append]
        refine ⟨h, by simp, ?_⟩
        intro x hx y hy
        rw [List.mem_singleton] at hy
        subst hy
        intro e; subst e; exact ha hx
      refine ⟨(ih _ hn).1, fun k => ?_⟩
      rw [(ih _ hn).2 k, List.mem_cons, List.mem_append, List.mem_singleton]
      tauto

theorem columns_nodup (rows : List XRow) : (columns rows).Nodup := (firstSeen_foldl _ [] List.nodup_nil).1

theorem mem_geo_columns (rows : List XRow) (k : String) : k ∈ columns rows ↔ ∃ r ∈ rows, k ∈ r.map Prod.fst := by
  have := (firstSeen_foldl (rows.flatMap Dict.keys) [] List.nodup_nil).2 k
  unfold columns firstSeen
  rw [this]
  simp [Dict.keys]

theorem kept_iff (only : Option String) (k : String) : kept only k = true ↔
    k = "id" ∨ k = "geometry" ∨ ((∀ d, only = some d → k = d) ∧ k ≠ "cx" ∧ k ≠ "cy" ∧ k ≠ "dcx" ∧ k ≠ "dcy") := by
  unfold kept
  by_cases h1 : k ∈ ["id", "geometry"]
  · rw [if_pos h1]
    simp only [List.mem_cons, List.not_mem_nil, or_false] at h1
    constructor
    · intro _; tauto
    · intro _; rfl
  · rw [if_neg h1]
    simp only [List.mem_cons, List.not_mem_nil, or_false, not_or] at h1
    by_cases h2 : only.any (fun d => k ≠ d) = true
    · rw [if_pos h2]
      simp only [Option.any_eq_true, decide_eq_true_eq] at h2
      obtain ⟨d, hd, hk⟩ := h2
      simp only [Bool.false_eq_true, false_iff, not_or, not_and]
      exact ⟨h1.1, h1.2, fun h => absurd (h d hd) hk⟩
    · rw [if_neg h2]
      have h2' : ∀ d, only = some d → k = d := by
        intro d hd
        by_contra hk
        exact h2 (by simp [hd, hk])
      by_cases h3 : k ∈ ["cx", "cy", "dcx", "dcy"]
      · rw [if_pos h3]
        simp only [List.mem_cons, List.not_mem_nil, or_false] at h3
        simp only [Bool.false_eq_true, false_iff]
        tauto
      · rw [if_neg h3]
        simp only [List.mem_cons, List.not_mem_nil, or_false, not_or] at h3
        simp only [true_iff]
        tauto

theorem shown_iff (rows : List XRow) (only : Option String) (k : String) :
    Spec.Shown rows only k ↔ k ∈ (columns rows).filter (kept only) ∧ k ≠ "geometry" := by
  rw [List.mem_filter, mem_geo_columns, kept_iff]
  unfold Spec.Shown
  constructor
  · rintro ⟨h1, h2, h3⟩
    refine ⟨⟨h1, ?_⟩, h2⟩
    by_cases hid : k = "id"
    · exact Or.inl hid
    · exact Or.inr (Or.inr ⟨fun d hd => (h3.2.2.2.2 d hd).resolve_right hid, h3.1, h3.2.1, h3.2.2.1, h3.2.2.2.1⟩)
  · rintro ⟨⟨h1, h2⟩, h3⟩
    refine ⟨h1, h3, ?_⟩
    rcases h2 with rfl | h | h
    · exact ⟨by decide, by decide, by decide, by decide, fun d _ => Or.inr rfl⟩
    · exact absurd h h3
    · exact ⟨h.2.1, h.2.2.1, h.2.2.2.1, h.2.2.2.2, fun d hd => Or.inl (h.1 d hd)⟩

/-! ### Means of lists -/

theorem foldl_add_fin (l : List ℚ) : ∀ s, (l.map Flt.fin).foldl Flt.add (.fin s) = .fin (s + l.sum) := by
  induction l with
  | nil => intro s; simp
  | cons a l ih => intro s; simp only [List.map_cons, List.foldl_cons, Flt.add, ih, List.sum_cons]; rw [add_assoc]

theorem add_not_fin (x y : Flt) (h : (∀ q, x ≠ .fin q) ∨ ∀ q, y ≠ .fin q) (q : ℚ) : Flt.add x y ≠ .fin q := by
  rcases x with _ | x | x <;> rcases y with _ | y | y <;> simp only [Flt.add] <;> try (intro h; cases h)
  · rcases h with h | h
    · exact absurd rfl (h x)
    · exact absurd rfl (h y)
  · split <;> (intro h; cases h)

theorem foldl_add_not_fin (l : List Flt) : ∀ x, ((∀ q, x ≠ .fin q) ∨ ∃ y ∈ l, ∀ q, y ≠ .fin q) → ∀ q, l.foldl Flt.add x ≠ .fin q := by
  induction l with
  | nil =>
    intro x h q
    rcases h with h | ⟨y, hy, _⟩
    · exact h q
    · exact absurd hy List.not_mem_nil
  | cons a l ih =>
    intro x h q
    rw [List.foldl_cons]
    refine ih _ ?_ q
    rcases h with h | ⟨y, hy, h⟩
    · exact Or.inl (add_not_fin x a (Or.inl h))
    · rcases List.mem_cons.1 hy with rfl | hy
      · exact Or.inl (add_not_fin x y (Or.inr h))
      · exact Or.inr ⟨y, hy, h⟩

theorem meanList_fin (l : List ℚ) (h : l ≠ []) : meanList (l.map .fin) = .fin (l.sum / l.length) := by
  unfold meanList
  rw [foldl_add_fin]
  have : ¬ (l.map Flt.fin).length = 0 := by rw [List.length_map]; simpa using h
  rw [List.length_map] at this
  simp only [List.length_map, if_neg this, zero_add]

theorem meanList_not_fin (l : List Flt) (h : l = [] ∨ ∃ x ∈ l, ∀ q, x ≠ .fin q) (q : ℚ) : meanList l ≠ .fin q := by
  rcases h with rfl | h
  · intro h; cases h
  · have := foldl_add_not_fin l (.fin 0) (Or.inr h)
    unfold meanList
    split
    · next s hs => exact absurd hs (this s)
    · next x hx => exact fun e => hx q e

theorem list_cases (l : List Flt) : (∃ m : List ℚ, l = m.map .fin) ∨ ∃ x ∈ l, ∀ q, x ≠ .fin q := by
  induction l with
  | nil => exact Or.inl ⟨[], rfl⟩
  | cons a l ih =>
    rcases a with _ | a | a
    · exact Or.inr ⟨_, List.mem_cons_self, by simp⟩
    · rcases ih with ⟨m, rfl⟩ | ⟨x, hx, h⟩
      · exact Or.inl ⟨a :: m, rfl⟩
      · exact Or.inr ⟨x, List.mem_cons_of_mem _ hx, h⟩
    · exact Or.inr ⟨_, List.mem_cons_self, by simp⟩

/-! ### Columns -/

/-- What a value becomes in a column of the given dtype. -/
def convVal : DType → XVal → XVal
  | .object, .flt x => .flt x
  | .object, .bool b => .flt (.fin (if b then 1 else 0))
  | .object, .lst l => .flt (meanList l)
  | .object, v => v
  | .bool, v => if v = .bool true then .flt (.fin 1) else .flt .nan
  | .number, v => v
  | .text, v => v

theorem object_mapM (l : List XVal) (h : ∀ v ∈ l, ¬ Spec.IsText v) :
    l.mapM (fun v => do return XVal.flt (← npMean v)) = (.ok (l.map (convVal .object)) : Py (List XVal)) := by
  refine mapM_pure_ok _ _ l (fun v hv => ?_)
  have := h v hv
  rcases v with x | b | s | m | p
  · rfl
  · rfl
  · exact absurd (Or.inl ⟨s, rfl⟩) this
  · rfl
  · exact absurd (Or.inr ⟨p, rfl⟩) this

theorem object_raises (l : List XVal) (h : ∃ v ∈ l, Spec.IsText v) :
    l.mapM (fun v => do return XVal.flt (← npMean v)) = (.error .typeError : Py (List XVal)) := by
  induction l with
  | nil => obtain ⟨v, hv, _⟩ := h; exact absurd hv List.not_mem_nil
  | cons a l ih =>
    rw [List.mapM_cons]
    by_cases ha : Spec.IsText a
    · rcases ha with ⟨s, rfl⟩ | ⟨p, rfl⟩ <;> rfl
    · have h' : ∃ v ∈ l, Spec.IsText v := by
        obtain ⟨v, hv, ht⟩ := h
        rcases List.mem_cons.1 hv with rfl | hv
        · exact absurd ht ha
        · exact ⟨v, hv, ht⟩
      rw [ih h']
      rcases a with x | b | s | m | p
      · rfl
      · rfl
      · exact absurd (Or.inl ⟨s, rfl⟩) ha
      · rfl
      · exact absurd (Or.inr ⟨p, rfl⟩) ha

theorem dtype_bool_iff (strings : Bool) (l : List XVal) : dtype strings l = .bool ↔ ∀ v ∈ l, ∃ b, v = .bool b := by
  unfold dtype
  have key : (l.all isBool) = true ↔ ∀ v ∈ l, ∃ b, v = .bool b := by
    rw [List.all_eq_true]
    refine forall₂_congr (fun v _ => ?_)
    rcases v with x | b | s | m | p <;> simp [isBool]
  by_cases h : (l.all isBool) = true
  · rw [if_pos h]; exact ⟨fun _ => key.1 h, fun _ => rfl⟩
  · rw [if_neg h]
    refine ⟨fun e => ?_, fun e => absurd (key.2 e) h⟩
    split at e
    · cases e
    · split at e <;> cases e

theorem dtype_number (strings : Bool) (l : List XVal) (h : dtype strings l = .number) : ∀ v ∈ l, ∃ x, v = .flt x := by
  unfold dtype at h
  split at h
  · cases h
  · split at h
    · next h2 =>
      rw [List.all_eq_true] at h2
      intro v hv
      have := h2 v hv
      rcases v with x | b | s | m | p <;> simp [isNumber] at this ⊢
    · split at h <;> cases h

theorem dtype_text (strings : Bool) (l : List XVal) (h : dtype strings l = .text) :
    strings = true ∧ ∀ v ∈ l, Spec.IsText v ∨ v = .flt .nan := by
  unfold dtype at h
  split at h
  · cases h
  · split at h
    · cases h
    · split at h
      · next h2 =>
        rw [Bool.and_eq_true, List.all_eq_true] at h2
        refine ⟨h2.1, fun v hv => ?_⟩
        have := h2.2 v hv
        rcases v with x | b | s | m | p
        · rcases x with _ | x | x <;> simp [isTextual] at this ⊢
        · simp [isTextual] at this
        · exact Or.inl (Or.inl ⟨s, rfl⟩)
        · simp [isTextual] at this
        · exact Or.inl (Or.inr ⟨p, rfl⟩)
      · cases h

theorem dtype_object (strings : Bool) (l : List XVal) (h : dtype strings l = .object) :
    ¬ (strings = true ∧ ∀ v ∈ l, Spec.IsText v ∨ v = .flt .nan) := by
  rintro ⟨hs, hl⟩
  unfold dtype at h
  split at h
  · cases h
  · split at h
    · cases h
    · split at h
      · cases h
      · next h2 =>
        refine h2 ?_
        rw [hs, Bool.true_and, List.all_eq_true]
        intro v hv
        rcases hl v hv with (⟨s, rfl⟩ | ⟨p, rfl⟩) | rfl <;> rfl

/-- Exportability, said of the values of a column. -/
theorem exportable_column (strings : Bool) (rows : List XRow) (k : String) : Spec.Exportable strings rows k ↔
    (∀ v ∈ column rows k, ¬ Spec.IsText v) ∨ (strings = true ∧ ∀ v ∈ column rows k, Spec.IsText v ∨ v = .flt .nan) := by
  have hnan : ¬ Spec.IsText (.flt .nan) := by rintro (⟨s, h⟩ | ⟨p, h⟩) <;> cases h
  have aux : ∀ P : XVal → Prop, P (.flt .nan) → ((∀ v ∈ column rows k, P v) ↔ ∀ r ∈ rows, ∀ v, Dict.get? r k = some v → P v) := by
    intro P hP
    unfold column
    constructor
    · intro h r hr v hv
      exact h v (List.mem_map.2 ⟨r, hr, by rw [hv]; rfl⟩)
    · intro h v hv
      obtain ⟨r, hr, rfl⟩ := List.mem_map.1 hv
      cases hg : Dict.get? r k with
      | none => exact hP
      | some w => exact h r hr w hg
  unfold Spec.Exportable
  rw [aux (fun v => ¬ Spec.IsText v) hnan, aux (fun v => Spec.IsText v ∨ v = .flt .nan) (Or.inr rfl)]

theorem convert_ok (strings : Bool) (l : List XVal)
    (h : (∀ v ∈ l, ¬ Spec.IsText v) ∨ (strings = true ∧ ∀ v ∈ l, Spec.IsText v ∨ v = .flt .nan)) :
    convert strings l = .ok (l.map (convVal (dtype strings l))) := by
  unfold convert
  cases hd : dtype strings l with
  | object =>
    exact object_mapM l (h.resolve_right (dtype_object strings l hd))
  | bool => rfl
  | number => exact congrArg Except.ok (List.map_id' l).symm
  | text => exact congrArg Except.ok (List.map_id' l).symm

theorem convert_raises (strings : Bool) (l : List XVal)
    (h : ¬ ((∀ v ∈ l, ¬ Spec.IsText v) ∨ (strings = true ∧ ∀ v ∈ l, Spec.IsText v ∨ v = .flt .nan))) :
    convert strings l = .error .typeError := by
  unfold convert
  have hx : ∃ v ∈ l, Spec.IsText v := by
    by_contra hn
    exact h (Or.inl (fun v hv ht => hn ⟨v, hv, ht⟩))
  cases hd : dtype strings l with
  | object => exact object_raises l hx
  | bool =>
    obtain ⟨v, hv, ht⟩ := hx
    obtain ⟨b, rfl⟩ := (dtype_bool_iff strings l).1 hd v hv
    rcases ht with ⟨s, hs⟩ | ⟨p, hp⟩
    · cases hs
    · cases hp
  | number =>
    obtain ⟨v, hv, ht⟩ := hx
    obtain ⟨b, rfl⟩ := dtype_number strings l hd v hv
    rcases ht with ⟨s, hs⟩ | ⟨p, hp⟩
    · cases hs
    · cases hp
  | text => exact absurd (Or.inr (dtype_text strings l hd)) h

/-- The values of a column of the exported frame. -/
def outColumn (strings : Bool) (rows : List XRow) (k : String) : List XVal :=
  (if k ∈ ["id", "geometry"] then column rows k else (column rows k).map (convVal (dtype strings (column rows k)))).map noInf

theorem geoFrame_ok (strings : Bool) (only : Option String) (rows : List XRow)
    (h : ∀ k ∈ (columns rows).filter (kept only), k ≠ "id" → k ≠ "geometry" → Spec.Exportable strings rows k) :
    geoFrame strings only rows = .ok (((columns rows).filter (kept only)).map (fun k => (k, outColumn strings rows k))) := by
  unfold geoFrame
  refine mapM_pure_ok _ _ _ (fun k hk => ?_)
  unfold outColumn
  by_cases hi : k ∈ ["id", "geometry"]
  · simp only [if_pos hi, bind, Except.bind, pure, Except.pure]
  · simp only [if_neg hi]
    have hi' := hi
    simp only [List.mem_cons, List.not_mem_nil, or_false, not_or] at hi'
    rw [convert_ok strings _ ((exportable_column strings rows k).1 (h k hk hi'.1 hi'.2))]
    rfl

theorem geoFrame_raises (strings : Bool) (only : Option String) (rows : List XRow)
    (h : ∃ k ∈ (columns rows).filter (kept only), k ≠ "id" ∧ k ≠ "geometry" ∧ ¬ Spec.Exportable strings rows k) :
    geoFrame strings only rows = .error .typeError := by
  unfold geoFrame
  generalize (columns rows).filter (kept only) = cols at h
  induction cols with
  | nil => obtain ⟨k, hk, _⟩ := h; exact absurd hk List.not_mem_nil
  | cons a cols ih =>
    rw [List.mapM_cons]
    by_cases ha : a ≠ "id" ∧ a ≠ "geometry" ∧ ¬ Spec.Exportable strings rows a
    · have hi : a ∉ ["id", "geometry"] := by simp [ha.1, ha.2.1]
      rw [if_neg hi, convert_raises strings _ (fun e => ha.2.2 ((exportable_column strings rows a).2 e))]
      rfl
    · have h' : ∃ k ∈ cols, k ≠ "id" ∧ k ≠ "geometry" ∧ ¬ Spec.Exportable strings rows k := by
        obtain ⟨k, hk, hh⟩ := h
        rcases List.mem_cons.1 hk with rfl | hk
        · exact absurd hh ha
        · exact ⟨k, hk, hh⟩
      rw [ih h']
      by_cases hi : a ∈ ["id", "geometry"]
      · rw [if_pos hi]; rfl
      · have hi' := hi
        simp only [List.mem_cons, List.not_mem_nil, or_false, not_or] at hi'
        have he : Spec.Exportable strings rows a := by
          by_contra hn; exact ha ⟨hi'.1, hi'.2, hn⟩
        rw [if_neg hi, convert_ok strings _ ((exportable_column strings rows a).1 he)]
        rfl

theorem get?_map_pair {V : Type} (l : List String) (f : String → V) (k : String) :
    Dict.get? (l.map (fun k => (k, f k))) k = if k ∈ l then some (f k) else none := by
  induction l with
  | nil => rfl
  | cons a l ih =>
    simp only [List.map_cons, Dict.get?]
    by_cases h : a = k
    · subst h; simp
    · have h' : ¬ k = a := fun e => h e.symm
      rw [if_neg h, ih]; simp [h']

/-! ### Values -/

theorem geoValue_out (strings : Bool) (rows : List XRow) (k : String) (he : Spec.Exportable strings rows k) (r : XRow) (hr : r ∈ rows) :
    Spec.GeoValue (∀ r' ∈ rows, ∃ b, Dict.get? r' k = some (.bool b)) (Dict.get? r k)
      (toProperty (noInf (convVal (dtype strings (column rows k)) ((Dict.get? r k).getD (.flt .nan))))) := by
  have hmem : (Dict.get? r k).getD (.flt .nan) ∈ column rows k := List.mem_map.2 ⟨r, hr, rfl⟩
  have hflags : dtype strings (column rows k) = .bool ↔ ∀ r' ∈ rows, ∃ b, Dict.get? r' k = some (.bool b) := by
    rw [dtype_bool_iff]
    constructor
    · intro h r' hr'
      obtain ⟨b, hb⟩ := h _ (List.mem_map.2 ⟨r', hr', rfl⟩)
      cases hg : Dict.get? r' k with
      | none => rw [hg] at hb; cases hb
      | some v => rw [hg] at hb; exact ⟨b, congrArg some hb⟩
    · intro h v hv
      obtain ⟨r', hr', rfl⟩ := List.mem_map.1 hv
      obtain ⟨b, hb⟩ := h r' hr'
      exact ⟨b, by rw [hb]; rfl⟩
  cases hd : dtype strings (column rows k) with
  | bool =>
    have hf := hflags.1 hd
    obtain ⟨b, hb⟩ := hf r hr
    rw [hb]
    cases b
    · exact .noFlag hf
    · exact .yes
  | object =>
    have hf : ¬ ∀ r' ∈ rows, ∃ b, Dict.get? r' k = some (.bool b) := fun e => by rw [hflags.2 e] at hd; cases hd
    have hnt := ((exportable_column strings rows k).1 he).resolve_right (dtype_object strings _ hd) _ hmem
    cases hg : Dict.get? r k with
    | none => exact .missing
    | some v =>
      rw [hg] at hnt
      rcases v with x | b | s | m | p
      · rcases x with _ | x | x
        · exact .nan
        · exact .num x
        · exact .inf x
      · cases b
        · exact .no hf
        · exact .yes
      · exact absurd (Or.inl ⟨s, rfl⟩) hnt
      · change Spec.GeoValue _ (some (.lst m)) (toProperty (noInf (.flt (meanList m))))
        by_cases hm : m = [] ∨ ∃ x ∈ m, ∀ q, x ≠ .fin q
        · have hn := meanList_not_fin m hm
          have : toProperty (noInf (.flt (meanList m))) = none := by
            rcases hx : meanList m with _ | x | x
            · rfl
            · exact absurd hx (hn x)
            · rfl
          rw [this]
          exact .listNone m hm
        · rw [not_or] at hm
          obtain ⟨m', rfl⟩ := (list_cases m).resolve_right hm.2
          have hne : m' ≠ [] := fun e => hm.1 (by rw [e]; rfl)
          rw [meanList_fin m' hne]
          exact .list m' hne
      · exact absurd (Or.inr ⟨p, rfl⟩) hnt
  | number =>
    obtain ⟨x, hx⟩ := dtype_number strings _ hd _ hmem
    cases hg : Dict.get? r k with
    | none => exact .missing
    | some v =>
      rw [hg] at hx
      have hx : v = .flt x := hx
      subst hx
      rcases x with _ | x | x
      · exact .nan
      · exact .num x
      · exact .inf x
  | text =>
    have hx := (dtype_text strings _ hd).2 _ hmem
    cases hg : Dict.get? r k with
    | none => exact .missing
    | some v =>
      rw [hg] at hx
      rcases hx with (⟨s, hs⟩ | ⟨p, hp⟩) | hn
      · have hs : v = .str s := hs
        subst hs; exact .text s
      · have hp : v = .wkt p := hp
        subst hp; exact .shape p
      · have hn : v = .flt .nan := hn
        subst hn; exact .nan

/-! ### The export -/

theorem layer_iff (repr : JVal → String) (params : Option (Py JVal)) (only : Option String) :
    layerName repr params = .ok only ↔ Spec.Layer repr params only := by
  unfold Spec.Layer
  rcases params with _ | (e | v)
  · simp only [layerName, Except.ok.injEq, true_and]
    constructor
    · intro h; exact Or.inl h.symm
    · rintro (h | ⟨d, v, h, _⟩)
      · exact h.symm
      · cases h
  · constructor
    · intro h; cases h
    · rintro (⟨h, _⟩ | ⟨d, v, h, _⟩)
      · cases h
      · cases h
  · rcases v with _ | b | n | x | s | l | d
    all_goals try (constructor
                   · intro h; cases h
                   · rintro (⟨h, _⟩ | ⟨d, v, h, _⟩)
                     · cases h
                     · injection h with h; injection h with h; cases h)
    simp only [layerName, bind, Except.bind, Config.getItem, Dict.get]
    cases hg : Dict.get? d "data_name" with
    | none =>
      constructor
      · intro h; cases h
      · rintro (⟨h, _⟩ | ⟨d', v, h, h2, _⟩)
        · cases h
        · injection h with h; injection h with h; injection h with h
          subst h
          rw [hg] at h2; cases h2
    | some v =>
      have hv : ((do return some (strOf repr v)) : Py (Option String)) = .ok only ↔
          ((∃ s, v = .str s ∧ only = some (String.ofList s)) ∨ ((∀ s, v ≠ .str s) ∧ only = some (repr v))) := by
        constructor
        · intro h
          injection h with h
          rcases v with _ | b | n | x | s | l | d'
          all_goals first
            | exact Or.inl ⟨_, rfl, h.symm⟩
            | exact Or.inr ⟨fun s e => (by cases e), h.symm⟩
        · rintro (⟨s, rfl, rfl⟩ | ⟨h, rfl⟩)
          · rfl
          · rcases v with _ | b | n | x | s | l | d'
            all_goals first
              | exact absurd rfl (h _)
              | rfl
      constructor
      · intro h
        exact Or.inr ⟨d, v, rfl, hg, hv.1 h⟩
      · rintro (⟨h, _⟩ | ⟨d', v', h, h2, h3⟩)
        · cases h
        · injection h with h; injection h with h; injection h with h
          subst h
          rw [hg] at h2
          injection h2 with h2
          subst h2
          exact hv.2 h3

theorem geometry_kept (only : Option String) : kept only "geometry" = true := by
  rw [kept_iff]; exact Or.inr (Or.inl rfl)

theorem loadWkt_ok (v : XVal) (p : Boundary.Poly) : loadWkt v = .ok p ↔ v = .wkt p := by
  rcases v with x | b | s | m | q
  all_goals constructor
  all_goals intro h
  all_goals first
    | (injection h with h; rw [h]; done)
    | (injection h with h; rw [h]; rfl)
    | cases h

/-- What the geometries are read from. -/
theorem geometry_polys (strings : Bool) (rows : List XRow) (polys : List Boundary.Poly) :
    (outColumn strings rows "geometry").mapM loadWkt = .ok polys ↔
      List.Forall₂ (fun r p => Dict.get? r "geometry" = some (.wkt p)) rows polys := by
  rw [mapM_ok_iff]
  unfold outColumn column
  rw [if_pos (by simp), List.map_map, List.forall₂_map_left_iff]
  constructor
  · refine List.Forall₂.imp (fun r p h => ?_)
    rw [loadWkt_ok] at h
    simp only [Function.comp] at h
    cases hg : Dict.get? r "geometry" with
    | none => rw [hg] at h; cases h
    | some v =>
      rw [hg] at h
      rcases v with x | b | s | m | q
      · rcases x with _ | x | x <;> cases h
      · cases h
      · cases h
      · cases h
      · exact congrArg some h
  · refine List.Forall₂.imp (fun r p h => ?_)
    rw [loadWkt_ok]
    simp only [Function.comp, h]
    rfl

theorem get_geometry (strings : Bool) (only : Option String) (rows : List XRow) (h : ∃ r ∈ rows, "geometry" ∈ r.map Prod.fst) :
    Dict.get (((columns rows).filter (kept only)).map (fun k => (k, outColumn strings rows k))) "geometry" = .ok (outColumn strings rows "geometry") := by
  unfold Dict.get
  rw [get?_map_pair, if_pos (List.mem_filter.2 ⟨(mem_geo_columns rows _).2 h, geometry_kept only⟩)]

theorem get_geometry_none (strings : Bool) (only : Option String) (rows : List XRow) (h : ¬ ∃ r ∈ rows, "geometry" ∈ r.map Prod.fst) :
    Dict.get (((columns rows).filter (kept only)).map (fun k => (k, outColumn strings rows k))) "geometry" = .error .keyError := by
  unfold Dict.get
  rw [get?_map_pair, if_neg (fun e => h ((mem_geo_columns rows _).1 (List.mem_filter.1 e).1))]

theorem has_geometry {rows : List XRow} (hne : rows ≠ []) (h : ∀ r ∈ rows, ∃ p, Dict.get? r "geometry" = some (.wkt p)) :
    ∃ r ∈ rows, "geometry" ∈ r.map Prod.fst := by
  obtain ⟨r, rest, rfl⟩ := List.exists_cons_of_ne_nil hne
  obtain ⟨p, hp⟩ := h r List.mem_cons_self
  exact ⟨r, List.mem_cons_self, (Dict.mem_keys_iff r _).2 (by rw [hp]; rfl)⟩

theorem exportable_all {strings : Bool} {rows : List XRow} {only : Option String}
    (h : ∀ k, k ≠ "id" → Spec.Shown rows only k → Spec.Exportable strings rows k) :
    ∀ k ∈ (columns rows).filter (kept only), k ≠ "id" → k ≠ "geometry" → Spec.Exportable strings rows k :=
  fun k hk hi hg => h k hi ((shown_iff rows only k).2 ⟨hk, hg⟩)

/-- What `to_geojson` computes. -/
theorem toGeojson_eq (strings : Bool) (repr : JVal → String) (params : Option (Py JVal)) (rows : List XRow) (fs : List Feature) :
    toGeojson strings repr params rows = .ok fs ↔ ∃ only polys, Spec.Layer repr params only ∧
      (∀ k, k ≠ "id" → Spec.Shown rows only k → Spec.Exportable strings rows k) ∧ rows ≠ [] ∧
      List.Forall₂ (fun r p => Dict.get? r "geometry" = some (.wkt p)) rows polys ∧
      fs = features (((columns rows).filter (kept only)).map (fun k => (k, outColumn strings rows k))) polys := by
  unfold toGeojson
  constructor
  · intro h
    cases hl : layerName repr params with
    | error e => rw [hl] at h; cases h
    | ok only =>
      rw [hl] at h
      by_cases he : ∀ k, k ≠ "id" → Spec.Shown rows only k → Spec.Exportable strings rows k
      · have hf := geoFrame_ok strings only rows (exportable_all he)
        simp only [bind, Except.bind, hf] at h
        by_cases hgm : ∃ r ∈ rows, "geometry" ∈ r.map Prod.fst
        · simp only [get_geometry strings only rows hgm] at h
          cases hp : (outColumn strings rows "geometry").mapM loadWkt with
          | error e => rw [hp] at h; cases h
          | ok polys =>
            rw [hp] at h
            injection h with h
            refine ⟨only, polys, (layer_iff _ _ _).1 hl, he, ?_, (geometry_polys strings rows polys).1 hp, h.symm⟩
            rintro rfl
            obtain ⟨r, hr, _⟩ := hgm
            exact absurd hr List.not_mem_nil
        · simp only [get_geometry_none strings only rows hgm] at h
          cases h
      · simp only [not_forall] at he
        obtain ⟨k, hi, hs, hx⟩ := he
        have hs' := (shown_iff rows only k).1 hs
        have hf := geoFrame_raises strings only rows ⟨k, hs'.1, hi, hs'.2, hx⟩
        simp only [bind, Except.bind, hf] at h
        cases h
  · rintro ⟨only, polys, hl, he, hne, hp, rfl⟩
    rw [(layer_iff _ _ _).2 hl]
    have hf := geoFrame_ok strings only rows (exportable_all he)
    have hgm : ∃ r ∈ rows, "geometry" ∈ r.map Prod.fst := by
      refine has_geometry hne (fun r hr => ?_)
      clear he hf hne
      induction hp with
      | nil => exact absurd hr List.not_mem_nil
      | cons h1 _ ih =>
        rcases List.mem_cons.1 hr with rfl | hr
        · exact ⟨_, h1⟩
        · exact ih hr
    simp only [bind, Except.bind, hf, get_geometry strings only rows hgm, (geometry_polys strings rows polys).2 hp]
    rfl

/-- **C87** (a): a mesh is exported to GeoJSON exactly if the layer named is readable, there is a cell, all geometries are WKT, and
no column that is written mixes texts with other values. -/
theorem C87_exports (strings : Bool) (repr : JVal → String) (params : Option (Py JVal)) (rows : List XRow) :
    (∃ fs, toGeojson strings repr params rows = .ok fs) ↔ ∃ only, Spec.Layer repr params only ∧
      (∀ k, k ≠ "id" → Spec.Shown rows only k → Spec.Exportable strings rows k) ∧ rows ≠ [] ∧
      ∀ r ∈ rows, ∃ p, Dict.get? r "geometry" = some (.wkt p) := by
  constructor
  · rintro ⟨fs, h⟩
    obtain ⟨only, polys, hl, he, hne, hp, -⟩ := (toGeojson_eq strings repr params rows fs).1 h
    refine ⟨only, hl, he, hne, fun r hr => ?_⟩
    clear he hne h
    induction hp with
    | nil => exact absurd hr List.not_mem_nil
    | cons h1 _ ih =>
      rcases List.mem_cons.1 hr with rfl | hr
      · exact ⟨_, h1⟩
      · exact ih hr
  · rintro ⟨only, hl, he, hne, hg⟩
    have : ∃ polys, List.Forall₂ (fun r p => Dict.get? r "geometry" = some (.wkt p)) rows polys := by
      clear he hne
      induction rows with
      | nil => exact ⟨[], .nil⟩
      | cons r rows ih =>
        obtain ⟨p, hp⟩ := hg r List.mem_cons_self
        obtain ⟨ps, hps⟩ := ih (fun r' hr' => hg r' (List.mem_cons_of_mem _ hr'))
        exact ⟨p :: ps, .cons hp hps⟩
    obtain ⟨polys, hp⟩ := this
    exact ⟨_, (toGeojson_eq strings repr params rows _).2 ⟨only, polys, hl, he, hne, hp, rfl⟩⟩

/-- **C87** (b): the features are those of the cells, one for each in the order of the cells, with exactly the names that are shown
and the values that become of those of the cell. -/
theorem C87_features (strings : Bool) (repr : JVal → String) (params : Option (Py JVal)) (rows : List XRow) (fs : List Feature)
    (h : toGeojson strings repr params rows = .ok fs) :
    ∃ only, Spec.Layer repr params only ∧ List.Forall₂ (Spec.FeatureOf rows only) rows fs := by
  obtain ⟨only, polys, hl, he, hne, hp, rfl⟩ := (toGeojson_eq strings repr params rows fs).1 h
  refine ⟨only, hl, ?_⟩
  rw [List.forall₂_iff_get]
  have hlen := hp.length_eq
  refine ⟨by simp [features, hlen], ?_⟩
  intro i h1 h2
  simp only [features, List.get_eq_getElem, List.getElem_mapIdx]
  have hi : i < polys.length := by rw [← hlen]; exact h1
  refine ⟨?_, ?_, ?_, ?_⟩
  · exact (List.forall₂_iff_get.1 hp).2 i h1 hi
  · simp only [List.filter_map, List.map_map]
    have : (Prod.fst ∘ (fun c : String × List XVal => (c.1, toProperty (c.2.getD i (.flt .nan)))) ∘ fun k => (k, outColumn strings rows k)) = id := rfl
    rw [this, List.map_id]
    exact ((columns_nodup rows).filter _).filter _
  · intro k
    rw [shown_iff]
    simp only [List.filter_map, List.map_map]
    have : (Prod.fst ∘ (fun c : String × List XVal => (c.1, toProperty (c.2.getD i (.flt .nan)))) ∘ fun k => (k, outColumn strings rows k)) = id := rfl
    rw [this, List.map_id, List.mem_filter (p := _ ∘ _)]
    simp
  · intro k v hkv
    simp only [List.filter_map, List.map_map, List.mem_map, Function.comp] at hkv
    obtain ⟨k', hk', hkv⟩ := hkv
    injection hkv with e1 e2
    subst e1
    have hk2 := List.mem_filter.1 hk'
    have hng : k' ≠ "geometry" := by simpa using hk2.2
    have hget : ∀ f : XVal → XVal, ((column rows k').map f).getD i (.flt .nan) = f ((Dict.get? (rows[i]) k').getD (.flt .nan)) := by
      intro f
      unfold column
      rw [List.map_map, List.getD_eq_getElem?_getD, List.getElem?_map, List.getElem?_eq_getElem h1]
      rfl
    constructor
    · rintro rfl s hs
      rw [← e2]
      unfold outColumn
      rw [if_pos (by simp), hget, hs]
      rfl
    · intro hid
      rw [← e2]
      unfold outColumn
      rw [if_neg (by simp [hid, hng]), List.map_map, hget]
      exact geoValue_out strings rows k' (he k' hid ((shown_iff rows only k').2 ⟨hk2.1, hng⟩)) _ (List.getElem_mem h1)

/-- **C87** (c): a mesh without cells raises `KeyError`, and a text among other values `TypeError`. -/
theorem C87_errors (strings : Bool) (repr : JVal → String) (params : Option (Py JVal)) (rows : List XRow) (only : Option String)
    (hl : Spec.Layer repr params only) :
    (rows = [] → toGeojson strings repr params rows = .error .keyError) ∧
    ((∃ k, k ≠ "id" ∧ Spec.Shown rows only k ∧ ¬ Spec.Exportable strings rows k) → toGeojson strings repr params rows = .error .typeError) := by
  constructor
  · rintro rfl
    unfold toGeojson
    rw [(layer_iff _ _ _).2 hl]
    rfl
  · rintro ⟨k, hi, hs, hx⟩
    unfold toGeojson
    rw [(layer_iff _ _ _).2 hl]
    have hs' := (shown_iff rows only k).1 hs
    simp only [bind, Except.bind, geoFrame_raises strings only rows ⟨k, hs'.1, hi, hs'.2, hx⟩]

/-! ### Meshes -/

theorem get?_foldl_set_nodup {V : Type} (e : Dict String V) (he : (e.map Prod.fst).Nodup) : ∀ (d : Dict String V) (k : String),
    Dict.get? (e.foldl (fun acc p => Dict.set acc p.1 p.2) d) k = (Dict.get? e k).or (Dict.get? d k) := by
  induction e with
  | nil => intro d k; rfl
  | cons p e ih =>
    obtain ⟨a, b⟩ := p
    intro d k
    rw [List.map_cons, List.nodup_cons] at he
    rw [List.foldl_cons, ih he.2, Dict.get?_set]
    by_cases h : a = k
    · subst h
      have hn : Dict.get? e a = none := by
        by_contra hc
        exact he.1 ((Dict.mem_keys_iff e a).2 (Option.isSome_iff_ne_none.2 hc))
      rw [hn]; simp [Dict.get?]
    · simp [Dict.get?, h]

theorem get?_map_snd {V W : Type} (f : V → W) (d : Dict String V) (k : String) :
    Dict.get? (d.map (fun p => (p.1, f p.2))) k = (Dict.get? d k).map f := by
  induction d with
  | nil => rfl
  | cons p d ih =>
    obtain ⟨a, b⟩ := p
    simp only [List.map_cons, Dict.get?]
    by_cases h : a = k
    · simp [h]
    · simp [h, ih]

/-- What the JSON of a cell has under a name. -/
theorem row_get (c : AggCell) (hk : (c.data.map Prod.fst).Nodup) (k : String) :
    Dict.get? (c.toJson.map (fun p => (p.1, ofJVal p.2))) k =
      if "id" = k then some (.str (toString c.id)) else
      ((Dict.get? c.data k).map (fun v => ofJVal (.val v))).or
        (Dict.get? [("geometry", XVal.wkt c.bounds.toPolygon), ("cx", .flt (.fin c.bounds.cx)), ("cy", .flt (.fin c.bounds.cy)),
          ("dcx", .flt (.fin c.bounds.dcx)), ("dcy", .flt (.fin c.bounds.dcy))] k) := by
  rw [get?_map_snd]
  unfold AggCell.toJson Dict.update
  simp only [Dict.get?_set]
  by_cases h : "id" = k
  · rw [if_pos h, if_pos h]; rfl
  · rw [if_neg h, if_neg h, get?_foldl_set_nodup _ (by rw [List.map_map]; exact hk), get?_map_snd]
    rw [Option.map_or, Option.map_map]
    congr 1
    rw [← get?_map_snd]
    rfl

/-- What becomes of a value of a mesh: numbers stay, `NaN` and missing values are `null`. -/
def Spec.geoNumber : Option Val → Option XVal
  | some (.num (some q)) => some (.flt (.fin q))
  | _ => none

/-- **C87** (d): every mesh that has a cell and only numbers for data is exported: a feature for each cell in order, with its polygon and
its id, all its numbers, `null` for the names that only other cells have, and nothing else. -/
theorem C87_mesh (strings : Bool) (repr : JVal → String) (m : EnvMesh) (hne : m.cells ≠ [])
    (hk : ∀ c ∈ m.cells, (c.data.map Prod.fst).Nodup) (hr : ∀ c ∈ m.cells, ∀ k ∈ c.data.map Prod.fst, k ∉ AggCell.reserved)
    (hnum : ∀ c ∈ m.cells, ∀ k s, Dict.get? c.data k ≠ some (.str s)) :
    ∃ fs, toGeojson strings repr none (rowsOf m) = .ok fs ∧ List.Forall₂ (fun c f => f.geometry = c.bounds.toPolygon ∧
      Dict.get? f.properties "id" = some (some (.str (toString c.id))) ∧
      ∀ k, k ≠ "id" → Dict.get? f.properties k =
        if ∃ c' ∈ m.cells, k ∈ c'.data.map Prod.fst then some (Spec.geoNumber (Dict.get? c.data k)) else none) m.cells fs := by
  have hmem : ∀ c ∈ m.cells, ∀ k ∈ AggCell.reserved, Dict.get? c.data k = none := by
    intro c hc k hkr
    by_contra hn
    exact hr c hc k ((Dict.mem_keys_iff c.data k).2 (Option.isSome_iff_ne_none.2 hn)) hkr
  have hgeo : ∀ c ∈ m.cells, Dict.get? (c.toJson.map (fun p => (p.1, ofJVal p.2))) "geometry" = some (.wkt c.bounds.toPolygon) := by
    intro c hc
    rw [row_get c (hk c hc), if_neg (by decide), hmem c hc _ (by simp [AggCell.reserved])]
    rfl
  have hid : ∀ c ∈ m.cells, Dict.get? (c.toJson.map (fun p => (p.1, ofJVal p.2))) "id" = some (.str (toString c.id)) := by
    intro c hc
    rw [row_get c (hk c hc), if_pos rfl]
  have hother : ∀ c ∈ m.cells, ∀ k, k ∉ AggCell.reserved →
      Dict.get? (c.toJson.map (fun p => (p.1, ofJVal p.2))) k = (Dict.get? c.data k).map (fun v => ofJVal (.val v)) := by
    intro c hc k hkr
    simp only [AggCell.reserved, List.mem_cons, List.not_mem_nil, or_false, not_or] at hkr
    obtain ⟨h1, h2, h3, h4, h5, h6⟩ := hkr
    rw [row_get c (hk c hc), if_neg (fun e => h6 e.symm)]
    have : Dict.get? [("geometry", XVal.wkt c.bounds.toPolygon), ("cx", .flt (.fin c.bounds.cx)), ("cy", .flt (.fin c.bounds.cy)),
          ("dcx", .flt (.fin c.bounds.dcx)), ("dcy", .flt (.fin c.bounds.dcy))] k = none := by
      simp only [Dict.get?, if_neg (Ne.symm h1), if_neg (Ne.symm h2), if_neg (Ne.symm h3), if_neg (Ne.symm h4), if_neg (Ne.symm h5)]
    rw [this, Option.or_none]
  have hshown : ∀ k, k ≠ "id" → (Spec.Shown (rowsOf m) none k ↔ ∃ c' ∈ m.cells, k ∈ c'.data.map Prod.fst) := by
    intro k hid'
    unfold Spec.Shown rowsOf
    constructor
    · rintro ⟨⟨r, hrm, hkr⟩, h1, h2, h3, h4, h5, -⟩
      obtain ⟨c, hc, rfl⟩ := List.mem_map.1 hrm
      refine ⟨c, hc, (Dict.mem_keys_iff c.data k).2 ?_⟩
      have := (Dict.mem_keys_iff _ k).1 hkr
      rw [hother c hc k (by simp [AggCell.reserved, h1, h2, h3, h4, h5, hid']), Option.isSome_map] at this
      exact this
    · rintro ⟨c, hc, hkc⟩
      have hkr := hr c hc k hkc
      have h := hkr
      simp only [AggCell.reserved, List.mem_cons, List.not_mem_nil, or_false, not_or] at h
      refine ⟨⟨_, List.mem_map.2 ⟨c, hc, rfl⟩, (Dict.mem_keys_iff _ k).2 ?_⟩, h.1, h.2.1, h.2.2.1, h.2.2.2.1, h.2.2.2.2.1, fun d hd => by cases hd⟩
      rw [hother c hc k hkr, Option.isSome_map]
      exact (Dict.mem_keys_iff c.data k).1 hkc
  have hres : ∀ k, k ≠ "id" → Spec.Shown (rowsOf m) none k → k ∉ AggCell.reserved := by
    rintro k hi ⟨-, h1, h2, h3, h4, h5, -⟩
    simp [AggCell.reserved, h1, h2, h3, h4, h5, hi]
  have hexp : ∀ k, k ≠ "id" → Spec.Shown (rowsOf m) none k → Spec.Exportable strings (rowsOf m) k := by
    intro k hi hs
    refine Or.inl (fun r hrm v hv => ?_)
    obtain ⟨c, hc, rfl⟩ := List.mem_map.1 hrm
    rw [hother c hc k (hres k hi hs)] at hv
    cases hg : Dict.get? c.data k with
    | none => rw [hg] at hv; cases hv
    | some w =>
      rw [hg] at hv
      injection hv with hv
      rcases w with (_ | q) | s
      · subst hv; rintro (⟨s, h⟩ | ⟨p, h⟩) <;> cases h
      · subst hv; rintro (⟨s, h⟩ | ⟨p, h⟩) <;> cases h
      · exact absurd hg (hnum c hc k s)
  obtain ⟨fs, hfs⟩ := (C87_exports strings repr none (rowsOf m)).2 ⟨none, Or.inl ⟨rfl, rfl⟩, hexp, by simpa [rowsOf] using hne, by
    intro r hrm
    obtain ⟨c, hc, rfl⟩ := List.mem_map.1 hrm
    exact ⟨_, hgeo c hc⟩⟩
  obtain ⟨only, hl, hf⟩ := C87_features strings repr none (rowsOf m) fs hfs
  have hon : only = none := by
    rcases hl with ⟨-, h⟩ | ⟨d, v, h, -⟩
    · exact h
    · cases h
  subst hon
  refine ⟨fs, hfs, ?_⟩
  have hf' : List.Forall₂ (fun c f => c ∈ m.cells ∧ Spec.FeatureOf (rowsOf m) none (c.toJson.map (fun p => (p.1, ofJVal p.2))) f) m.cells fs := by
    rw [rowsOf, List.forall₂_map_left_iff] at hf
    rw [List.forall₂_iff_get] at hf ⊢
    exact ⟨hf.1, fun i h1 h2 => ⟨List.get_mem _ _, hf.2 i h1 h2⟩⟩
  refine hf'.imp (fun c f h => ?_)
  obtain ⟨hc, hg, hnd, hkeys, hvals⟩ := h
  have hget : ∀ k v, (k, v) ∈ f.properties ↔ Dict.get? f.properties k = some v := by
    intro k v
    generalize f.properties = d at hnd
    induction d with
    | nil => simp
    | cons p d ih =>
      obtain ⟨a, b⟩ := p
      rw [List.map_cons, List.nodup_cons] at hnd
      simp only [List.mem_cons, Dict.get?, ih hnd.2]
      by_cases h : a = k
      · subst h
        rw [if_pos rfl]
        have : Dict.get? d a = none := by
          by_contra hc
          exact hnd.1 ((Dict.mem_keys_iff d a).2 (Option.isSome_iff_ne_none.2 hc))
        rw [this]
        simp [eq_comm]
      · rw [if_neg h]
        simp [Ne.symm h]
  have hsome : ∀ k, Spec.Shown (rowsOf m) none k → ∃ v, Dict.get? f.properties k = some v := by
    intro k hs
    exact Option.isSome_iff_exists.1 ((Dict.mem_keys_iff _ k).1 ((hkeys k).2 hs))
  refine ⟨?_, ?_, ?_⟩
  · rw [hgeo c hc] at hg
    injection hg with hg
    injection hg with hg
    exact hg.symm
  · have hs : Spec.Shown (rowsOf m) none "id" :=
      ⟨⟨_, List.mem_map.2 ⟨c, hc, rfl⟩, (Dict.mem_keys_iff _ _).2 (by rw [hid c hc]; rfl)⟩, by decide, by decide, by decide, by decide, by decide,
        fun d hd => by cases hd⟩
    obtain ⟨v, hv⟩ := hsome _ hs
    rw [hv, (hvals "id" v ((hget _ _).2 hv)).1 rfl _ (hid c hc)]
  · intro k hki
    by_cases hs : ∃ c' ∈ m.cells, k ∈ c'.data.map Prod.fst
    · rw [if_pos hs]
      have hs' := (hshown k hki).2 hs
      obtain ⟨v, hv⟩ := hsome k hs'
      rw [hv]
      have := (hvals k v ((hget _ _).2 hv)).2 hki
      rw [hother c hc k (hres k hki hs')] at this
      congr 1
      cases hg' : Dict.get? c.data k with
      | none => rw [hg'] at this; cases this; rfl
      | some w =>
        rw [hg'] at this
        rcases w with (_ | q) | s
        · cases this; rfl
        · cases this; rfl
        · exact absurd hg' (hnum c hc k s)
    · rw [if_neg hs]
      by_contra hn
      exact hs ((hshown k hki).1 ((hkeys k).1 ((Dict.mem_keys_iff _ k).2 (Option.isSome_iff_ne_none.2 hn))))

/-! ### Examples -/

/-- Three cells with numbers, flags, lists, an infinity and a flag that only two cells have. -/
def exRows : List XRow :=
  [[("geometry", .wkt (.polygon [(0, 0), (0, 5)])), ("cx", .flt (.fin 1)), ("SIC", .flt (.fin 10)), ("land", .bool false), ("speed", .lst [.fin 1, .fin 2]),
      ("ext", .bool false), ("id", .str "0")],
   [("geometry", .wkt (.polygon [(5, 0), (5, 5)])), ("cx", .flt (.fin 6)), ("SIC", .flt (.inf true)), ("land", .bool true), ("speed", .lst [.fin 1, .inf false]),
      ("id", .str "1")],
   [("geometry", .wkt (.polygon [(9, 0), (9, 5)])), ("cx", .flt (.fin 9)), ("land", .bool true), ("speed", .lst []), ("ext", .bool true), ("id", .str "2")]]

/-- The example is exported; `False` is `null` for `land`, which all cells have, and 0 for `ext`. -/
example : (toGeojson false (fun _ => "") none exRows).map (fun l => l.map Feature.properties) = .ok
    [[("SIC", some (.flt (.fin 10))), ("land", none), ("speed", some (.flt (.fin (3 / 2)))), ("ext", some (.flt (.fin 0))), ("id", some (.str "0"))],
     [("SIC", none), ("land", some (.flt (.fin 1))), ("speed", none), ("ext", none), ("id", some (.str "1"))],
     [("SIC", none), ("land", some (.flt (.fin 1))), ("speed", none), ("ext", some (.flt (.fin 1))), ("id", some (.str "2"))]] := by
  decide +kernel

/-- With a file of parameters only the layer is exported. -/
example : (toGeojson false (fun _ => "") (some (.ok (.obj [("data_name", .str ['S', 'I', 'C'])]))) exRows).map (fun l => l.map Feature.properties) = .ok
    [[("SIC", some (.flt (.fin 10))), ("id", some (.str "0"))], [("SIC", none), ("id", some (.str "1"))], [("SIC", none), ("id", some (.str "2"))]] := by
  decide +kernel

/-- A name that the mesh does not have gives features without data, and text raises before pandas 3. -/
example : (toGeojson false (fun _ => "") (some (.ok (.obj [("data_name", .str ['X'])]))) exRows).map (fun l => l.map Feature.properties) = .ok
    [[("id", some (.str "0"))], [("id", some (.str "1"))], [("id", some (.str "2"))]] ∧
    toGeojson false (fun _ => "") none [[("geometry", .wkt (.polygon [(0, 0)])), ("name", .str "a")]] = .error .typeError ∧
    (toGeojson true (fun _ => "") none [[("geometry", .wkt (.polygon [(0, 0)])), ("name", .str "a")]]).map (fun l => l.map Feature.properties) =
      .ok [[("name", some (.str "a"))]] := by
  decide +kernel

/-- The loaded example mesh meets the hypotheses of `C87_mesh`. -/
example : exLoaded.toOption.map (fun m => (decide (m.cells ≠ []), m.cells.all (fun c => (c.data.map Prod.fst).Nodup),
    m.cells.all (fun c => c.data.all (fun p => p.1 ∉ AggCell.reserved && match p.2 with | .num _ => true | .str _ => false)))) = some (true, true, true) := by
  decide +kernel

end Verif
