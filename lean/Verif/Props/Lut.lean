import Mathlib.Tactic.Linarith
import Mathlib.Tactic.NormNum
import Mathlib.Tactic.FieldSimp
import Mathlib.Tactic.Ring
import Mathlib.Algebra.BigOperators.Group.List.Basic
import Mathlib.Algebra.BigOperators.Ring.List
import Verif.Model.Lut

/-!
# C47, C59: decisions and values of look-up-table sources
-/

namespace Verif
open Verif.Lut Classical

/-- Some row of the table that is valid in the time range has a point in common with the cell. -/
def Spec.LutOverlap (cell : ℚ → ℚ → Prop) (time : ℤ × ℤ) (data : List Row) : Prop :=
  ∃ r ∈ data, (r.day = none ∨ ∃ d, r.day = some d ∧ time.1 ≤ d ∧ d ≤ time.2) ∧ ∃ x y, r.geom.mem x y ∧ cell x y

/-- Some row of the table that is valid in the time range has a point of its edge in the cell. -/
def Spec.LutEdge (cell : ℚ → ℚ → Prop) (time : ℤ × ℤ) (data : List Row) : Prop :=
  ∃ r ∈ data, (r.day = none ∨ ∃ d, r.day = some d ∧ time.1 ≤ d ∧ d ≤ time.2) ∧ ∃ x y, r.geom.edge x y ∧ cell x y

/-- The points of a closed rectangle. -/
def Spec.rectPoints (x0 x1 y0 y1 : ℚ) : ℚ → ℚ → Prop := fun x y => x0 ≤ x ∧ x ≤ x1 ∧ y0 ≤ y ∧ y ≤ y1

/-- The points strictly inside a rectangle. -/
def Spec.rectInside (x0 x1 y0 y1 : ℚ) : ℚ → ℚ → Prop := fun x y => x0 < x ∧ x < x1 ∧ y0 < y ∧ y < y1

/-- A rectangular polygon. -/
def Spec.rectGeom (x0 x1 y0 y1 : ℚ) : Geom where
  mem := Spec.rectPoints x0 x1 y0 y1
  edge x y := Spec.rectPoints x0 x1 y0 y1 x y ∧ ¬ Spec.rectInside x0 x1 y0 y1 x y

theorem lut_inTime_iff (time : ℤ × ℤ) (r : Row) :
    InTime time r ↔ (r.day = none ∨ ∃ d, r.day = some d ∧ time.1 ≤ d ∧ d ≤ time.2) := by
  unfold InTime
  cases r.day <;> simp

theorem lut_mem_trim (cell : ℚ → ℚ → Prop) (time : ℤ × ℤ) (data : List Row) (r : Row) :
    r ∈ trim cell time data ↔ r ∈ data ∧ InTime time r ∧ Meets r.geom.mem cell := by
  simp only [trim, List.mem_filter, decide_eq_true_eq]
  tauto

theorem lut_overlap_iff (cell : ℚ → ℚ → Prop) (time : ℤ × ℤ) (data : List Row) :
    (∃ p ∈ (trim cell time data).map (·.geom), Meets p.mem cell) ↔ Spec.LutOverlap cell time data := by
  constructor
  · rintro ⟨p, hp, hm⟩
    obtain ⟨r, hr, rfl⟩ := List.mem_map.1 hp
    obtain ⟨h1, h2, h3⟩ := (lut_mem_trim ..).1 hr
    exact ⟨r, h1, (lut_inTime_iff ..).1 h2, h3⟩
  · rintro ⟨r, h1, h2, h3⟩
    exact ⟨r.geom, List.mem_map.2 ⟨r, (lut_mem_trim ..).2 ⟨h1, (lut_inTime_iff ..).2 h2, h3⟩, rfl⟩, h3⟩

theorem lut_edge_iff (cell : ℚ → ℚ → Prop) (time : ℤ × ℤ) (data : List Row) (he : ∀ r ∈ data, ∀ x y, r.geom.edge x y → r.geom.mem x y) :
    (∃ p ∈ (trim cell time data).map (·.geom), Meets p.edge cell) ↔ Spec.LutEdge cell time data := by
  constructor
  · rintro ⟨p, hp, hm⟩
    obtain ⟨r, hr, rfl⟩ := List.mem_map.1 hp
    obtain ⟨h1, h2, h3⟩ := (lut_mem_trim ..).1 hr
    exact ⟨r, h1, (lut_inTime_iff ..).1 h2, hm⟩
  · rintro ⟨r, h1, h2, x, y, h3, h4⟩
    exact ⟨r.geom, List.mem_map.2 ⟨r, (lut_mem_trim ..).2 ⟨h1, (lut_inTime_iff ..).2 h2, x, y, he r h1 x y h3, h4⟩, rfl⟩, x, y, h3, h4⟩

/-- **C47** The decision for a cell, for every table of polygons of any shape: heterogeneous exactly when
boundary splitting is requested and some polygon valid in the time range has a point of its edge in the
(closed) cell; locked exactly when no polygon has a point in the cell and `split_lock` is set; clear
otherwise. -/
theorem C47_decision (cell : ℚ → ℚ → Prop) (time : ℤ × ℤ) (b l : Bool) (data : List Row)
    (he : ∀ r ∈ data, ∀ x y, r.geom.edge x y → r.geom.mem x y) :
    (homCondition cell time ⟨some b, some l⟩ data = .ok .het ↔ b = true ∧ Spec.LutEdge cell time data) ∧
    (homCondition cell time ⟨some b, some l⟩ data = .ok .hom ↔ l = true ∧ ¬ Spec.LutOverlap cell time data) ∧
    ∃ v, homCondition cell time ⟨some b, some l⟩ data = .ok v := by
  have himp : Spec.LutEdge cell time data → Spec.LutOverlap cell time data := by
    rintro ⟨r, h1, h2, x, y, h3, h4⟩
    exact ⟨r, h1, h2, x, y, he r h1 x y h3, h4⟩
  unfold homCondition
  simp only [lut_overlap_iff, lut_edge_iff cell time data he, entry, bind, Except.bind]
  by_cases ho : Spec.LutOverlap cell time data <;> by_cases hg : Spec.LutEdge cell time data <;> cases b <;> cases l <;>
    simp_all

/-- **C47** If an entry of the splitting conditions is missing, the decision raises `KeyError` exactly when
that entry is needed: `split_lock` for cells without polygons, `boundary` for the others. -/
theorem C47_missing (cell : ℚ → ℚ → Prop) (time : ℤ × ℤ) (conds : Conds) (data : List Row) :
    homCondition cell time conds data = .error .keyError ↔
      (¬ Spec.LutOverlap cell time data ∧ conds.splitLock = none) ∨ (Spec.LutOverlap cell time data ∧ conds.boundary = none) := by
  obtain ⟨b, l⟩ := conds
  unfold homCondition
  simp only [lut_overlap_iff, bind, Except.bind]
  by_cases ho : Spec.LutOverlap cell time data
  · rcases b with _ | b
    · simp [ho, entry]
    · cases b <;> simp only [ho, entry] <;> simp
      split <;> simp
  · rcases l with _ | l
    · simp [ho, entry]
    · cases l <;> simp [ho, entry]

/-- **C47** (partial: no polygon merely touches the cell.) A rectangular cell is heterogeneous exactly when
boundary splitting is requested and the edge of some polygon runs through the inside of the cell. -/
theorem C47_through_partial (x0 x1 y0 y1 : ℚ) (time : ℤ × ℤ) (b l : Bool) (data : List Row)
    (he : ∀ r ∈ data, ∀ x y, r.geom.edge x y → r.geom.mem x y)
    (ht : ∀ r ∈ data, (∃ x y, r.geom.edge x y ∧ Spec.rectPoints x0 x1 y0 y1 x y) →
      ∃ x y, r.geom.edge x y ∧ Spec.rectInside x0 x1 y0 y1 x y) :
    homCondition (Spec.rectPoints x0 x1 y0 y1) time ⟨some b, some l⟩ data = .ok .het ↔
      b = true ∧ Spec.LutEdge (Spec.rectInside x0 x1 y0 y1) time data := by
  rw [(C47_decision _ time b l data he).1]
  refine and_congr_right fun _ => ⟨?_, ?_⟩
  · rintro ⟨r, h1, h2, h3⟩
    exact ⟨r, h1, h2, ht r h1 h3⟩
  · rintro ⟨r, h1, h2, x, y, h3, h4, h5, h6, h7⟩
    exact ⟨r, h1, h2, x, y, h3, h4.le, h5.le, h6.le, h7.le⟩

/-- A cell cut in two by the edge of a polygon meets the hypotheses and is heterogeneous. -/
example : homCondition (Spec.rectPoints 0 4 0 4) (0, 9) ⟨some true, some false⟩ [⟨some 3, Spec.rectGeom (-1) 2 (-1) 5, some 7⟩] =
    .ok .het := by
  refine (C47_through_partial 0 4 0 4 (0, 9) true false _ ?_ ?_).2 ⟨rfl, ?_⟩
  · intro r hr x y h
    obtain rfl := List.mem_singleton.1 hr
    exact h.1
  · intro r hr _
    obtain rfl := List.mem_singleton.1 hr
    exact ⟨2, 2, by norm_num [Spec.rectGeom, Spec.rectPoints, Spec.rectInside], by norm_num [Spec.rectInside]⟩
  · exact ⟨_, List.mem_singleton.2 rfl, .inr ⟨3, rfl, by norm_num, by norm_num⟩, 2, 2,
      by norm_num [Spec.rectGeom, Spec.rectPoints, Spec.rectInside], by norm_num [Spec.rectInside]⟩

/-- **C47** The claim is false for polygons that merely touch the cell: a cell beside a polygon, none of
whose edges enter it, is heterogeneous (so it is split, down to the last depth along the whole edge), and
it is not locked though it overlaps no polygon in more than its border. -/
theorem C47_touching_false : ∃ data : List Row, (∀ r ∈ data, ∀ x y, r.geom.edge x y → r.geom.mem x y) ∧
    ¬ Spec.LutEdge (Spec.rectInside 0 4 0 4) (0, 9) data ∧ ¬ Spec.LutOverlap (Spec.rectInside 0 4 0 4) (0, 9) data ∧
    homCondition (Spec.rectPoints 0 4 0 4) (0, 9) ⟨some true, some true⟩ data = .ok .het := by
  have he : ∀ r ∈ [(⟨none, Spec.rectGeom 4 8 0 4, some 7⟩ : Row)], ∀ x y, r.geom.edge x y → r.geom.mem x y := by
    intro r hr x y h
    obtain rfl := List.mem_singleton.1 hr
    exact h.1
  have hno : ¬ Spec.LutOverlap (Spec.rectInside 0 4 0 4) (0, 9) [(⟨none, Spec.rectGeom 4 8 0 4, some 7⟩ : Row)] := by
    rintro ⟨r, hr, -, x, y, h1, h2⟩
    obtain rfl := List.mem_singleton.1 hr
    exact absurd h1.1 (not_le.2 h2.2.1)
  refine ⟨_, he, ?_, hno, ((C47_decision _ _ _ _ _ he).1).2 ⟨rfl, _, List.mem_singleton.2 rfl, .inl rfl, 4, 2, ?_, ?_⟩⟩
  · rintro ⟨r, h1, h2, x, y, h3, h4⟩
    exact hno ⟨r, h1, h2, x, y, he r h1 x y h3, h4⟩
  · norm_num [Spec.rectGeom, Spec.rectPoints, Spec.rectInside]
  · norm_num [Spec.rectPoints]

/-! ## C59: values -/

/-- The rows of the table with a point in the cell, valid in the time range. -/
noncomputable def Spec.lutRows (cell : ℚ → ℚ → Prop) (time : ℤ × ℤ) (data : List Row) : List Row :=
  data.filter (fun r => (r.day = none ∨ ∃ d, r.day = some d ∧ time.1 ≤ d ∧ d ≤ time.2) ∧ ∃ x y, r.geom.mem x y ∧ cell x y)

theorem lut_trim_eq (cell : ℚ → ℚ → Prop) (time : ℤ × ℤ) (data : List Row) : trim cell time data = Spec.lutRows cell time data := by
  unfold trim Spec.lutRows
  rw [List.filter_filter]
  refine List.filter_congr fun r _ => ?_
  have := lut_inTime_iff time r
  rw [Bool.eq_iff_iff, Bool.and_eq_true, decide_eq_true_eq, decide_eq_true_eq, decide_eq_true_eq, this, and_comm]
  rfl

theorem foldl_min (l : List ℚ) (v : ℚ) : (l.foldl min v = v ∨ l.foldl min v ∈ l) ∧ ∀ w ∈ v :: l, l.foldl min v ≤ w := by
  induction l generalizing v with
  | nil => simp
  | cons a l ih =>
    obtain ⟨h1, h2⟩ := ih (min v a)
    simp only [List.foldl_cons]
    refine ⟨?_, ?_⟩
    · rcases h1 with h1 | h1
      · rcases min_choice v a with h | h <;> rw [h] at h1 ⊢ <;> simp [h1]
      · simp [h1]
    · have h3 := h2 _ (List.mem_cons_self ..)
      intro w hw
      rcases List.mem_cons.1 hw with rfl | hw
      · exact h3.trans (min_le_left _ _)
      · rcases List.mem_cons.1 hw with rfl | hw
        · exact h3.trans (min_le_right _ _)
        · exact h2 w (List.mem_cons_of_mem _ hw)

theorem foldl_max (l : List ℚ) (v : ℚ) : (l.foldl max v = v ∨ l.foldl max v ∈ l) ∧ ∀ w ∈ v :: l, w ≤ l.foldl max v := by
  induction l generalizing v with
  | nil => simp
  | cons a l ih =>
    obtain ⟨h1, h2⟩ := ih (max v a)
    simp only [List.foldl_cons]
    refine ⟨?_, ?_⟩
    · rcases h1 with h1 | h1
      · rcases max_choice v a with h | h <;> rw [h] at h1 ⊢ <;> simp [h1]
      · simp [h1]
    · have h3 := h2 _ (List.mem_cons_self ..)
      intro w hw
      rcases List.mem_cons.1 hw with rfl | hw
      · exact (le_max_left _ _).trans h3
      · rcases List.mem_cons.1 hw with rfl | hw
        · exact (le_max_right _ _).trans h3
        · exact h2 w (List.mem_cons_of_mem _ hw)

/-- What an extreme of the values must be: NaN if nothing is to be compared, or if a NaN is not to be
skipped; else one of the values, and not beaten by any. -/
def Spec.LutExtreme (le : ℚ → ℚ → Prop) (skipna : Bool) (vs : List (Option ℚ)) (res : Option ℚ) : Prop :=
  (res = none ↔ (∀ v : ℚ, some v ∉ vs) ∨ (skipna = false ∧ none ∈ vs)) ∧
    ∀ q, res = some q → some q ∈ vs ∧ ∀ v, some v ∈ vs → le q v

theorem extreme_spec (f : ℚ → ℚ → ℚ) (le : ℚ → ℚ → Prop)
    (hf : ∀ (l : List ℚ) (v : ℚ), (l.foldl f v = v ∨ l.foldl f v ∈ l) ∧ ∀ w ∈ v :: l, le (l.foldl f v) w)
    (skipna : Bool) (vs : List (Option ℚ)) : Spec.LutExtreme le skipna vs (extreme f skipna vs) := by
  have hmem : ∀ v : ℚ, some v ∈ vs ↔ v ∈ vs.filterMap id := by
    intro v; simp [List.mem_filterMap]
  unfold extreme Spec.LutExtreme
  split
  · rename_i h
    exact ⟨iff_of_true rfl (.inr h), fun q hq => absurd hq (by simp)⟩
  · rename_i h
    rcases hl : vs.filterMap id with _ | ⟨v, r⟩
    · simp only
      exact ⟨iff_of_true trivial (.inl fun v => by rw [hmem, hl]; simp), fun q hq => absurd hq (by simp)⟩
    · simp only
      obtain ⟨h1, h2⟩ := hf r v
      refine ⟨iff_of_false (by simp) ?_, ?_⟩
      · rintro (h' | h')
        · exact h' v ((hmem v).2 (by rw [hl]; simp))
        · exact h h'
      · intro q hq
        obtain rfl := Option.some.inj hq
        refine ⟨(hmem _).2 ?_, fun w hw => h2 w ?_⟩
        · rw [hl]
          rcases h1 with h1 | h1
          · rw [h1]; simp
          · exact List.mem_cons_of_mem _ h1
        · rw [← hl]; exact (hmem w).1 hw

/-- **C59** `MIN`, `MAX` and `COUNT` of a cell are those of the values of exactly the polygons with a point
in the cell; `COUNT` counts them; none of them raises. -/
theorem C59_extremes (coverage : List Geom → ℚ) (cell : ℚ → ℚ → Prop) (time : ℤ × ℤ) (skipna : Bool) (data : List Row) :
    (∃ lo, getValue coverage cell time .min skipna data = .ok lo ∧
      Spec.LutExtreme (· ≤ ·) skipna ((Spec.lutRows cell time data).map (·.value)) lo) ∧
    (∃ hi, getValue coverage cell time .max skipna data = .ok hi ∧
      Spec.LutExtreme (· ≥ ·) skipna ((Spec.lutRows cell time data).map (·.value)) hi) ∧
    getValue coverage cell time .count skipna data = .ok (some (Spec.lutRows cell time data).length) := by
  unfold getValue
  rw [lut_trim_eq]
  refine ⟨?_, ?_, rfl⟩
  · by_cases h : (Spec.lutRows cell time data).length = 0
    · refine ⟨none, by simp [h], ?_⟩
      rw [List.eq_nil_of_length_eq_zero h]
      simp [Spec.LutExtreme]
    · exact ⟨_, by simp only [h]; rfl, extreme_spec _ _ foldl_min _ _⟩
  · by_cases h : (Spec.lutRows cell time data).length = 0
    · refine ⟨none, by simp [h], ?_⟩
      rw [List.eq_nil_of_length_eq_zero h]
      simp [Spec.LutExtreme]
    · exact ⟨_, by simp only [h]; rfl, extreme_spec _ _ foldl_max _ _⟩

/-- With one polygon in the cell, of value 7, and one beside it, `MIN` is 7. -/
example : ∃ lo, getValue (fun _ => 1) (Spec.rectPoints 0 4 0 4) (0, 9) .min false
    [⟨some 3, Spec.rectGeom 1 2 1 2, some 7⟩, ⟨none, Spec.rectGeom 5 6 1 2, some 3⟩] = .ok lo ∧ lo = some 7 := by
  obtain ⟨lo, h1, h2, h3⟩ := (C59_extremes (fun _ => 1) (Spec.rectPoints 0 4 0 4) (0, 9) false
    [⟨some 3, Spec.rectGeom 1 2 1 2, some 7⟩, ⟨none, Spec.rectGeom 5 6 1 2, some 3⟩]).1
  have hrows : Spec.lutRows (Spec.rectPoints 0 4 0 4) (0, 9)
      [⟨some 3, Spec.rectGeom 1 2 1 2, some 7⟩, ⟨none, Spec.rectGeom 5 6 1 2, some 3⟩] = [⟨some 3, Spec.rectGeom 1 2 1 2, some 7⟩] := by
    have e1 : ∃ x y, (Spec.rectGeom 1 2 1 2).mem x y ∧ Spec.rectPoints 0 4 0 4 x y :=
      ⟨1, 1, by norm_num [Spec.rectGeom, Spec.rectPoints], by norm_num [Spec.rectPoints]⟩
    have e2 : ¬ ∃ x y, (Spec.rectGeom 5 6 1 2).mem x y ∧ Spec.rectPoints 0 4 0 4 x y := by
      rintro ⟨x, y, e, e'⟩
      linarith [e.1, e'.2.1]
    simp [Spec.lutRows, List.filter, e1, e2]
  rw [hrows] at h2 h3
  refine ⟨lo, h1, ?_⟩
  rcases lo with _ | q
  · rcases h2.1 rfl with h | h
    · exact absurd (List.mem_singleton.2 rfl) (h 7)
    · simp at h
  · simpa using (h3 q rfl).1

/-- The average of values with weights. -/
def Spec.weighted (rows : List (ℚ × ℚ)) : ℚ := (rows.map (fun r => r.1 * r.2)).sum / (rows.map Prod.snd).sum

/-- What `MEAN` computes: the plain average of the values of the polygons with a point in the cell,
whatever their areas. -/
theorem mean_plain (coverage : List Geom → ℚ) (cell : ℚ → ℚ → Prop) (time : ℤ × ℤ) (skipna : Bool) (data : List Row)
    (val : Row → ℚ) (hv : ∀ r ∈ Spec.lutRows cell time data, r.value = some (val r))
    (hn : Spec.lutRows cell time data ≠ []) (hc : coverage ((Spec.lutRows cell time data).map (·.geom)) ≠ 0) :
    getValue coverage cell time .mean skipna data =
      .ok (some (((Spec.lutRows cell time data).map val).sum / (Spec.lutRows cell time data).length)) := by
  unfold getValue
  rw [lut_trim_eq]
  generalize Spec.lutRows cell time data = rows at *
  have hlen : rows.length ≠ 0 := by simpa using hn
  have hf : rows.filter (fun r => r.value.isSome) = rows := by
    refine List.filter_eq_self.2 fun r hr => by simp [hv r hr]
  have hsel : (if skipna = true then rows.filter (fun r => r.value.isSome) else rows) = rows := by
    split
    · exact hf
    · rfl
  simp only [hlen, hsel, if_false]
  generalize coverage (rows.map (·.geom)) = w at *
  unfold weightedMean
  have hlq : (rows.length : ℚ) ≠ 0 := by exact_mod_cast hlen
  have hsum : ((rows.map (fun r => (r.value, w))).map Prod.snd).sum = rows.length * w := by
    simp [List.map_map, Function.comp_def]
  have hnone : none ∉ (rows.map (fun r => (r.value, w))).map Prod.fst := by
    intro h
    simp only [List.map_map, List.mem_map, Function.comp] at h
    obtain ⟨r, hr, h⟩ := h
    rw [hv r hr] at h
    exact absurd h (by simp)
  have hval : ((rows.map (fun r => (r.value, w))).map (fun r => r.1.getD 0 * r.2)).sum = (rows.map val).sum * w := by
    rw [List.map_map, ← List.sum_map_mul_right]
    congr 1
    refine List.map_congr_left fun r hr => ?_
    simp [hv r hr]
  simp only [hsum, hval, if_neg hnone, mul_ne_zero hlq hc, if_false]
  congr 2
  field_simp

/-- **C59** (partial: the polygons overlap the cell in equal areas.) `MEAN` is the average of the values of
the polygons in the cell, weighted with the areas of the overlaps. -/
theorem C59_mean_partial (coverage : List Geom → ℚ) (cell : ℚ → ℚ → Prop) (time : ℤ × ℤ) (skipna : Bool) (data : List Row)
    (val : Row → ℚ) (area : Row → ℚ) (a : ℚ) (ha : 0 < a) (heq : ∀ r ∈ Spec.lutRows cell time data, area r = a)
    (hv : ∀ r ∈ Spec.lutRows cell time data, r.value = some (val r))
    (hn : Spec.lutRows cell time data ≠ []) (hc : coverage ((Spec.lutRows cell time data).map (·.geom)) ≠ 0) :
    getValue coverage cell time .mean skipna data =
      .ok (some (Spec.weighted ((Spec.lutRows cell time data).map (fun r => (val r, area r))))) := by
  rw [mean_plain coverage cell time skipna data val hv hn hc]
  generalize Spec.lutRows cell time data = rows at *
  have hlq : (rows.length : ℚ) ≠ 0 := by simpa using hn
  congr 2
  unfold Spec.weighted
  have h1 : ((rows.map (fun r => (val r, area r))).map (fun r => r.1 * r.2)).sum = (rows.map val).sum * a := by
    rw [List.map_map, ← List.sum_map_mul_right]
    congr 1
    refine List.map_congr_left fun r hr => ?_
    simp [heq r hr]
  have h2 : ((rows.map (fun r => (val r, area r))).map Prod.snd).sum = rows.length * a := by
    rw [List.map_map, List.map_congr_left (g := fun _ => a) (fun r hr => by simp [heq r hr])]
    simp
  rw [h1, h2]
  field_simp

/-- The rectangles of the counterexample: the cell `[0,4] × [0,4]` is covered to three quarters by the
first and to one quarter by the second; the third is the neighbour that only touches the cell. -/
def exLut : List Row :=
  [⟨none, Spec.rectGeom 0 3 0 4, some 10⟩, ⟨none, Spec.rectGeom 3 4 0 4, some 20⟩, ⟨none, Spec.rectGeom 4 8 0 4, some 90⟩]

theorem exLut_rows : Spec.lutRows (Spec.rectPoints 0 4 0 4) (0, 9) exLut = exLut := by
  refine List.filter_eq_self.2 fun r hr => ?_
  simp only [exLut, List.mem_cons, List.not_mem_nil, or_false] at hr
  rw [decide_eq_true_eq]
  rcases hr with rfl | rfl | rfl
  · exact ⟨.inl rfl, 1, 1, by norm_num [Spec.rectGeom, Spec.rectPoints], by norm_num [Spec.rectPoints]⟩
  · exact ⟨.inl rfl, 3, 1, by norm_num [Spec.rectGeom, Spec.rectPoints], by norm_num [Spec.rectPoints]⟩
  · exact ⟨.inl rfl, 4, 1, by norm_num [Spec.rectGeom, Spec.rectPoints], by norm_num [Spec.rectPoints]⟩

/-- **C59** The claim is false in general: whatever (non-zero) coverage is computed, the mean of a cell
covered to three quarters by a polygon of value 10 and to one quarter by one of value 20 is 40, because a
polygon of value 90 touching the cell from outside counts as much as the others. -/
theorem C59_mean_false (coverage : List Geom → ℚ) (hc : coverage (exLut.map (·.geom)) ≠ 0) (skipna : Bool) :
    getValue coverage (Spec.rectPoints 0 4 0 4) (0, 9) .mean skipna exLut = .ok (some 40) ∧
      Spec.weighted [(10, 12), (20, 4), (90, 0)] = 25 / 2 := by
  constructor
  · rw [mean_plain coverage _ _ skipna exLut (fun r => r.value.getD 0)]
    · rw [exLut_rows]
      norm_num [exLut]
    · rw [exLut_rows]
      intro r hr
      simp only [exLut, List.mem_cons, List.not_mem_nil, or_false] at hr
      rcases hr with rfl | rfl | rfl <;> rfl
    · rw [exLut_rows]; simp [exLut]
    · rw [exLut_rows]; exact hc
  · norm_num [Spec.weighted]

/-- Two halves of a cell meet the hypotheses of `C59_mean_partial`. -/
example : getValue (fun _ => 1) (Spec.rectPoints 0 4 0 4) (0, 9) .mean false
    [⟨some 3, Spec.rectGeom 0 2 0 4, some 10⟩, ⟨none, Spec.rectGeom 2 4 0 4, some 20⟩, ⟨some 12, Spec.rectGeom 2 4 0 4, some 70⟩] = .ok (some 15) := by
  have hrows : Spec.lutRows (Spec.rectPoints 0 4 0 4) (0, 9)
      [⟨some 3, Spec.rectGeom 0 2 0 4, some 10⟩, ⟨none, Spec.rectGeom 2 4 0 4, some 20⟩, ⟨some 12, Spec.rectGeom 2 4 0 4, some 70⟩] =
      [⟨some 3, Spec.rectGeom 0 2 0 4, some 10⟩, ⟨none, Spec.rectGeom 2 4 0 4, some 20⟩] := by
    have h1 : ∃ x y, (Spec.rectGeom 0 2 0 4).mem x y ∧ Spec.rectPoints 0 4 0 4 x y :=
      ⟨1, 1, by norm_num [Spec.rectGeom, Spec.rectPoints], by norm_num [Spec.rectPoints]⟩
    have h2 : ∃ x y, (Spec.rectGeom 2 4 0 4).mem x y ∧ Spec.rectPoints 0 4 0 4 x y :=
      ⟨3, 1, by norm_num [Spec.rectGeom, Spec.rectPoints], by norm_num [Spec.rectPoints]⟩
    simp [Spec.lutRows, List.filter, h1, h2]
  rw [C59_mean_partial (fun _ => 1) _ _ _ _ (fun r => r.value.getD 0) (fun _ => 8) 8 (by norm_num) (fun _ _ => rfl)]
  · rw [hrows]; norm_num [Spec.weighted]
  · rw [hrows]
    intro r hr
    simp only [List.mem_cons, List.not_mem_nil, or_false] at hr
    rcases hr with rfl | rfl <;> rfl
  · rw [hrows]; simp
  · norm_num

end Verif
