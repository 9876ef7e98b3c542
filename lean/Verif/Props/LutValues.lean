import Mathlib.Tactic.Ring
import Verif.Props.LutFiles

/-!
# C93, C94: values and names of look-up tables read from files
-/

namespace Verif
open Verif.LutInit Classical

/-- The values that a cell finds, as numbers. -/
noncomputable def Spec.values (found : List (LutInit.Shape × LVal)) : List (Option ℚ) := found.map (fun p => (p.2.num?).getD none)

theorem geom_mem (s : LutInit.Shape) : s.geom.mem = s.mem := by cases s <;> rfl

theorem trim_touch (c : ℚ → ℚ → Prop) (time : ℤ × ℤ) (t : LTable) : ∀ r ∈ (LutInit.trim c time t).rows, Spec.Touch r.shape.mem c := by
  intro r hr
  unfold LutInit.trim at hr
  have := (List.mem_filter.1 hr).2
  simp only [decide_eq_true_eq] at this
  exact this

theorem lutRows_self (c : ℚ → ℚ → Prop) (time : ℤ × ℤ) (t : LTable) :
    Spec.lutRows c time (LutInit.lutRows (LutInit.trim c time t).rows) = LutInit.lutRows (LutInit.trim c time t).rows := by
  unfold Spec.lutRows
  refine List.filter_eq_self.2 fun r hr => ?_
  obtain ⟨r', hr', rfl⟩ := List.mem_map.1 hr
  have := trim_touch c time t r' hr'
  simp only [true_or, true_and, geom_mem, decide_eq_true_eq]
  exact this

theorem lutRows_values (rows : List TRow) : (LutInit.lutRows rows).map (·.value) = Spec.values (rows.map Spec.content) := by
  unfold LutInit.lutRows Spec.values
  simp only [List.map_map]
  rfl

/-- The value of a loader whose table has a column of its name and no texts in the cell is that of its rows. -/
theorem getValue_rows (area : (ℚ → ℚ → Prop) → ℚ) (c : ℚ → ℚ → Prop) (time : ℤ × ℤ) (agg : Lut.Agg) (skipna : Bool) (l : LutInit.Loader)
    (hn : l.name ∈ l.table.columns) (ht : ∀ p ∈ Spec.found c time l, ∀ s, p.2 ≠ .text s) :
    LutInit.getValue area c time agg skipna l =
      Lut.getValue (geomCover area c) c time agg skipna (LutInit.lutRows (LutInit.trim c time l.table).rows) := by
  unfold LutInit.getValue
  have h2 : ¬ (agg ≠ .count ∧ ∃ r ∈ (LutInit.trim c time l.table).rows, LutInit.isText r.value = true) := by
    rintro ⟨-, r, hr, h⟩
    have := ht _ (List.mem_map_of_mem hr)
    cases hv : r.value with
    | text s => exact this s hv
    | num q => rw [hv] at h; simp [LutInit.isText] at h
    | bool b => rw [hv] at h; simp [LutInit.isText] at h
  dsimp only
  rw [if_neg (fun h => h.2.2 hn), if_neg h2]

theorem getValue_extremes (area : (ℚ → ℚ → Prop) → ℚ) (c : ℚ → ℚ → Prop) (time : ℤ × ℤ) (skipna : Bool) (l : LutInit.Loader)
    (hn : l.name ∈ l.table.columns) (ht : ∀ p ∈ Spec.found c time l, ∀ s, p.2 ≠ .text s) :
    (∃ lo, LutInit.getValue area c time .min skipna l = .ok lo ∧
      Spec.LutExtreme (· ≤ ·) skipna (Spec.values (Spec.found c time l)) lo) ∧
    (∃ hi, LutInit.getValue area c time .max skipna l = .ok hi ∧
      Spec.LutExtreme (· ≥ ·) skipna (Spec.values (Spec.found c time l)) hi) := by
  obtain ⟨h1, h2, -⟩ := C59_extremes (geomCover area c) c time skipna (LutInit.lutRows (LutInit.trim c time l.table).rows)
  rw [lutRows_self, lutRows_values] at h1 h2
  rw [getValue_rows area c time .min skipna l hn ht, getValue_rows area c time .max skipna l hn ht]
  exact ⟨h1, h2⟩

/-! ### Which polygons are found -/

theorem found_files (rep : (ℚ → ℚ → Prop) → LutInit.Shape) (shapes : List LutInit.Shape) (value alt : LVal) (c : ℚ → ℚ → Prop) :
    (∃ p ∈ Spec.inCell c (Spec.filePolygons rep shapes value alt), p.2 = value) ↔
      Spec.Reaches shapes c ∨ (alt = value ∧ ∃ g ∈ Spec.partsOf (rep (Spec.Rest shapes)), Spec.Touch g.mem c) := by
  unfold Spec.inCell Spec.filePolygons Spec.Reaches
  constructor
  · rintro ⟨p, hp, hv⟩
    obtain ⟨hp, ht⟩ := List.mem_filter.1 hp
    simp only [decide_eq_true_eq] at ht
    rcases List.mem_append.1 hp with hp | hp
    · obtain ⟨g, hg, rfl⟩ := List.mem_map.1 hp
      obtain ⟨s, hs, hg⟩ := List.mem_flatMap.1 hg
      exact .inl ⟨s, hs, g, hg, ht⟩
    · obtain ⟨g, hg, rfl⟩ := List.mem_map.1 hp
      exact .inr ⟨hv, g, hg, ht⟩
  · rintro (⟨s, hs, g, hg, ht⟩ | ⟨rfl, g, hg, ht⟩)
    · exact ⟨(g, value), List.mem_filter.2 ⟨List.mem_append_left _ (List.mem_map.2 ⟨g, List.mem_flatMap.2 ⟨s, hs, hg⟩, rfl⟩), by simpa using ht⟩, rfl⟩
    · exact ⟨(g, alt), List.mem_filter.2 ⟨List.mem_append_right _ (List.mem_map.2 ⟨g, hg, rfl⟩), by simpa using ht⟩, rfl⟩

theorem rest_touch (rep : (ℚ → ℚ → Prop) → LutInit.Shape) (hrep : Spec.Represents rep) (s : ℚ → ℚ → Prop) (c : ℚ → ℚ → Prop) :
    (∃ g ∈ Spec.partsOf (rep s), Spec.Touch g.mem c) ↔ Spec.Touch s c := by
  constructor
  · rintro ⟨g, hg, x, y, h1, h2⟩
    exact ⟨x, y, ((hrep s).2 x y).1 ((areal_mem (hrep s).1 x y).2 ⟨g, hg, h1⟩), h2⟩
  · rintro ⟨x, y, h1, h2⟩
    obtain ⟨g, hg, h⟩ := (areal_mem (hrep s).1 x y).1 (((hrep s).2 x y).2 h1)
    exact ⟨g, hg, x, y, h, h2⟩

theorem found_rest (rep : (ℚ → ℚ → Prop) → LutInit.Shape) (hrep : Spec.Represents rep) (shapes : List LutInit.Shape) (value alt : LVal)
    (hne : alt ≠ value) (c : ℚ → ℚ → Prop) :
    (∃ p ∈ Spec.inCell c (Spec.filePolygons rep shapes value alt), p.2 = alt) ↔ Spec.Touch (Spec.Rest shapes) c := by
  rw [← rest_touch rep hrep]
  unfold Spec.inCell Spec.filePolygons
  constructor
  · rintro ⟨p, hp, hv⟩
    obtain ⟨hp, ht⟩ := List.mem_filter.1 hp
    simp only [decide_eq_true_eq] at ht
    rcases List.mem_append.1 hp with hp | hp
    · obtain ⟨g, hg, rfl⟩ := List.mem_map.1 hp
      exact absurd hv.symm hne
    · obtain ⟨g, hg, rfl⟩ := List.mem_map.1 hp
      exact ⟨g, hg, ht⟩
  · rintro ⟨g, hg, ht⟩
    exact ⟨(g, alt), List.mem_filter.2 ⟨List.mem_append_right _ (List.mem_map.2 ⟨g, hg, rfl⟩), by simpa using ht⟩, rfl⟩

theorem found_cases (rep : (ℚ → ℚ → Prop) → LutInit.Shape) (shapes : List LutInit.Shape) (value alt : LVal) (c : ℚ → ℚ → Prop) :
    ∀ p ∈ Spec.inCell c (Spec.filePolygons rep shapes value alt), p.2 = value ∨ p.2 = alt := by
  intro p hp
  rcases List.mem_append.1 (List.mem_filter.1 hp).1 with hp | hp <;> obtain ⟨g, hg, rfl⟩ := List.mem_map.1 hp
  · exact .inl rfl
  · exact .inr rfl

/-- Every cell on the globe reaches polygons of the files or the rest. -/
theorem reaches_or_rest (shapes : List LutInit.Shape) (c : ℚ → ℚ → Prop) (hc : ∀ x y, c x y → Spec.Globe x y) (hne : ∃ x y, c x y) :
    Spec.Reaches shapes c ∨ Spec.Touch (Spec.Rest shapes) c := by
  obtain ⟨x, y, h⟩ := hne
  by_cases hcov : Spec.Covered shapes x y
  · obtain ⟨s, hs, g, hg, hm⟩ := hcov
    exact .inl ⟨s, hs, g, hg, x, y, hm, h⟩
  · exact .inr ⟨x, y, (C92_rest shapes x y).1 (hc x y h) hcov, h⟩

/-! ### C93 -/

theorem zone_arith (b : Bool) (R T : Prop) (hor : R ∨ T) (lo hi : ℚ)
    (h1 : (some lo = some (if b then 1 else 0) ∧ R) ∨ (some lo = some (if b then 0 else 1) ∧ T))
    (h2 : (some hi = some (if b then 1 else 0) ∧ R) ∨ (some hi = some (if b then 0 else 1) ∧ T))
    (hb : R → T → lo ≤ 0 ∧ hi ≥ 1) :
    (Except.ok (some hi) : Py (Option ℚ)) = .ok (some (if (if b then R else T) then 1 else 0)) ∧
      (Except.ok (some lo) : Py (Option ℚ)) = .ok (some (if (if b then T else R) then 0 else 1)) := by
  have m : ∀ q : ℚ, (some q = some (if b then (1 : ℚ) else 0) ∧ R) ∨ (some q = some (if b then (0 : ℚ) else 1) ∧ T) → q = 0 ∨ q = 1 := by
    intro q h
    cases b <;> rcases h with ⟨h, -⟩ | ⟨h, -⟩ <;> simp only [Option.some.injEq] at h <;> simp [h]
  have n1 := m lo h1
  have n2 := m hi h2
  by_cases hR : R
  · by_cases hT : T
    · obtain ⟨a1, a2⟩ := hb hR hT
      have e1 : lo = 0 := n1.resolve_right (fun h => by linarith)
      have e2 : hi = 1 := n2.resolve_left (fun h => by linarith)
      subst e1 e2
      cases b <;> simp [hR, hT]
    · have h1 := (h1.resolve_right (fun h => hT h.2)).1
      have h2 := (h2.resolve_right (fun h => hT h.2)).1
      cases b <;> simp_all
  · have hT := hor.resolve_left hR
    have h1 := (h1.resolve_left (fun h => hR h.2)).1
    have h2 := (h2.resolve_left (fun h => hR h.2)).1
    cases b <;> simp_all

/-- The values of a cell in a table of zones. -/
theorem zone_values (rep : (ℚ → ℚ → Prop) → LutInit.Shape) (hrep : Spec.Represents rep) (shapes : List LutInit.Shape) (b : Bool)
    (c : ℚ → ℚ → Prop) (hc : ∀ x y, c x y → Spec.Globe x y) (hne : ∃ x y, c x y) (area : (ℚ → ℚ → Prop) → ℚ) (time : ℤ × ℤ) (skipna : Bool)
    (l : LutInit.Loader) (hn : l.name ∈ l.table.columns)
    (hl : Spec.found c time l = (Spec.inCell c (Spec.filePolygons rep shapes (.bool b) (.bool (!b)))).map (fun p => (.polygon p.1, p.2))) :
    LutInit.getValue area c time .max skipna l =
      .ok (some (if (if b then Spec.Reaches shapes c else Spec.Touch (Spec.Rest shapes) c) then 1 else 0)) ∧
    LutInit.getValue area c time .min skipna l =
      .ok (some (if (if b then Spec.Touch (Spec.Rest shapes) c else Spec.Reaches shapes c) then 0 else 1)) := by
  have hcase := found_cases rep shapes (.bool b) (.bool (!b)) c
  have hfile := found_files rep shapes (.bool b) (.bool (!b)) c
  have hrest := found_rest rep hrep shapes (.bool b) (.bool (!b)) (by cases b <;> simp) c
  have hor := reaches_or_rest shapes c hc hne
  have hfile : (∃ p ∈ Spec.inCell c (Spec.filePolygons rep shapes (.bool b) (.bool (!b))), p.2 = .bool b) ↔ Spec.Reaches shapes c := by
    rw [hfile]
    refine or_iff_left fun h => ?_
    have := h.1
    cases b <;> simp at this
  have ht : ∀ p ∈ Spec.found c time l, ∀ s, p.2 ≠ .text s := by
    intro p hp s h
    rw [hl] at hp
    obtain ⟨q, hq, rfl⟩ := List.mem_map.1 hp
    rcases hcase q hq with h' | h' <;> rw [h'] at h <;> simp at h
  obtain ⟨⟨lo, h1, h1n, h1e⟩, ⟨hi, h2, h2n, h2e⟩⟩ := getValue_extremes area c time skipna l hn ht
  have hval : ∀ v : Option ℚ, v ∈ Spec.values (Spec.found c time l) ↔
      (v = some (if b then 1 else 0) ∧ Spec.Reaches shapes c) ∨ (v = some (if b then 0 else 1) ∧ Spec.Touch (Spec.Rest shapes) c) := by
    intro v
    unfold Spec.values
    rw [hl, ← hfile, ← hrest]
    simp only [List.map_map, List.mem_map, Function.comp]
    constructor
    · rintro ⟨p, hp, rfl⟩
      rcases hcase p hp with h | h
      · exact .inl ⟨by rw [h]; rfl, p, hp, h⟩
      · exact .inr ⟨by rw [h]; cases b <;> rfl, p, hp, h⟩
    · rintro (⟨rfl, p, hp, h⟩ | ⟨rfl, p, hp, h⟩)
      · exact ⟨p, hp, by rw [h]; rfl⟩
      · exact ⟨p, hp, by rw [h]; cases b <;> rfl⟩
  have hnone : (none : Option ℚ) ∉ Spec.values (Spec.found c time l) := by
    rw [hval]; simp
  have hsome : ∃ v : ℚ, some v ∈ Spec.values (Spec.found c time l) := by
    rcases hor with h | h
    · exact ⟨_, (hval _).2 (.inl ⟨rfl, h⟩)⟩
    · exact ⟨_, (hval _).2 (.inr ⟨rfl, h⟩)⟩
  have hres : ∀ r : Option ℚ, (r = none ↔ (∀ v : ℚ, some v ∉ Spec.values (Spec.found c time l)) ∨
      (skipna = false ∧ none ∈ Spec.values (Spec.found c time l))) → ∃ q, r = some q := by
    intro r hr
    cases r with
    | some q => exact ⟨q, rfl⟩
    | none =>
      rcases hr.1 rfl with h | h
      · obtain ⟨v, hv⟩ := hsome
        exact absurd hv (h v)
      · exact absurd h.2 hnone
  obtain ⟨lo, rfl⟩ := hres lo h1n
  obtain ⟨hi, rfl⟩ := hres hi h2n
  obtain ⟨h1m, h1b⟩ := h1e lo rfl
  obtain ⟨h2m, h2b⟩ := h2e hi rfl
  rw [h1, h2]
  rw [hval] at h1m h2m
  exact zone_arith b _ _ hor lo hi h1m h2m
    (fun hR hT => ⟨h1b 0 ((hval _).2 (by cases b <;> simp [hR, hT])), h2b 1 ((hval _).2 (by cases b <;> simp [hR, hT]))⟩)

/-- **C93** Zones with a boolean value: for a configuration with the value `True`, the maximum of a cell is `True` exactly if a
polygon of the files reaches it, and its minimum exactly if the rest of the globe does not; with the value `False` the polygons and the rest
change places. -/
theorem C93_boolean (area : (ℚ → ℚ → Prop) → ℚ) (rep : (ℚ → ℚ → Prop) → LutInit.Shape) (hrep : Spec.Represents rep) (cls : String)
    (files : List (List LutInit.Shape)) (hf : files ≠ []) (hs : ∀ s ∈ files.flatten, Spec.Areal s) (b : Bool) (cell : ℚ → ℚ → Prop)
    (hcell : ∀ x y, cell x y → Spec.Globe x y) (hne : ∃ x y, cell x y) (harea : area cell ≠ 0) (time : ℤ × ℤ) (params : Dict String JVal)
    (n : Option String) (hn : Spec.Named params n) (hnn : n ≠ some "time" ∧ n ≠ some "geometry") :
    ∃ l, shapeFiles area rep cls files (.bool b) cell time params = .ok l ∧
      ∀ c time' skipna, (∀ x y, c x y → cell x y) → (∃ x y, c x y) →
        LutInit.getValue area c time' .max skipna l =
          .ok (some (if (if b then Spec.Reaches files.flatten c else Spec.Touch (Spec.Rest files.flatten) c) then 1 else 0)) ∧
        LutInit.getValue area c time' .min skipna l =
          .ok (some (if (if b then Spec.Touch (Spec.Rest files.flatten) c else Spec.Reaches files.flatten c) then 0 else 1)) := by
  obtain ⟨l, h1, h2, h3, h4⟩ := C92_table area rep hrep cls files hf hs (.bool b) cell hcell hne harea time params n hn hnn
  exact ⟨l, h1, fun c time' skipna hc hcn => zone_values rep hrep files.flatten b c (fun x y h => hcell x y (hc x y h)) hcn area time' skipna l
    (by rw [h2, h3]; simp) (h4 c time' hc)⟩

/-- **C93** The exclusion zones of Scotland (without another name in the configuration): a cell has the maximum `True` exactly if a zone reaches it
and the minimum `True` exactly if the rest of the globe does not. -/
theorem C93_zones (area : (ℚ → ℚ → Prop) → ℚ) (rep : (ℚ → ℚ → Prop) → LutInit.Shape) (hrep : Spec.Represents rep)
    (files : List (List LutInit.Shape)) (hf : files ≠ []) (hs : ∀ s ∈ files.flatten, Spec.Areal s) (cell : ℚ → ℚ → Prop)
    (hcell : ∀ x y, cell x y → Spec.Globe x y) (hne : ∃ x y, cell x y) (harea : area cell ≠ 0) (time : ℤ × ℤ) (params : Dict String JVal)
    (n : Option String) (hn : Spec.Named params n) (hnn : n = none ∨ n = some "exclusion_zone") :
    ∃ l, scotland area rep files cell time params = .ok l ∧
      ∀ c time' skipna, (∀ x y, c x y → cell x y) → (∃ x y, c x y) →
        LutInit.getValue area c time' .max skipna l = .ok (some (if Spec.Reaches files.flatten c then 1 else 0)) ∧
        LutInit.getValue area c time' .min skipna l = .ok (some (if Spec.Touch (Spec.Rest files.flatten) c then 0 else 1)) := by
  obtain ⟨l, h1, h2, h3, h4⟩ := C92_zones area rep hrep files hf hs cell hcell hne harea time params n hn
  refine ⟨l, h1, fun c time' skipna hc hcn => ?_⟩
  have := zone_values rep hrep files.flatten true c (fun x y h => hcell x y (hc x y h)) hcn area time' skipna l
    (by rw [h2, h3]; rcases hnn with rfl | rfl <;> simp) (h4 c time' hc)
  simpa only [if_true] using this

/-- A mean with equal weights. -/
theorem mean_equal (q w : ℚ) (hw : w ≠ 0) (vs : List (Option ℚ)) (hne : vs ≠ []) (hv : ∀ v ∈ vs, v = some q ∨ v = none) :
    Lut.weightedMean (vs.map (fun v => (v, w))) = .ok (if none ∈ vs then none else some q) := by
  unfold Lut.weightedMean
  have hlq : (vs.length : ℚ) ≠ 0 := by simpa using hne
  have hsum : ((vs.map (fun v => (v, w))).map Prod.snd).sum = vs.length * w := by
    simp [List.map_map, Function.comp_def]
  have hfst : (vs.map (fun v => (v, w))).map Prod.fst = vs := by simp [Function.comp_def]
  simp only [hsum, hfst, mul_ne_zero hlq hw, if_false]
  by_cases hn : none ∈ vs
  · simp [hn]
  · simp only [hn, if_false]
    have hall : ∀ v ∈ vs, v = some q := fun v h => (hv v h).resolve_right (fun e => hn (e ▸ h))
    have : ((vs.map (fun v => (v, w))).map (fun r => r.1.getD 0 * r.2)).sum = vs.length * (q * w) := by
      rw [List.map_map]
      have h2 : vs.map ((fun r : Option ℚ × ℚ => r.1.getD 0 * r.2) ∘ fun v => (v, w)) = List.replicate vs.length (q * w) := by
        refine List.eq_replicate_iff.2 ⟨by simp, fun b hb => ?_⟩
        obtain ⟨v, hv', rfl⟩ := List.mem_map.1 hb
        rw [hall v hv']
        rfl
      rw [h2, List.sum_replicate]
      simp
    rw [this]
    congr 2
    field_simp

/-- **C93** Polygons with a number: minimum, maximum and mean of a cell are that number if the rest of the globe (with its edge) does not reach
the cell, and `NaN` otherwise; so a cell that is only partly covered has no value. -/
theorem C93_number (area : (ℚ → ℚ → Prop) → ℚ) (rep : (ℚ → ℚ → Prop) → LutInit.Shape) (hrep : Spec.Represents rep) (cls : String)
    (files : List (List LutInit.Shape)) (hf : files ≠ []) (hs : ∀ s ∈ files.flatten, Spec.Areal s) (q : ℚ) (cell : ℚ → ℚ → Prop)
    (hcell : ∀ x y, cell x y → Spec.Globe x y) (hne : ∃ x y, cell x y) (harea : area cell ≠ 0) (time : ℤ × ℤ) (params : Dict String JVal)
    (n : Option String) (hn : Spec.Named params n) (hnn : n ≠ some "time" ∧ n ≠ some "geometry") :
    ∃ l, shapeFiles area rep cls files (.num (some q)) cell time params = .ok l ∧
      ∀ c time', (∀ x y, c x y → cell x y) → (∃ x y, c x y) → area c ≠ 0 → ∀ agg ∈ [Lut.Agg.min, .max, .mean],
        LutInit.getValue area c time' agg false l = .ok (if Spec.Touch (Spec.Rest files.flatten) c then none else some q) := by
  obtain ⟨l, h1, h2, h3, h4⟩ := C92_table area rep hrep cls files hf hs (.num (some q)) cell hcell hne harea time params n hn hnn
  refine ⟨l, h1, fun c time' hc hcn hac agg hagg => ?_⟩
  have hl := h4 c time' hc
  have hglobe : ∀ x y, c x y → Spec.Globe x y := fun x y h => hcell x y (hc x y h)
  have hcase := found_cases rep files.flatten (.num (some q)) (.num none) c
  have hfile := found_files rep files.flatten (.num (some q)) (.num none) c
  have hrest := found_rest rep hrep files.flatten (.num (some q)) (.num none) (by simp) c
  have hor := reaches_or_rest files.flatten c hglobe hcn
  have hname : l.name ∈ l.table.columns := by rw [h2, h3]; simp
  have ht : ∀ p ∈ Spec.found c time' l, ∀ s, p.2 ≠ .text s := by
    intro p hp s h
    rw [hl] at hp
    obtain ⟨q', hq, rfl⟩ := List.mem_map.1 hp
    rcases hcase q' hq with h' | h' <;> rw [h'] at h <;> simp at h
  have hval : ∀ v : Option ℚ, v ∈ Spec.values (Spec.found c time' l) ↔
      (v = some q ∧ Spec.Reaches files.flatten c) ∨ (v = none ∧ Spec.Touch (Spec.Rest files.flatten) c) := by
    intro v
    have hfile : (∃ p ∈ Spec.inCell c (Spec.filePolygons rep files.flatten (.num (some q)) (.num none)), p.2 = .num (some q)) ↔
        Spec.Reaches files.flatten c := by
      rw [hfile]
      simp
    unfold Spec.values
    rw [hl, ← hfile, ← hrest]
    simp only [List.map_map, List.mem_map, Function.comp]
    constructor
    · rintro ⟨p, hp, rfl⟩
      rcases hcase p hp with h | h
      · exact .inl ⟨by rw [h]; rfl, p, hp, h⟩
      · exact .inr ⟨by rw [h]; rfl, p, hp, h⟩
    · rintro (⟨rfl, p, hp, h⟩ | ⟨rfl, p, hp, h⟩)
      · exact ⟨p, hp, by rw [h]; rfl⟩
      · exact ⟨p, hp, by rw [h]; rfl⟩
  have hext : ∀ le : ℚ → ℚ → Prop, ∀ r, Spec.LutExtreme le false (Spec.values (Spec.found c time' l)) r →
      r = if Spec.Touch (Spec.Rest files.flatten) c then none else some q := by
    rintro le r ⟨hr1, hr2⟩
    by_cases hT : Spec.Touch (Spec.Rest files.flatten) c
    · rw [if_pos hT]
      exact hr1.2 (.inr ⟨rfl, (hval none).2 (.inr ⟨rfl, hT⟩)⟩)
    · rw [if_neg hT]
      have hR := hor.resolve_right hT
      cases r with
      | none =>
        rcases hr1.1 rfl with h | h
        · exact absurd ((hval _).2 (.inl ⟨rfl, hR⟩)) (h q)
        · rcases (hval none).1 h.2 with h' | h'
          · simp at h'
          · exact absurd h'.2 hT
      | some v =>
        rcases (hval _).1 (hr2 v rfl).1 with h' | h'
        · exact h'.1
        · simp at h'
  obtain ⟨⟨lo, e1, e2⟩, ⟨hi, e3, e4⟩⟩ := getValue_extremes area c time' false l hname ht
  simp only [List.mem_cons, List.not_mem_nil, or_false] at hagg
  rcases hagg with rfl | rfl | rfl
  · rw [e1, hext _ _ e2]
  · rw [e3, hext _ _ e4]
  · rw [getValue_rows area c time' .mean false l hname ht]
    unfold Lut.getValue
    rw [lut_trim_eq, lutRows_self]
    have hrows : (LutInit.trim c time' l.table).rows ≠ [] := by
      intro h
      have h0 : Spec.found c time' l = [] := by unfold Spec.found; rw [h]; rfl
      rcases hor with h | h
      · have := (hval (some q)).2 (.inl ⟨rfl, h⟩)
        rw [h0] at this; simp [Spec.values] at this
      · have := (hval none).2 (.inr ⟨rfl, h⟩)
        rw [h0] at this; simp [Spec.values] at this
    have hlen : ¬ (LutInit.lutRows (LutInit.trim c time' l.table).rows).length = 0 := by
      simpa [LutInit.lutRows] using hrows
    have hw : geomCover area c ((LutInit.lutRows (LutInit.trim c time' l.table).rows).map (·.geom)) = 1 := by
      unfold geomCover
      have hset : (fun x y => (∃ g ∈ (LutInit.lutRows (LutInit.trim c time' l.table).rows).map (·.geom), g.mem x y) ∧ c x y) = c := by
        funext x y
        refine propext ⟨fun h => h.2, fun h => ⟨?_, h⟩⟩
        have hcov : ∃ p ∈ Spec.filePolygons rep files.flatten (.num (some q)) (.num none), p.1.mem x y := by
          unfold Spec.filePolygons
          by_cases hx : Spec.Covered files.flatten x y
          · obtain ⟨s, hs', g, hg, hm⟩ := hx
            exact ⟨_, List.mem_append_left _ (List.mem_map.2 ⟨g, List.mem_flatMap.2 ⟨s, hs', hg⟩, rfl⟩), hm⟩
          · have := (C92_rest files.flatten x y).1 (hglobe x y h) hx
            obtain ⟨g, hg, hm⟩ := (areal_mem (hrep _).1 x y).1 (((hrep _).2 x y).2 this)
            exact ⟨_, List.mem_append_right _ (List.mem_map.2 ⟨g, hg, rfl⟩), hm⟩
        obtain ⟨p, hp, hm⟩ := hcov
        have hin : (LutInit.Shape.polygon p.1, p.2) ∈ Spec.found c time' l := by
          rw [hl]
          exact List.mem_map.2 ⟨p, List.mem_filter.2 ⟨hp, by simpa using ⟨x, y, hm, h⟩⟩, rfl⟩
        obtain ⟨r, hr, he⟩ := List.mem_map.1 hin
        refine ⟨r.shape.geom, by
          simp only [LutInit.lutRows, List.map_map, List.mem_map, Function.comp]
          exact ⟨r, hr, rfl⟩, ?_⟩
        have : r.shape = .polygon p.1 := (Prod.mk.injEq .. ▸ he : _ ∧ _).1
        rw [this]
        exact hm
      rw [hset, div_self hac]
    simp only [hlen, if_false, Bool.false_eq_true, hw]
    have hmap : (LutInit.lutRows (LutInit.trim c time' l.table).rows).map (fun r => (r.value, (1 : ℚ))) =
        (Spec.values (Spec.found c time' l)).map (fun v => (v, 1)) := by
      have := lutRows_values (LutInit.trim c time' l.table).rows
      unfold Spec.found
      rw [← this, List.map_map]
      rfl
    rw [hmap, mean_equal q 1 one_ne_zero _ ?_ ?_]
    · congr 1
      by_cases hT : Spec.Touch (Spec.Rest files.flatten) c
      · rw [if_pos hT, if_pos ((hval none).2 (.inr ⟨rfl, hT⟩))]
      · rw [if_neg hT, if_neg]
        rw [hval]
        simp [hT]
    · unfold Spec.values Spec.found
      simpa using hrows
    · intro v hv
      rcases (hval v).1 hv with h | h
      · exact .inl h.1
      · exact .inr h.1

/-! ### C94 -/

/-- **C94** A loader whose name is not a column of its table raises `KeyError` for the minimum, maximum and mean of every cell in which
it has polygons, and counts them nevertheless. -/
theorem C94_key_error (area : (ℚ → ℚ → Prop) → ℚ) (c : ℚ → ℚ → Prop) (time : ℤ × ℤ) (agg : Lut.Agg) (skipna : Bool) (l : LutInit.Loader)
    (hn : l.name ∉ l.table.columns) (hf : Spec.found c time l ≠ []) :
    LutInit.getValue area c time agg skipna l =
      if agg = .count then .ok (some (Spec.found c time l).length) else .error .keyError := by
  have hr : (LutInit.trim c time l.table).rows ≠ [] := by
    intro h
    exact hf (by unfold Spec.found; rw [h]; rfl)
  unfold LutInit.getValue
  by_cases ha : agg = .count
  · subst ha
    simp only [ne_eq, not_true_eq_false, false_and, if_false, if_true]
    rw [(C59_extremes _ c time skipna _).2.2, lutRows_self]
    simp [LutInit.lutRows, Spec.found]
  · simp only [ne_eq, ha, not_false_eq_true, hr, hn, true_and, if_true, if_false]

/-- **C94** The zones of Scotland are in a column `exclusion_zone`.  With another name in the configuration the loader is made, but has no value
for any cell: minimum, maximum and mean raise `KeyError`. -/
theorem C94_zones_raise (area : (ℚ → ℚ → Prop) → ℚ) (rep : (ℚ → ℚ → Prop) → LutInit.Shape) (hrep : Spec.Represents rep)
    (files : List (List LutInit.Shape)) (hf : files ≠ []) (hs : ∀ s ∈ files.flatten, Spec.Areal s) (cell : ℚ → ℚ → Prop)
    (hcell : ∀ x y, cell x y → Spec.Globe x y) (hne : ∃ x y, cell x y) (harea : area cell ≠ 0) (time : ℤ × ℤ) (params : Dict String JVal)
    (s : List Char) (hn : Dict.get? params "data_name" = some (.str s)) (h1 : String.ofList s ≠ "exclusion_zone")
    (h2 : String.ofList s ≠ "geometry") :
    ∃ l, scotland area rep files cell time params = .ok l ∧ l.name = some (String.ofList s) ∧
      ∀ c time' skipna, (∀ x y, c x y → cell x y) → (∃ x y, c x y) → ∀ agg ∈ [Lut.Agg.min, .max, .mean],
        LutInit.getValue area c time' agg skipna l = .error .keyError := by
  obtain ⟨l, e1, e2, e3, e4⟩ := C92_zones area rep hrep files hf hs cell hcell hne harea time params _ (.inr ⟨s, rfl, hn⟩)
  refine ⟨l, e1, e2, fun c time' skipna hc hcn agg hagg => ?_⟩
  rw [C94_key_error area c time' agg skipna l]
  · simp only [List.mem_cons, List.not_mem_nil, or_false] at hagg
    rcases hagg with rfl | rfl | rfl <;> rfl
  · rw [e2, e3]
    simp [h1, h2]
  · rw [e4 c time' hc]
    rcases reaches_or_rest files.flatten c (fun x y h => hcell x y (hc x y h)) hcn with h | h
    · obtain ⟨p, hp, -⟩ := (found_files rep files.flatten (.bool true) (.bool false) c).2 (.inl h)
      simp only [ne_eq, List.map_eq_nil_iff]
      exact List.ne_nil_of_mem hp
    · obtain ⟨p, hp, -⟩ := (found_rest rep hrep files.flatten (.bool true) (.bool false) (by simp) c).2 h
      simp only [ne_eq, List.map_eq_nil_iff]
      exact List.ne_nil_of_mem hp

/-- **C94** Files of shapes without a name in the configuration: the default `dummy_data` is never used, the name and the column are `None`. -/
theorem C94_no_default (area : (ℚ → ℚ → Prop) → ℚ) (rep : (ℚ → ℚ → Prop) → LutInit.Shape) (hrep : Spec.Represents rep) (cls : String)
    (files : List (List LutInit.Shape)) (hf : files ≠ []) (hs : ∀ s ∈ files.flatten, Spec.Areal s) (value : LVal) (cell : ℚ → ℚ → Prop)
    (hcell : ∀ x y, cell x y → Spec.Globe x y) (hne : ∃ x y, cell x y) (harea : area cell ≠ 0) (time : ℤ × ℤ) (params : Dict String JVal)
    (hn : Dict.get? params "data_name" = none) :
    ∃ l, shapeFiles area rep cls files value cell time params = .ok l ∧ l.name = none ∧ l.table.columns = [some "geometry", none] := by
  obtain ⟨l, e1, e2, e3, -⟩ := C92_table area rep hrep cls files hf hs value cell hcell hne harea time params none (.inl ⟨rfl, .inl hn⟩) (by simp)
  exact ⟨l, e1, e2, e3⟩

/-- The column of a table that holds its values: the only name besides `time` and `geometry`. -/
def Spec.DataColumn (columns : List (Option String)) (c : Option String) : Prop :=
  c ≠ some "time" ∧ c ≠ some "geometry" ∧ ∀ c', c' ∈ columns ∧ c' ≠ some "time" ∧ c' ≠ some "geometry" ↔ c' = c

theorem getDataColName_iff (t : LTable) (c : Option String) : getDataColName t = .ok c ↔ Spec.DataColumn t.columns c := by
  have hmem : ∀ c', c' ∈ (t.columns.filter (fun c => c ∉ [some "time", some "geometry"])).dedup ↔
      c' ∈ t.columns ∧ c' ≠ some "time" ∧ c' ≠ some "geometry" := by
    intro c'
    simp [List.mem_dedup, List.mem_filter]
  have hnd := (t.columns.filter (fun c => c ∉ [some "time", some "geometry"])).nodup_dedup
  unfold getDataColName
  generalize hl : (t.columns.filter (fun c => c ∉ [some "time", some "geometry"])).dedup = l at hmem hnd
  have hone : l = [c] ↔ Spec.DataColumn t.columns c := by
    constructor
    · rintro rfl
      have h := hmem c
      simp only [List.mem_cons, List.not_mem_nil, or_false, true_iff] at h
      exact ⟨h.2.1, h.2.2, fun c' => by rw [← hmem c']; simp⟩
    · rintro ⟨-, -, h⟩
      have : ∀ c', c' ∈ l ↔ c' = c := fun c' => (hmem c').trans (h c')
      match l, hnd, this with
      | [], _, h => simpa using (h c).2 rfl
      | [x], _, h => rw [(h x).1 (by simp)]
      | x :: y :: rest, hnd, h =>
        have e1 := (h x).1 (by simp)
        have e2 := (h y).1 (by simp)
        subst e1 e2
        simp at hnd
  rw [← hone]
  split
  · rename_i x
    simp
  · rename_i hx
    constructor
    · intro h; cases h
    · intro h; exact absurd h (hx c)

/-- **C94** Whatever is imported, the loader has a table with a single column of values: any other table is refused with
`AssertionError`, whether the configuration names the values or not. -/
theorem C94_single_column (area : (ℚ → ℚ → Prop) → ℚ) (imp : Option String → Py (Option String × LTable)) (cell : ℚ → ℚ → Prop)
    (time : ℤ × ℤ) (params : Dict String JVal) (n name : Option String) (t : LTable) (hn : dataName params = .ok n)
    (himp : imp n = .ok (name, t)) :
    ((¬ ∃ c, Spec.DataColumn t.columns c) → init area imp cell time params = .error .assertionError) ∧
    ∀ l, init area imp cell time params = .ok l →
      ∃ c, Spec.DataColumn t.columns c ∧ l.name = (if name = none then c else name) := by
  have herr : (¬ ∃ c, Spec.DataColumn t.columns c) → getDataColName t = .error .assertionError := by
    intro h
    cases hg : getDataColName t with
    | ok c => exact absurd ⟨c, (getDataColName_iff t c).1 hg⟩ h
    | error e =>
      unfold getDataColName at hg
      split at hg
      · cases hg
      · injection hg with hg; rw [hg]
  unfold init
  simp only [hn, himp, bind, Except.bind, pure, Except.pure]
  refine ⟨fun h => ?_, fun l hl => ?_⟩
  · cases name with
    | none => simp [herr h]
    | some s => simp [setDataColName, herr h, bind, Except.bind]
  · cases hg : getDataColName t with
    | error e =>
      cases name with
      | none => simp [hg] at hl
      | some s => simp [setDataColName, hg, bind, Except.bind] at hl
    | ok c =>
      refine ⟨c, (getDataColName_iff t c).1 hg, ?_⟩
      cases name with
      | none =>
        simp only [hg] at hl
        rw [if_pos rfl]
        split at hl
        · cases hl
        · split at hl
          · cases hl
          · split at hl
            · cases hl
            · injection hl with hl; rw [← hl]
      | some s =>
        simp only [setDataColName, hg, bind, Except.bind, pure, Except.pure] at hl
        rw [if_neg (by simp)]
        split at hl
        · cases hl
        · split at hl
          · cases hl
          · split at hl
            · cases hl
            · injection hl with hl; rw [← hl]

/-- A table with two columns of values is refused, one with a single column is named after it. -/
example (area : (ℚ → ℚ → Prop) → ℚ) (cell : ℚ → ℚ → Prop) :
    init area (fun n => .ok (n, ⟨true, [some "time", some "geometry", some "u", some "v"], []⟩)) cell (0, 9) [("data_name", .null)] =
      .error .assertionError ∧ Spec.DataColumn [some "time", some "geometry", some "u"] (some "u") := by
  refine ⟨(C94_single_column area _ cell (0, 9) [("data_name", .null)] none none _ (by simp [dataName, Dict.get, Dict.get?, bind, Except.bind, pure, Except.pure]) rfl).1 ?_, ?_⟩
  · rintro ⟨c, -, -, h⟩
    have h1 := (h (some "u")).1 (by simp)
    have h2 := (h (some "v")).1 (by simp)
    rw [← h2] at h1
    simp at h1
  · unfold Spec.DataColumn
    refine ⟨by simp, by simp, fun c' => ?_⟩
    constructor
    · rintro ⟨h, h1, h2⟩
      simp only [List.mem_cons, List.not_mem_nil, or_false] at h
      rcases h with h | h | h
      · exact absurd h h1
      · exact absurd h h2
      · exact h
    · rintro rfl
      simp

/-! ### Examples -/

/-- A way to represent differences. -/
theorem represents_polygon : Spec.Represents (fun s => .polygon ⟨s, fun _ _ => False⟩) := fun _ => ⟨.inl ⟨_, rfl⟩, fun _ _ => Iff.rfl⟩

/-- A square of degrees as region. -/
def exLutRegion : ℚ → ℚ → Prop := fun x y => 0 ≤ x ∧ x ≤ 4 ∧ 0 ≤ y ∧ y ≤ 1

theorem exLutRegion_globe : (∀ x y, exLutRegion x y → Spec.Globe x y) ∧ ∃ x y, exLutRegion x y := by
  refine ⟨fun x y h => ?_, 0, 0, ?_⟩
  · obtain ⟨h1, h2, h3, h4⟩ := h
    unfold Spec.Globe
    refine ⟨⟨?_, ?_⟩, ?_, ?_⟩ <;> linarith
  · norm_num [exLutRegion]

/-- One zone in a corner of the region: a cell beside it is no exclusion zone, the corner is partly one. -/
example : ∃ l, scotland (fun _ => 1) (fun s => .polygon ⟨s, fun _ _ => False⟩) [[.polygon (Spec.square 0)]] exLutRegion (0, 0) [] = .ok l ∧
    LutInit.getValue (fun _ => 1) (fun x y => x = 3 ∧ y = 0) (0, 0) .max false l = .ok (some 0) ∧
    LutInit.getValue (fun _ => 1) exLutRegion (0, 0) .max false l = .ok (some 1) ∧
    LutInit.getValue (fun _ => 1) exLutRegion (0, 0) .min false l = .ok (some 0) := by
  have hs : ∀ s ∈ ([[.polygon (Spec.square 0)]] : List (List LutInit.Shape)).flatten, Spec.Areal s := by
    intro s hs
    simp only [List.flatten_cons, List.flatten_nil, List.append_nil, List.mem_singleton] at hs
    exact .inl ⟨_, hs⟩
  obtain ⟨l, h1, h2⟩ := C93_zones (fun _ => 1) _ represents_polygon [[.polygon (Spec.square 0)]] (by simp) hs exLutRegion exLutRegion_globe.1
    exLutRegion_globe.2 (by norm_num) (0, 0) [] none (.inl ⟨rfl, .inl rfl⟩) (.inl rfl)
  have n1 : ¬ Spec.Reaches ([[.polygon (Spec.square 0)]] : List (List LutInit.Shape)).flatten (fun x y => x = 3 ∧ y = 0) := by
    rintro ⟨s, hs, g, hg, x, y, hm, rfl, rfl⟩
    simp only [List.flatten_cons, List.flatten_nil, List.append_nil, List.mem_singleton] at hs
    subst hs
    simp only [Spec.partsOf, List.mem_singleton] at hg
    subst hg
    norm_num [Spec.square] at hm
  have n2 : Spec.Reaches ([[.polygon (Spec.square 0)]] : List (List LutInit.Shape)).flatten exLutRegion :=
    ⟨.polygon (Spec.square 0), by simp, Spec.square 0, by simp [Spec.partsOf], 0, 0, by norm_num [Spec.square], by norm_num [exLutRegion]⟩
  have n3 : Spec.Touch (Spec.Rest ([[.polygon (Spec.square 0)]] : List (List LutInit.Shape)).flatten) exLutRegion := by
    refine ⟨3, 0, (C92_rest _ 3 0).1 (by norm_num [Spec.Globe]) ?_, by norm_num [exLutRegion]⟩
    rintro ⟨s, hs, g, hg, hm⟩
    simp only [List.flatten_cons, List.flatten_nil, List.append_nil, List.mem_singleton] at hs
    subst hs
    simp only [Spec.partsOf, List.mem_singleton] at hg
    subst hg
    norm_num [Spec.square] at hm
  have e1 := (h2 (fun x y => x = 3 ∧ y = 0) (0, 0) false (by rintro x y ⟨rfl, rfl⟩; norm_num [exLutRegion]) ⟨3, 0, rfl, rfl⟩).1
  have e2 := h2 exLutRegion (0, 0) false (fun _ _ h => h) exLutRegion_globe.2
  rw [if_neg n1] at e1
  rw [if_pos n2, if_pos n3] at e2
  exact ⟨l, h1, e1, e2⟩

/-- The hypotheses on the name are met by a configuration with another name. -/
example : ∃ l, scotland (fun _ => 1) (fun s => .polygon ⟨s, fun _ _ => False⟩) [[.polygon (Spec.square 0)]] exLutRegion (0, 0)
      [("data_name", .str ['z', 'o', 'n', 'e'])] = .ok l ∧
    LutInit.getValue (fun _ => 1) exLutRegion (0, 0) .max false l = .error .keyError := by
  have hs : ∀ s ∈ ([[.polygon (Spec.square 0)]] : List (List LutInit.Shape)).flatten, Spec.Areal s := by
    intro s hs
    simp only [List.flatten_cons, List.flatten_nil, List.append_nil, List.mem_singleton] at hs
    exact .inl ⟨_, hs⟩
  obtain ⟨l, h1, -, h2⟩ := C94_zones_raise (fun _ => 1) _ represents_polygon [[.polygon (Spec.square 0)]] (by simp) hs exLutRegion exLutRegion_globe.1
    exLutRegion_globe.2 (by norm_num) (0, 0) [("data_name", .str ['z', 'o', 'n', 'e'])] ['z', 'o', 'n', 'e'] rfl (by decide +kernel)
    (by decide +kernel)
  exact ⟨l, h1, h2 exLutRegion (0, 0) false (fun _ _ h => h) exLutRegion_globe.2 .max (by simp)⟩

end Verif
