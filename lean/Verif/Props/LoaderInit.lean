import Verif.Model.LoaderInit
import Verif.Props.Trim
import Verif.Props.Values
import Verif.Props.Aggregate
import Mathlib.MeasureTheory.Measure.Lebesgue.Basic

/-!
# C65: coverage of the region and cutting down to it; C66: the names of the data
-/

open MeasureTheory Set

namespace Verif
open LoaderInit Verif.Spec

/-! ## Specification of areas -/

/-- The points of a region on the map, longitudes from -180 to 180. -/
def Spec.Region (b : Boundary) : Set (ℝ × ℝ) :=
  {p | (if b.longMin < b.longMax then (b.longMin : ℝ) ≤ p.1 ∧ p.1 ≤ b.longMax
        else ((b.longMin : ℝ) ≤ p.1 ∧ p.1 ≤ 180) ∨ (-180 ≤ p.1 ∧ p.1 ≤ (b.longMax : ℝ))) ∧
    (b.latMin : ℝ) ≤ p.2 ∧ p.2 ≤ b.latMax}

/-- The smallest box around all positions: the points between the extremes in both directions. -/
def Spec.Hull (P : ℚ → ℚ → Prop) : Set (ℝ × ℝ) :=
  {p | (∃ y x, P y x ∧ (x : ℝ) ≤ p.1) ∧ (∃ y x, P y x ∧ p.1 ≤ (x : ℝ)) ∧ (∃ y x, P y x ∧ (y : ℝ) ≤ p.2) ∧
    ∃ y x, P y x ∧ p.2 ≤ (y : ℝ)}

/-- There is a value at this position (latitude, longitude). -/
def Spec.PresentAt {V : Type} (nan : V → Bool) (d : Dataset V) (y x : ℚ) : Prop :=
  ∃ r ∈ d.rows, r.lat = y ∧ r.long = x ∧ nan r.val = false

/-! ## Areas of rectangles -/

/-- The points of a rectangle. -/
def Spec.rectSet (r : MapRect) : Set (ℝ × ℝ) := Icc (r.x0 : ℝ) r.x1 ×ˢ Icc (r.y0 : ℝ) r.y1

theorem volume_Icc_prod (a b c d : ℝ) : volume (Icc a b ×ˢ Icc c d) = ENNReal.ofReal (max 0 (b - a) * max 0 (d - c)) := by
  rw [Measure.volume_eq_prod, Measure.prod_prod, Real.volume_Icc, Real.volume_Icc, ENNReal.ofReal_mul (le_max_left _ _)]
  congr 1
  · rw [max_comm, ENNReal.ofReal_max, ENNReal.ofReal_zero]; simp
  · rw [max_comm, ENNReal.ofReal_max, ENNReal.ofReal_zero]; simp

theorem volume_overlap (r s : MapRect) : volume (rectSet r ∩ rectSet s) = ENNReal.ofReal ((r.overlap s : ℚ) : ℝ) := by
  unfold rectSet MapRect.overlap
  rw [prod_inter_prod, Icc_inter_Icc, Icc_inter_Icc, volume_Icc_prod]
  push_cast
  rfl

theorem volume_rect {r : MapRect} (hx : r.x0 ≤ r.x1) (hy : r.y0 ≤ r.y1) : volume (rectSet r) = ENNReal.ofReal ((r.area : ℚ) : ℝ) := by
  unfold rectSet MapRect.area
  rw [volume_Icc_prod, max_eq_right (sub_nonneg.2 (by exact_mod_cast hx)), max_eq_right (sub_nonneg.2 (by exact_mod_cast hy))]
  push_cast
  rfl

theorem overlap_nonneg (r s : MapRect) : 0 ≤ r.overlap s := mul_nonneg (le_max_left _ _) (le_max_left _ _)

theorem overlap_thin {r s : MapRect} (h : s.x1 ≤ s.x0) : r.overlap s = 0 := by
  unfold MapRect.overlap
  rw [max_eq_left, zero_mul]
  have h1 := min_le_right r.x1 s.x1
  have h2 := le_max_right r.x0 s.x0
  linarith

/-- The two parts of a region over the antimeridian. -/
def eastPart (b : Boundary) : MapRect := ⟨b.longMin, 180, b.latMin, b.latMax⟩
def westPart (b : Boundary) : MapRect := ⟨-180, b.longMax, b.latMin, b.latMax⟩
def wholePart (b : Boundary) : MapRect := ⟨b.longMin, b.longMax, b.latMin, b.latMax⟩

theorem region_noncrossing {b : Boundary} (h : b.longMin < b.longMax) : Region b = rectSet (wholePart b) := by
  ext p
  simp only [Region, if_pos h, mem_ofPred_eq, rectSet, wholePart, mem_prod, mem_Icc]

theorem region_crossing {b : Boundary} (h : ¬ b.longMin < b.longMax) : Region b = rectSet (eastPart b) ∪ rectSet (westPart b) := by
  ext p
  simp only [Region, if_neg h, mem_ofPred_eq, rectSet, eastPart, westPart, mem_prod, mem_Icc, mem_union]
  push_cast
  tauto

theorem parts_disjoint {b : Boundary} (h : b.longMax < b.longMin) : Disjoint (rectSet (eastPart b)) (rectSet (westPart b)) := by
  rw [Set.disjoint_left]
  rintro p hp hq
  simp only [rectSet, eastPart, westPart, mem_prod, mem_Icc] at hp hq
  have h : (b.longMax : ℝ) < b.longMin := by exact_mod_cast h
  linarith [hp.1.1, hq.1.2]

theorem rectSet_measurable (r : MapRect) : MeasurableSet (rectSet r) := measurableSet_Icc.prod measurableSet_Icc

/-- The overlap of a plain box with a region, computed part by part, is the area of the intersection. -/
theorem volume_overlapArea {a b : Boundary} (ha : a.longMin < a.longMax) (hb : b.longMin ≠ b.longMax) :
    volume (rectSet (wholePart a) ∩ Region b) = ENNReal.ofReal ((overlapArea a b : ℚ) : ℝ) := by
  unfold overlapArea
  have era : rects a = [wholePart a] := by unfold rects; rw [if_pos ha]; rfl
  rw [era]
  by_cases h : b.longMin < b.longMax
  · have erb : rects b = [wholePart b] := by unfold rects; rw [if_pos h]; rfl
    rw [erb, region_noncrossing h, volume_overlap]
    simp
  · have hlt : b.longMax < b.longMin := lt_of_le_of_ne (not_lt.1 h) (Ne.symm hb)
    rw [region_crossing h, inter_union_distrib_left, measure_union
      ((parts_disjoint hlt).mono inter_subset_right inter_subset_right)
      ((rectSet_measurable _).inter (rectSet_measurable _)), volume_overlap, volume_overlap,
      ← ENNReal.ofReal_add (by exact_mod_cast overlap_nonneg _ _) (by exact_mod_cast overlap_nonneg _ _)]
    congr 1
    unfold rects
    rw [if_neg h]
    by_cases h1 : b.longMin = 180
    · have : (wholePart a).overlap (eastPart b) = 0 := overlap_thin (by simp [eastPart, h1])
      rw [if_pos h1, this]
      simp [westPart]
    · rw [if_neg h1]
      by_cases h2 : b.longMax = -180
      · have : (wholePart a).overlap (westPart b) = 0 := overlap_thin (by simp [westPart, h2])
        rw [if_pos h2, this]
        simp [eastPart]
      · rw [if_neg h2]
        simp [eastPart, westPart]

theorem volume_region {b : Boundary} (hy : b.latMin ≤ b.latMax) (hb : b.longMin ≠ b.longMax) (hl : b.longMin ≤ 180) (hr : -180 ≤ b.longMax) :
    volume (Region b) = ENNReal.ofReal ((area b : ℚ) : ℝ) := by
  unfold area rects
  by_cases h : b.longMin < b.longMax
  · rw [if_pos h, region_noncrossing h, volume_rect (r := wholePart b) h.le hy]
    simp [wholePart]
  · have hlt : b.longMax < b.longMin := lt_of_le_of_ne (not_lt.1 h) (Ne.symm hb)
    rw [region_crossing h, measure_union (parts_disjoint hlt) (rectSet_measurable _),
      volume_rect (r := eastPart b) hl hy, volume_rect (r := westPart b) hr hy, ← ENNReal.ofReal_add]
    · congr 1
      rw [if_neg h]
      by_cases h1 : b.longMin = 180
      · rw [if_pos h1]; simp [eastPart, westPart, MapRect.area, h1]
      · rw [if_neg h1]
        by_cases h2 : b.longMax = -180
        · rw [if_pos h2]; simp [eastPart, westPart, MapRect.area, h2]
        · rw [if_neg h2]; simp [eastPart, westPart, MapRect.area]
    · exact_mod_cast mul_nonneg (sub_nonneg.2 hl) (sub_nonneg.2 hy)
    · exact_mod_cast mul_nonneg (sub_nonneg.2 hr) (sub_nonneg.2 hy)

theorem area_pos {b : Boundary} (hy : b.latMin < b.latMax) (hb : b.longMin ≠ b.longMax) (hl : b.longMin ≤ 180) (hr : -180 ≤ b.longMax)
    (h0 : ¬ (b.longMin = 180 ∧ b.longMax = -180)) : 0 < area b := by
  have hh : 0 < b.latMax - b.latMin := sub_pos.2 hy
  unfold area rects
  by_cases h : b.longMin < b.longMax
  · rw [if_pos h]; simp only [List.map_cons, List.map_nil, List.sum_cons, List.sum_nil, MapRect.area]
    have := mul_pos (sub_pos.2 h) hh
    linarith
  · have hlt : b.longMax < b.longMin := lt_of_le_of_ne (not_lt.1 h) (Ne.symm hb)
    rw [if_neg h]
    by_cases h1 : b.longMin = 180
    · rw [if_pos h1]; simp only [List.map_cons, List.map_nil, List.sum_cons, List.sum_nil, MapRect.area]
      rcases eq_or_lt_of_le hr with e | e
      · exact absurd ⟨h1, e.symm⟩ h0
      · have := mul_pos (sub_pos.2 e) hh
        linarith
    · rw [if_neg h1]
      have hl : b.longMin < 180 := lt_of_le_of_ne hl h1
      have p1 := mul_pos (sub_pos.2 hl) hh
      by_cases h2 : b.longMax = -180
      · rw [if_pos h2]; simp only [List.map_cons, List.map_nil, List.sum_cons, List.sum_nil, MapRect.area]
        linarith
      · rw [if_neg h2]; simp only [List.map_cons, List.map_nil, List.sum_cons, List.sum_nil, MapRect.area]
        have := mul_nonneg (sub_nonneg.2 hr) hh.le
        linarith

theorem hull_rect {P : ℚ → ℚ → Prop} {lats longs : List ℚ} (hlat : ∀ y, y ∈ lats ↔ ∃ x, P y x) (hlong : ∀ x, x ∈ longs ↔ ∃ y, P y x)
    {y0 y1 x0 x1 : ℚ} (h1 : listMin lats = some y0) (h2 : listMax lats = some y1) (h3 : listMin longs = some x0)
    (h4 : listMax longs = some x1) {t : List ℤ} : Hull P = rectSet (wholePart ⟨y0, y1, x0, x1, t⟩) := by
  obtain ⟨m1, l1⟩ := ((listMin_spec lats).2 y0).1 h1
  obtain ⟨m2, l2⟩ := ((listMax_spec lats).2 y1).1 h2
  obtain ⟨m3, l3⟩ := ((listMin_spec longs).2 x0).1 h3
  obtain ⟨m4, l4⟩ := ((listMax_spec longs).2 x1).1 h4
  ext p
  simp only [Hull, rectSet, wholePart, mem_ofPred_eq, mem_prod, mem_Icc]
  constructor
  · rintro ⟨⟨ya, xa, ha, ha'⟩, ⟨yb, xb, hb, hb'⟩, ⟨yc, xc, hc, hc'⟩, yd, xd, hd, hd'⟩
    have k1 : (x0 : ℝ) ≤ xa := by exact_mod_cast l3 xa ((hlong xa).2 ⟨ya, ha⟩)
    have k2 : (xb : ℝ) ≤ x1 := by exact_mod_cast l4 xb ((hlong xb).2 ⟨yb, hb⟩)
    have k3 : (y0 : ℝ) ≤ yc := by exact_mod_cast l1 yc ((hlat yc).2 ⟨xc, hc⟩)
    have k4 : (yd : ℝ) ≤ y1 := by exact_mod_cast l2 yd ((hlat yd).2 ⟨xd, hd⟩)
    exact ⟨⟨k1.trans ha', hb'.trans k2⟩, k3.trans hc', hd'.trans k4⟩
  · rintro ⟨⟨ha, hb⟩, hc, hd⟩
    obtain ⟨xx, n1⟩ := (hlat _).1 m1
    obtain ⟨xx', n2⟩ := (hlat _).1 m2
    obtain ⟨yy, n3⟩ := (hlong _).1 m3
    obtain ⟨yy', n4⟩ := (hlong _).1 m4
    exact ⟨⟨_, _, n3, ha⟩, ⟨_, _, n4, hb⟩, ⟨_, _, n1, hc⟩, _, _, n2, hd⟩

theorem listMin_some {l : List ℚ} (h : l ≠ []) : ∃ m, listMin l = some m := by
  rcases e : listMin l with _ | m
  · exact absurd ((listMin_spec l).1.1 e) h
  · exact ⟨m, rfl⟩

theorem listMax_some {l : List ℚ} (h : l ≠ []) : ∃ m, listMax l = some m := by
  rcases e : listMax l with _ | m
  · exact absurd ((listMax_spec l).1.1 e) h
  · exact ⟨m, rfl⟩

/-- The latitudes and longitudes the coverage is computed from are those of the positions with a value. -/
theorem coverage_eq {V : Type} (nan : V → Bool) (b : Boundary) (d : Dataset V) : ∃ lats longs : List ℚ,
    coverage nan b d = boxCoverage b lats longs ∧ (∀ y, y ∈ lats ↔ ∃ x, PresentAt nan d y x) ∧
      ∀ x, x ∈ longs ↔ ∃ y, PresentAt nan d y x := by
  cases d with
  | table t =>
    refine ⟨_, _, rfl, ?_, ?_⟩
    · intro y
      simp only [List.mem_map, List.mem_filter, PresentAt, Dataset.rows, Bool.not_eq_true']
      constructor
      · rintro ⟨r, ⟨h1, h2⟩, rfl⟩; exact ⟨r.long, r, h1, rfl, rfl, h2⟩
      · rintro ⟨x, r, h1, rfl, -, h2⟩; exact ⟨r, ⟨h1, h2⟩, rfl⟩
    · intro x
      simp only [List.mem_map, List.mem_filter, PresentAt, Dataset.rows, Bool.not_eq_true']
      constructor
      · rintro ⟨r, ⟨h1, h2⟩, rfl⟩; exact ⟨r.lat, r, h1, rfl, rfl, h2⟩
      · rintro ⟨y, r, h1, -, rfl, h2⟩; exact ⟨r, ⟨h1, h2⟩, rfl⟩
  | grid g =>
    have key : ∀ y x, PresentAt nan (.grid g) y x ↔ y ∈ g.lats ∧ x ∈ g.longs ∧ ∃ t ∈ g.times.getD [0], nan (g.val y x t) = false := by
      intro y x
      simp only [PresentAt, Dataset.rows, Grid.rows, List.mem_flatMap]
      constructor
      · rintro ⟨r, ⟨y', hy, x', hx, hr⟩, rfl, rfl, hn⟩
        rcases hg : g.times with _ | ts
        · simp only [hg, List.mem_singleton] at hr
          subst hr
          exact ⟨hy, hx, 0, by simp, hn⟩
        · simp only [hg, List.mem_map] at hr
          obtain ⟨t, ht, rfl⟩ := hr
          exact ⟨hy, hx, t, by simpa using ht, hn⟩
      · rintro ⟨hy, hx, t, ht, hn⟩
        rcases hg : g.times with _ | ts
        · rw [hg] at ht
          simp only [Option.getD_none, List.mem_singleton] at ht
          subst ht
          exact ⟨⟨y, x, 0, g.val y x 0⟩, ⟨y, hy, x, hx, by simp⟩, rfl, rfl, hn⟩
        · rw [hg] at ht
          exact ⟨⟨y, x, t, g.val y x t⟩, ⟨y, hy, x, hx, by simpa using ht⟩, rfl, rfl, hn⟩
    refine ⟨_, _, rfl, ?_, ?_⟩
    · intro y
      simp only [List.mem_filter, List.any_eq_true, Bool.not_eq_true', key]
      constructor
      · rintro ⟨hy, x, hx, t, ht, hn⟩; exact ⟨x, hy, hx, t, ht, hn⟩
      · rintro ⟨x, hy, hx, t, ht, hn⟩; exact ⟨hy, x, hx, t, ht, hn⟩
    · intro x
      simp only [List.mem_filter, List.any_eq_true, Bool.not_eq_true', key]
      constructor
      · rintro ⟨hx, y, ⟨hy, -⟩, t, ht, hn⟩; exact ⟨y, hy, hx, t, ht, hn⟩
      · rintro ⟨y, hy, hx, t, ht, hn⟩; exact ⟨hx, y, ⟨hy, x, hx, t, ht, hn⟩, t, ht, hn⟩

theorem mk?_box {y0 y1 x0 x1 : ℚ} (hy : y0 ≤ y1) (hl : -180 ≤ x0) (hr : x1 ≤ 180) :
    Boundary.mk? [y0, y1] [x0, x1] = .ok ⟨y0, y1, x0, x1, []⟩ := by
  unfold Boundary.mk? Boundary.validateBounds
  simp only [bind, Except.bind, pure, Except.pure]
  rw [if_neg (not_lt.2 hy), if_neg (by rintro (h | h) <;> linarith)]

/-- C65, coverage: for data at more than one longitude, all between -180 and 180, the reported coverage is
the part of the area of the region that lies within the smallest box around the positions with a value. -/
theorem C65_coverage_partial {V : Type} (nan : V → Bool) (b : Boundary) (hb : ProperBox b) (hne : b.longMin ≠ b.longMax)
    (d : Dataset V) (hlong : ∀ y x, PresentAt nan d y x → -180 ≤ x ∧ x ≤ 180)
    (htwo : ∃ y x y' x', PresentAt nan d y x ∧ PresentAt nan d y' x' ∧ x ≠ x') :
    ∃ q : ℚ, coverage nan b d = .ok q ∧ 0 ≤ q ∧ q ≤ 1 ∧ volume (Region b) ≠ 0 ∧
      volume (Hull (PresentAt nan d) ∩ Region b) = ENNReal.ofReal (q : ℝ) * volume (Region b) := by
  obtain ⟨lats, longs, hc, hlat, hlon⟩ := coverage_eq nan b d
  obtain ⟨hv, h0, hy⟩ := hb
  obtain ⟨-, v1, v2, v3, v4, -⟩ := hv
  obtain ⟨ya, xa, yb, xb, ha, hb', hab⟩ := htwo
  have ma := (hlon xa).2 ⟨ya, ha⟩
  have mb := (hlon xb).2 ⟨yb, hb'⟩
  obtain ⟨y0, e1⟩ := listMin_some (l := lats) (fun h => by have := (hlat ya).2 ⟨xa, ha⟩; rw [h] at this; cases this)
  obtain ⟨y1, e2⟩ := listMax_some (l := lats) (fun h => by have := (hlat ya).2 ⟨xa, ha⟩; rw [h] at this; cases this)
  obtain ⟨x0, e3⟩ := listMin_some (l := longs) (fun h => by rw [h] at ma; cases ma)
  obtain ⟨x1, e4⟩ := listMax_some (l := longs) (fun h => by rw [h] at ma; cases ma)
  obtain ⟨m1, l1⟩ := ((listMin_spec lats).2 y0).1 e1
  obtain ⟨m2, l2⟩ := ((listMax_spec lats).2 y1).1 e2
  obtain ⟨m3, l3⟩ := ((listMin_spec longs).2 x0).1 e3
  obtain ⟨m4, l4⟩ := ((listMax_spec longs).2 x1).1 e4
  obtain ⟨yy, n3⟩ := (hlon _).1 m3
  obtain ⟨yy', n4⟩ := (hlon _).1 m4
  have hx : x0 < x1 := by
    rcases lt_or_gt_of_ne hab with h | h
    · exact lt_of_le_of_lt (l3 _ ma) (lt_of_lt_of_le h (l4 _ mb))
    · exact lt_of_le_of_lt (l3 _ mb) (lt_of_lt_of_le h (l4 _ ma))
  have hA := area_pos hy hne v2 v3 h0
  have hR := volume_region hy.le hne v2 v3
  have hI := volume_overlapArea (a := ⟨y0, y1, x0, x1, []⟩) hx hne
  rw [← hull_rect hlat hlon e1 e2 e3 e4] at hI
  have hO : 0 ≤ overlapArea ⟨y0, y1, x0, x1, []⟩ b := by
    unfold overlapArea
    apply List.sum_nonneg
    intro z hz
    obtain ⟨r, -, rfl⟩ := List.mem_map.1 hz
    apply List.sum_nonneg
    intro z hz
    obtain ⟨s, -, rfl⟩ := List.mem_map.1 hz
    exact overlap_nonneg _ _
  refine ⟨overlapArea ⟨y0, y1, x0, x1, []⟩ b / area b, ?_, div_nonneg hO hA.le, ?_, ?_, ?_⟩
  · rw [hc]
    unfold boxCoverage
    simp only [e1, e2, e3, e4]
    rw [mk?_box (l1 _ m2) (hlong _ _ n3).1 (hlong _ _ n4).2]
    simp only [bind, Except.bind, pure, Except.pure]
    rw [if_neg hA.ne']
  · rw [div_le_one hA]
    have := measure_mono (μ := volume) (inter_subset_right : Hull (PresentAt nan d) ∩ Region b ⊆ Region b)
    rw [hI, hR, ENNReal.ofReal_le_ofReal_iff (by exact_mod_cast hA.le)] at this
    exact_mod_cast this
  · rw [hR]
    intro h
    rw [ENNReal.ofReal_eq_zero] at h
    have : area b ≤ 0 := by exact_mod_cast h
    linarith
  · rw [hI, hR, ← ENNReal.ofReal_mul (by exact_mod_cast div_nonneg hO hA.le)]
    congr 1
    have : overlapArea ⟨y0, y1, x0, x1, []⟩ b / area b * area b = overlapArea ⟨y0, y1, x0, x1, []⟩ b := div_mul_cancel₀ _ hA.ne'
    exact_mod_cast this.symm

/-- A table with values in the north-western quarter of the region from (0, 0) to (20, 40), and a missing one
outside. -/
def exCover : Dataset (Option ℚ) :=
  .table ⟨false, [⟨10, -5, 0, some 1⟩, ⟨30, 20, 0, some 2⟩, ⟨15, 10, 0, some 3⟩, ⟨0, 40, 0, none⟩]⟩

example : coverage Option.isNone ⟨0, 20, 0, 40, []⟩ exCover = .ok (1 / 4) := by decide +kernel

example : (∀ y x, PresentAt Option.isNone exCover y x → -180 ≤ x ∧ x ≤ 180) ∧
    ∃ y x y' x', PresentAt Option.isNone exCover y x ∧ PresentAt Option.isNone exCover y' x' ∧ x ≠ x' := by
  constructor
  · rintro y x ⟨r, hr, rfl, rfl, -⟩
    simp only [exCover, Dataset.rows, List.mem_cons, List.not_mem_nil, or_false] at hr
    rcases hr with rfl | rfl | rfl | rfl <;> norm_num
  · exact ⟨10, -5, 30, 20, ⟨_, List.mem_cons_self, rfl, rfl, rfl⟩, ⟨_, List.mem_cons_of_mem _ List.mem_cons_self, rfl, rfl, rfl⟩, by norm_num⟩

/-! ## Cutting down -/

/-- C65, nothing is lost: for every box within the region, the datapoints found in the box are the same
before and after cutting down. -/
theorem C65_lossless_partial {V : Type} (nan : V → Bool) {b q : Boundary} (d d' : Dataset V) (hs : d.Sorted) (hb : TrimsRight d b)
    (hq : TrimsRight d q) (hw : Within q b) (h : cutDown nan b d = .ok d') : d'.trim q = d.trim q := by
  unfold cutDown at h
  rcases hc : coverage nan b d with e | c
  · rw [hc] at h; cases h
  · simp only [hc, bind, Except.bind, pure, Except.pure] at h
    split_ifs at h with h0
    · cases h; rfl
    · exact (C25_composes_partial d hs hb hq hw h).1

/-- C65, nothing else is kept: when some of the region is covered, cutting down keeps exactly the datapoints
of the region (and of its time range, for data with times).  Missing: tables over the antimeridian
(`C26_crossing_table_wrong`). -/
theorem C65_exact_partial {V : Type} (nan : V → Bool) {b : Boundary} (d d' : Dataset V) (hs : d.Sorted) (hv : Valid b)
    (hb : b.longMin < b.longMax) (h : cutDown nan b d = .ok d') (hc : coverage nan b d ≠ .ok 0) (r : Row V) (hr : -180 < r.long ∧ r.long ≤ 180) :
    r ∈ d'.rows ↔ r ∈ d.rows ∧ HCovers b r.long r.lat ∧
      (d.hasTime = true → ∃ t0 t1 l, b.time = t0 :: t1 :: l ∧ t0 ≤ r.time ∧ r.time ≤ t1) := by
  unfold cutDown at h
  rcases hq : coverage nan b d with e | c
  · rw [hq] at h; cases h
  · simp only [hq, bind, Except.bind, pure, Except.pure] at h
    rw [if_neg (fun e => hc (by rw [hq, e]))] at h
    rw [trim_inv hs h, trimTo_rows, List.mem_filter]
    unfold Dataset.sel
    rw [Bool.and_eq_true, mask_iff d hv hb r hr]
    have ht : ((!d.hasTime || timeOk b r.time) = true) ↔
        (d.hasTime = true → ∃ t0 t1 l, b.time = t0 :: t1 :: l ∧ t0 ≤ r.time ∧ r.time ≤ t1) := by
      unfold timeOk
      cases d.hasTime
      · simp
      · simp only [Bool.not_true, Bool.false_or, true_imp_iff]
        split
        · rename_i a c l e
          rw [Bool.and_eq_true, decide_eq_true_eq, decide_eq_true_eq, e]
          constructor
          · rintro ⟨h1, h2⟩; exact ⟨a, c, l, rfl, h1, h2⟩
          · rintro ⟨t0, t1, l', e', h1, h2⟩
            simp only [List.cons.injEq] at e'
            obtain ⟨rfl, rfl, -⟩ := e'
            exact ⟨h1, h2⟩
        · rename_i hn
          constructor
          · intro h; cases h
          · rintro ⟨t0, t1, l', e', -⟩
            exact absurd e' (hn t0 t1 l')
    rw [ht]

example : (do let d ← cutDown Option.isNone ⟨0, 20, 0, 40, []⟩ exCover; return d.rows.length : Py ℕ) = .ok 1 ∧
    coverage Option.isNone ⟨0, 20, 0, 40, []⟩ exCover ≠ .ok 0 ∧ Valid ⟨0, 20, 0, 40, []⟩ :=
  ⟨by decide +kernel, by decide +kernel, by norm_num [Valid]⟩

/-- C65: data without times, with all values between -180 and 180, can always be cut down. -/
theorem C65_succeeds_partial {V : Type} (nan : V → Bool) (b : Boundary) (hb : ProperBox b) (hne : b.longMin ≠ b.longMax)
    (d : Dataset V) (hs : d.Sorted) (ht : d.hasTime = true → ∃ p, timeLimits b = .ok p)
    (hlong : ∀ y x, PresentAt nan d y x → -180 ≤ x ∧ x ≤ 180) : ∃ d', cutDown nan b d = .ok d' := by
  obtain ⟨hv, h0, hy⟩ := hb
  obtain ⟨-, v1, v2, v3, v4, -⟩ := hv
  have hA := area_pos hy hne v2 v3 h0
  have hcov : ∃ q, coverage nan b d = .ok q := by
    obtain ⟨lats, longs, hc, hlat, hlon⟩ := coverage_eq nan b d
    rw [hc]
    by_cases hemp : ∃ y x, PresentAt nan d y x
    · obtain ⟨ya, xa, ha⟩ := hemp
      have ma := (hlon xa).2 ⟨ya, ha⟩
      obtain ⟨y0, e1⟩ := listMin_some (l := lats) (fun h => by have := (hlat ya).2 ⟨xa, ha⟩; rw [h] at this; cases this)
      obtain ⟨y1, e2⟩ := listMax_some (l := lats) (fun h => by have := (hlat ya).2 ⟨xa, ha⟩; rw [h] at this; cases this)
      obtain ⟨x0, e3⟩ := listMin_some (l := longs) (fun h => by rw [h] at ma; cases ma)
      obtain ⟨x1, e4⟩ := listMax_some (l := longs) (fun h => by rw [h] at ma; cases ma)
      obtain ⟨m1, l1⟩ := ((listMin_spec lats).2 y0).1 e1
      obtain ⟨m2, l2⟩ := ((listMax_spec lats).2 y1).1 e2
      obtain ⟨m3, l3⟩ := ((listMin_spec longs).2 x0).1 e3
      obtain ⟨m4, l4⟩ := ((listMax_spec longs).2 x1).1 e4
      obtain ⟨yy, n3⟩ := (hlon _).1 m3
      obtain ⟨yy', n4⟩ := (hlon _).1 m4
      unfold boxCoverage
      simp only [e1, e2, e3, e4]
      rw [mk?_box (l1 _ m2) (hlong _ _ n3).1 (hlong _ _ n4).2]
      simp only [bind, Except.bind, pure, Except.pure]
      rw [if_neg hA.ne']
      exact ⟨_, rfl⟩
    · have hl : lats = [] := by
        rw [List.eq_nil_iff_forall_not_mem]
        intro y hy
        obtain ⟨x, hx⟩ := (hlat y).1 hy
        exact hemp ⟨y, x, hx⟩
      subst hl
      exact ⟨0, rfl⟩
  obtain ⟨q, hq⟩ := hcov
  unfold cutDown
  simp only [hq, bind, Except.bind, pure, Except.pure]
  split_ifs with h
  · exact ⟨d, rfl⟩
  · exact ⟨_, trim_eq hs ht⟩

example : TrimsRight exCover ⟨0, 20, 0, 40, []⟩ ∧ TrimsRight exCover ⟨10, 20, 0, 20, []⟩ ∧ Within ⟨10, 20, 0, 20, []⟩ ⟨0, 20, 0, 40, []⟩ ∧
    (do let d ← cutDown Option.isNone ⟨0, 20, 0, 40, []⟩ exCover; return d.rows.length : Py ℕ) = .ok 1 := by
  refine ⟨⟨⟨by norm_num [Valid], by norm_num, by norm_num⟩, by norm_num [exCover]⟩, ⟨⟨by norm_num [Valid], by norm_num, by norm_num⟩, by norm_num [exCover]⟩,
    ⟨?_, rfl⟩, by decide +kernel⟩
  rintro x y ⟨⟨k, h⟩, h1, h2⟩
  simp only [eastEdge] at h
  norm_num at h h1 h2
  refine ⟨⟨k, ?_⟩, ?_⟩
  · simp only [eastEdge]; norm_num; constructor <;> linarith
  · simp only; constructor <;> linarith

/-- C65 fails for data with longitudes beyond 180 (for instance from 0 to 360): whatever the region, no
loader can be built. -/
theorem C65_range_false {V : Type} (nan : V → Bool) (b : Boundary) (d : Dataset V) {y x : ℚ} (h : PresentAt nan d y x)
    (hx : x < -180 ∨ 180 < x) : cutDown nan b d = .error .valueError := by
  obtain ⟨lats, longs, hc, hlat, hlon⟩ := coverage_eq nan b d
  have ma := (hlon x).2 ⟨y, h⟩
  have my := (hlat y).2 ⟨x, h⟩
  obtain ⟨y0, e1⟩ := listMin_some (l := lats) (fun h => by rw [h] at my; cases my)
  obtain ⟨y1, e2⟩ := listMax_some (l := lats) (fun h => by rw [h] at my; cases my)
  obtain ⟨x0, e3⟩ := listMin_some (l := longs) (fun h => by rw [h] at ma; cases ma)
  obtain ⟨x1, e4⟩ := listMax_some (l := longs) (fun h => by rw [h] at ma; cases ma)
  have l3 := (((listMin_spec longs).2 x0).1 e3).2 x ma
  have l4 := (((listMax_spec longs).2 x1).1 e4).2 x ma
  have hm : Boundary.mk? [y0, y1] [x0, x1] = .error .valueError := by
    unfold Boundary.mk? Boundary.validateBounds
    simp only [bind, Except.bind]
    by_cases hy : y0 > y1
    · rw [if_pos hy]
    · rw [if_neg hy, if_pos]
      rcases hx with hx | hx
      · left; linarith
      · right; linarith
  unfold cutDown
  rw [hc]
  unfold boxCoverage
  simp only [e1, e2, e3, e4, hm, bind, Except.bind]

/-- C65 fails for data on a single meridian: its box is taken to go round the globe, so the whole region is
reported as covered. -/
theorem C65_meridian_false : ∃ (b : Boundary) (d : Dataset (Option ℚ)), ProperBox b ∧ b.longMin < b.longMax ∧
    (∀ y x, PresentAt Option.isNone d y x → x = 100) ∧ coverage Option.isNone b d = .ok 1 := by
  refine ⟨⟨0, 10, 0, 10, []⟩, .table ⟨false, [⟨-20, 100, 0, some 1⟩, ⟨20, 100, 0, some 2⟩]⟩, ⟨by norm_num [Valid], by norm_num, by norm_num⟩,
    by norm_num, ?_, by decide +kernel⟩
  rintro y x ⟨r, hr, rfl, rfl, -⟩
  simp only [Dataset.rows, List.mem_cons, List.not_mem_nil, or_false] at hr
  rcases hr with rfl | rfl <;> rfl

/-- Data far away from the region of `C65_uncovered_false`. -/
def exFar : Dataset (Option ℚ) := .table ⟨false, [⟨-20, 100, 0, some 1⟩, ⟨-10, 110, 0, some 2⟩]⟩

/-- C65: when nothing is covered the data stays as it was, outside the region. -/
theorem C65_uncovered_false : ∃ (b : Boundary) (d d' : Dataset (Option ℚ)), ProperBox b ∧ b.longMin < b.longMax ∧
    cutDown Option.isNone b d = .ok d' ∧ ∃ r ∈ d'.rows, ¬ HCovers b r.long r.lat := by
  refine ⟨⟨0, 10, 0, 10, []⟩, exFar, exFar, ⟨by norm_num [Valid], by norm_num, by norm_num⟩, by norm_num, ?_, ?_⟩
  · have : coverage Option.isNone ⟨0, 10, 0, 10, []⟩ exFar = .ok 0 := by decide +kernel
    unfold cutDown
    rw [this]
    rfl
  · refine ⟨⟨-20, 100, 0, some 1⟩, List.mem_cons_self, ?_⟩
    rintro ⟨-, h, -⟩
    norm_num at h

/-! ## C66: names -/

/-- A name that is not one of the coordinates. -/
def Spec.IsDataName (s : String) : Prop := s ≠ "lat" ∧ s ≠ "long" ∧ s ≠ "time"

/-- The data columns: those whose names are not coordinates. -/
def Spec.DataNames (n : Names) (l : List String) : Prop :=
  if n.isTable then l = n.cols.filter (fun c => !(c = "lat" || c = "long" || c = "time")) else l = n.cols

theorem isDataName_iff {s : String} : s ∉ ["lat", "long", "time"] ↔ IsDataName s := by
  simp [IsDataName]

theorem data_iff {n : Names} {l : List String} : DataNames n l ↔ n.data = l := by
  unfold DataNames Names.data
  by_cases h : n.isTable = true
  · rw [if_pos h, if_pos h]
    constructor
    · rintro rfl; apply List.filter_congr; intro c _; simp [Bool.and_assoc]
    · rintro rfl; apply List.filter_congr; intro c _; simp [Bool.and_assoc]
  · rw [if_neg h, if_neg h]; exact eq_comm

/-- Renaming only data columns to names of data renames the data columns, in order, and nothing else. -/
theorem rename_data {n n' : Names} {d : Dict String String} (h : n.rename d = .ok n')
    (hk : ∀ c v, d.get? c = some v → IsDataName c ∧ IsDataName v) :
    n'.isTable = n.isTable ∧ n'.cols = n.cols.map (fun c => (d.get? c).getD c) ∧ n'.data = n.data.map (fun c => (d.get? c).getD c) := by
  unfold Names.rename at h
  have key : n' = { n with cols := n.cols.map (fun c => (d.get? c).getD c) } := by
    dsimp only at h
    split_ifs at h <;> cases h <;> rfl
  subst key
  refine ⟨rfl, rfl, ?_⟩
  unfold Names.data
  by_cases ht : n.isTable = true
  · simp only [ht, if_true]
    rw [List.filter_map]
    congr 1
    apply List.filter_congr
    intro c _
    simp only [Function.comp_apply, decide_eq_decide]
    rw [isDataName_iff, isDataName_iff]
    rcases hd : d.get? c with _ | v
    · simp
    · simp only [Option.getD_some]
      exact ⟨fun _ => (hk c v hd).1, fun _ => (hk c v hd).2⟩
  · simp only [ht, if_neg, Bool.false_eq_true, not_false_iff]

/-- C66, scalar: without a wanted name, the name of the only data column is used; building fails when there
is not exactly one. -/
theorem C66_scalar_found (n : Names) :
    (∀ name, DataNames n [name] → nameScalar none n = .ok (name, n)) ∧
    ((∀ name, ¬ DataNames n [name]) → nameScalar none n = .error .valueError) := by
  constructor
  · intro name h
    rw [data_iff] at h
    unfold nameScalar getName
    simp only [h, bind, Except.bind, pure, Except.pure]
  · intro h
    simp only [data_iff] at h
    unfold nameScalar getName
    rcases e : n.data with _ | ⟨a, _ | ⟨b, l⟩⟩
    · rfl
    · exact absurd e (h a)
    · rfl

theorem get?_single (a b c : String) : Dict.get? [(a, b)] c = if c = a then some b else none := by
  simp only [Dict.get?, eq_comm]

theorem mem_data {n : Names} {c : String} (hc : c ∈ n.data) (h : n.isTable = true) : IsDataName c := by
  unfold Names.data at hc
  rw [if_pos h, List.mem_filter, decide_eq_true_iff, isDataName_iff] at hc
  exact hc.2

/-- C66, scalar: with a wanted name, the data gets that name; every other column keeps its own. -/
theorem C66_scalar_set_partial (n : Names) (old new : String) (hold : DataNames n [old]) (hn : IsDataName new) (ho : IsDataName old) :
    ∃ n', nameScalar (some new) n = .ok (new, n') ∧ DataNames n' [new] ∧ n'.isTable = n.isTable ∧
      n'.cols = n.cols.map (fun c => if c = old then new else c) := by
  rw [data_iff] at hold
  have hr : ∃ n', n.rename [(old, new)] = .ok n' := by
    unfold Names.rename
    by_cases ht : n.isTable = true
    · simp only [ht, if_true]; exact ⟨_, rfl⟩
    · have hcols : n.cols = [old] := by
        unfold Names.data at hold
        rwa [if_neg ht] at hold
      simp only [ht, Bool.false_eq_true, if_false]
      rw [if_pos]
      · exact ⟨_, rfl⟩
      · rw [hcols]
        simp only [List.map_cons, List.map_nil, get?_single, if_true, Option.getD_some, List.nodup_cons, List.not_mem_nil,
          not_false_iff, List.nodup_nil, and_self, true_and, List.mem_singleton, forall_eq]
        exact isDataName_iff.2 hn
  obtain ⟨n', hr⟩ := hr
  have hk : ∀ c v, Dict.get? [(old, new)] c = some v → IsDataName c ∧ IsDataName v := by
    intro c v h
    rw [get?_single] at h
    split_ifs at h with e
    · cases h; subst e; exact ⟨ho, hn⟩
  obtain ⟨h1, h2, h3⟩ := rename_data hr hk
  refine ⟨n', ?_, ?_, h1, ?_⟩
  · unfold nameScalar setName getName
    simp only [hold, hr, bind, Except.bind, pure, Except.pure]
  · rw [data_iff, h3, hold]
    simp [get?_single]
  · rw [h2]
    apply List.map_congr_left
    intro c _
    rw [get?_single]
    split_ifs <;> simp

example : DataNames ⟨true, ["lat", "long", "z", "time"]⟩ ["z"] ∧ IsDataName "elevation" ∧
    nameScalar (some "elevation") ⟨true, ["lat", "long", "z", "time"]⟩ = .ok ("elevation", ⟨true, ["lat", "long", "elevation", "time"]⟩) := by
  refine ⟨by rw [data_iff]; decide +kernel, by unfold IsDataName; decide +kernel, by decide +kernel⟩

/-- C66 fails when a table is asked to give its data the name of a coordinate: there are two columns of
that name afterwards. -/
theorem C66_coordinate_false : ∃ n n' : Names, DataNames n ["z"] ∧ nameScalar (some "lat") n = .ok ("lat", n') ∧
    n'.cols.count "lat" = 2 :=
  ⟨⟨true, ["lat", "long", "z"]⟩, ⟨true, ["lat", "long", "lat"]⟩, by rw [data_iff]; decide +kernel, by decide +kernel, by decide +kernel⟩

/-! ### Vectors -/

theorem splitChars_append {a b : List Char} (h : ',' ∉ a) : splitChars (a ++ ',' :: b) = a :: splitChars b := by
  induction a with
  | nil => simp [splitChars]
  | cons c t ih =>
    rw [List.mem_cons, not_or] at h
    rw [List.cons_append]
    conv_lhs => unfold splitChars
    rw [if_neg (Ne.symm h.1), ih h.2]

theorem splitName_join {l : List String} (hne : l ≠ []) (h : ∀ s ∈ l, ',' ∉ s.toList) : splitName (joinNames l) = l := by
  unfold splitName
  induction l with
  | nil => exact absurd rfl hne
  | cons a t ih =>
    cases t with
    | nil =>
      unfold joinNames
      rw [splitChars_single (h a (List.mem_cons_self))]
      simp
    | cons b t =>
      unfold joinNames
      rw [String.toList_append, String.toList_append]
      have : (",".toList ++ (joinNames (b :: t)).toList) = ',' :: (joinNames (b :: t)).toList := rfl
      rw [List.append_assoc, this, splitChars_append (h a (List.mem_cons_self)), List.map_cons,
        ih (by simp) (fun s hs => h s (List.mem_cons_of_mem _ hs))]
      simp

/-- C66, vectors: without wanted names, the loader's list of names is the list of its data columns. -/
theorem C66_vector_found (n : Names) (l : List String) (h : DataNames n l) (hne : l ≠ []) (hc : ∀ s ∈ l, ',' ∉ s.toList) :
    ∃ name, nameVector none n = .ok (name, n, l) ∧ splitName name = l := by
  rw [data_iff] at h
  refine ⟨joinNames l, ?_, splitName_join hne hc⟩
  unfold nameVector getNames
  rw [h, splitName_join hne hc]

theorem get?_pair {o1 o2 : String} (h : o1 ≠ o2) (u v c : String) :
    Dict.get? (([o1, o2].zip [u, v]).foldl (fun (d : Dict String String) p => d.set p.1 p.2) []) c =
      if c = o1 then some u else if c = o2 then some v else none := by
  simp only [List.zip_cons_cons, List.zip_nil_right, List.foldl_cons, List.foldl_nil, Dict.get?_set, Dict.get?_nil]
  by_cases h1 : c = o1
  · subst h1; simp [h.symm]
  · by_cases h2 : c = o2
    · subst h2; simp [h1]
    · simp [h1, h2, Ne.symm h1, Ne.symm h2]

theorem setNames_two {n : Names} {o1 o2 : String} (hold : n.data = [o1, o2]) (ho : o1 ≠ o2) (hc1 : ',' ∉ o1.toList) (hc2 : ',' ∉ o2.toList)
    (u v : String) : setNames [u, v] n = n.rename (([o1, o2].zip [u, v]).foldl (fun (d : Dict String String) p => d.set p.1 p.2) []) := by
  have e : splitName (getNames n) = [o1, o2] := by
    unfold getNames
    rw [hold]
    apply splitName_join (by simp)
    intro s hs
    simp only [List.mem_cons, List.not_mem_nil, or_false] at hs
    rcases hs with rfl | rfl
    · exact hc1
    · exact hc2
  unfold setNames
  rw [e]
  simp

/-- C66, vectors: with wanted names `u,v`, the two components get these names, in order. -/
theorem C66_vector_set_partial (n : Names) (o1 o2 u v name : String) (hold : DataNames n [o1, o2]) (ho : o1 ≠ o2)
    (hc1 : ',' ∉ o1.toList) (hc2 : ',' ∉ o2.toList) (d1 : IsDataName o1) (d2 : IsDataName o2) (hname : splitName name = [u, v])
    (huv : u ≠ v) (du : IsDataName u) (dv : IsDataName v) :
    ∃ n', nameVector (some name) n = .ok (name, n', [u, v]) ∧ DataNames n' [u, v] ∧
      n'.cols = n.cols.map (fun c => if c = o1 then u else if c = o2 then v else c) := by
  rw [data_iff] at hold
  have hr : ∃ n', n.rename (([o1, o2].zip [u, v]).foldl (fun (d : Dict String String) p => d.set p.1 p.2) []) = .ok n' := by
    unfold Names.rename
    simp only [get?_pair ho]
    by_cases ht : n.isTable = true
    · simp only [ht, if_true]; exact ⟨_, rfl⟩
    · have hcols : n.cols = [o1, o2] := by
        unfold Names.data at hold
        rwa [if_neg ht] at hold
      simp only [ht, Bool.false_eq_true, if_false]
      rw [if_pos]
      · exact ⟨_, rfl⟩
      · rw [hcols]
        have e : [o1, o2].map (fun c => (if c = o1 then some u else if c = o2 then some v else none : Option String).getD c) = [u, v] := by
          simp [Ne.symm ho]
        rw [e]
        refine ⟨by simp [huv], ?_⟩
        intro c hc
        simp only [List.mem_cons, List.not_mem_nil, or_false] at hc
        rw [isDataName_iff]
        rcases hc with rfl | rfl
        · exact du
        · exact dv
  obtain ⟨n', hr⟩ := hr
  have hk : ∀ c w, Dict.get? (([o1, o2].zip [u, v]).foldl (fun (d : Dict String String) p => d.set p.1 p.2) []) c = some w →
      IsDataName c ∧ IsDataName w := by
    intro c w h
    rw [get?_pair ho] at h
    split_ifs at h with e e
    · cases h; subst e; exact ⟨d1, du⟩
    · cases h; subst e; exact ⟨d2, dv⟩
  obtain ⟨h1, h2, h3⟩ := rename_data hr hk
  refine ⟨n', ?_, ?_, ?_⟩
  · unfold nameVector
    dsimp only
    rw [hname, setNames_two hold ho hc1 hc2, hr]
    rfl
  · rw [data_iff, h3, hold]
    simp only [List.map_cons, List.map_nil, get?_pair ho, if_true, Option.getD_some, if_neg (Ne.symm ho)]
  · rw [h2]
    apply List.map_congr_left
    intro c _
    rw [get?_pair ho]
    split_ifs <;> simp

example : splitName "uC,vC" = ["uC", "vC"] ∧ DataNames ⟨false, ["uo", "vo"]⟩ ["uo", "vo"] ∧
    nameVector (some "uC,vC") ⟨false, ["uo", "vo"]⟩ = .ok ("uC,vC", ⟨false, ["uC", "vC"]⟩, ["uC", "vC"]) := by
  refine ⟨by decide +kernel, by rw [data_iff]; decide +kernel, by decide +kernel⟩

example : nameVector none ⟨true, ["time", "lat", "long", "u10", "v10"]⟩ =
    .ok ("u10,v10", ⟨true, ["time", "lat", "long", "u10", "v10"]⟩, ["u10", "v10"]) := by decide +kernel

/-- C66 fails for `set_data_col_name_list`: whatever the two wanted names, they are never set. -/
theorem C66_list_false (n : Names) (o1 o2 : String) (hold : DataNames n [o1, o2]) (ho : o1 ≠ o2)
    (hc1 : ',' ∉ o1.toList) (hc2 : ',' ∉ o2.toList) (d1 : IsDataName o1) (d2 : IsDataName o2) (u v : String) :
    ¬ ∃ n', setNamesList [u, v] n = .ok n' ∧ DataNames n' [u, v] := by
  rw [data_iff] at hold
  rintro ⟨n', h, hn⟩
  rw [data_iff] at hn
  unfold setNamesList at h
  simp only [List.length_cons, List.length_nil, ne_eq, not_true, if_false, bind, Except.bind] at h
  generalize hcs : (joinNames [u, v]).toList = cs at h
  have hjoin : cs = u.toList ++ ',' :: v.toList := by
    rw [← hcs]
    simp only [joinNames, String.toList_append]
    rw [List.append_assoc]
    rfl
  have e : splitName (getNames n) = [o1, o2] := by
    unfold getNames
    rw [hold]
    apply splitName_join (by simp)
    intro s hs
    simp only [List.mem_cons, List.not_mem_nil, or_false] at hs
    rcases hs with rfl | rfl
    · exact hc1
    · exact hc2
  by_cases hlen : cs.length = 2
  · obtain ⟨a, b, rfl⟩ := List.length_eq_two.1 hlen
    have hh : setNames [String.ofList [a], String.ofList [b]] n = .ok n' := h
    rw [setNames_two hold ho hc1 hc2] at hh
    have sd : ∀ c : Char, IsDataName (String.ofList [c]) := by
      intro c
      refine ⟨?_, ?_, ?_⟩ <;>
      · intro hs
        have := congrArg (fun s : String => s.toList.length) hs
        simp at this
    have hk : ∀ c w, Dict.get? (([o1, o2].zip [String.ofList [a], String.ofList [b]]).foldl (fun (d : Dict String String) p => d.set p.1 p.2) []) c = some w →
        IsDataName c ∧ IsDataName w := by
      intro c w h
      rw [get?_pair ho] at h
      split_ifs at h with e e
      · cases h; subst e; exact ⟨d1, sd _⟩
      · cases h; subst e; exact ⟨d2, sd _⟩
    obtain ⟨-, -, h3⟩ := rename_data hh hk
    rw [hold, hn] at h3
    simp only [List.map_cons, List.map_nil, get?_pair ho, if_true, Option.getD_some, if_neg (Ne.symm ho), List.cons.injEq, and_true] at h3
    obtain ⟨rfl, rfl⟩ := h3
    have := congrArg List.length hjoin
    simp at this
  · unfold setNames at h
    rw [e] at h
    rw [if_pos (by simpa using fun h => hlen h.symm)] at h
    cases h

end Verif
