import Verif.Model.Season
import Verif.Props.Calendar
import Mathlib.Tactic.Linarith
import Mathlib.Tactic.NormNum

/-!
# C48: seasonal look-up tables
-/

namespace Verif
open Verif.Season PyDate

/-- The season of a month: winter in the north is December to February, and the seasons follow each other
every three months; the south is half a year ahead. -/
def Spec.season (north : Bool) (month : ℕ) : Season.Name :=
  match ((month + if north then 0 else 6) % 12) / 3 with
  | 0 => .wi
  | 1 => .sp
  | 2 => .su
  | _ => .au

/-- The dates from `a` to `b`, both included. -/
def Spec.Between (a b x : PyDate) : Prop := x.Exists ∧ a.ordinal ≤ x.ordinal ∧ x.ordinal ≤ b.ordinal

/-! ## The calendar -/

theorem daysBeforeYear_mono {y z : ℕ} (hy : 1 ≤ y) (h : y ≤ z) : daysBeforeYear y ≤ daysBeforeYear z := by
  induction z, h using Nat.le_induction with
  | base => exact le_rfl
  | succ z hz ih => rw [daysBeforeYear_succ z (hy.trans hz)]; omega

theorem daysBeforeMonth_mono (y : ℕ) {m n : ℕ} (hm : 1 ≤ m) (h : m ≤ n) : daysBeforeMonth y m ≤ daysBeforeMonth y n := by
  induction n, h using Nat.le_induction with
  | base => exact le_rfl
  | succ n hn ih =>
    obtain ⟨k, rfl⟩ : ∃ k, n = k + 1 := ⟨n - 1, by omega⟩
    simp only [daysBeforeMonth]; omega

theorem month_end (y m : ℕ) (h1 : 1 ≤ m) : daysBeforeMonth y (m + 1) = daysBeforeMonth y m + daysInMonth y m := by
  obtain ⟨k, rfl⟩ : ∃ k, m = k + 1 := ⟨m - 1, by omega⟩
  rfl

theorem ordinal_le_year (a : PyDate) (h : a.Exists) : a.ordinal ≤ daysBeforeYear (a.y + 1) ∧ (daysBeforeYear a.y : ℤ) < a.ordinal := by
  obtain ⟨h1, h2, h3, h4, h5, h6⟩ := h
  have e1 := daysBeforeYear_succ a.y h1
  have e2 := daysBeforeMonth_year a.y
  have e3 := daysBeforeMonth_mono a.y (m := a.m + 1) (n := 13) (by omega) (by omega)
  rw [month_end a.y a.m h3, month_end a.y 12 (by omega)] at e3
  simp only [ordinal]
  generalize daysBeforeMonth a.y 12 = p at *
  generalize daysInMonth a.y 12 = q at *
  generalize daysBeforeMonth a.y a.m = p' at *
  generalize daysInMonth a.y a.m = q' at *
  generalize daysBeforeYear a.y = s at *
  generalize daysBeforeYear (a.y + 1) = s' at *
  generalize (if isLeap a.y = true then 1 else 0) = r at *
  push_cast
  omega

theorem ordinal_inj (a b : PyDate) (ha : a.Exists) (hb : b.Exists) (h : a.ordinal = b.ordinal) : a = b := by
  have hy : a.y = b.y := by
    obtain ⟨a1, a2⟩ := ordinal_le_year a ha
    obtain ⟨b1, b2⟩ := ordinal_le_year b hb
    rcases lt_trichotomy a.y b.y with hl | he | hl
    · have := daysBeforeYear_mono (y := a.y + 1) (z := b.y) (by omega) hl
      omega
    · exact he
    · have := daysBeforeYear_mono (y := b.y + 1) (z := a.y) (by omega) hl
      omega
  obtain ⟨y, m, d⟩ := a
  obtain ⟨y', m', d'⟩ := b
  obtain ⟨a1, a2, a3, a4, a5, a6⟩ := ha
  obtain ⟨b1, b2, b3, b4, b5, b6⟩ := hb
  simp only at *
  subst hy
  have hm : m = m' := by
    simp only [ordinal] at h
    rcases lt_trichotomy m m' with hl | he | hl
    · have := daysBeforeMonth_mono y (m := m + 1) (n := m') (by omega) hl
      rw [month_end y m a3] at this
      omega
    · exact he
    · have := daysBeforeMonth_mono y (m := m' + 1) (n := m) (by omega) hl
      rw [month_end y m' b3] at this
      omega
  subst hm
  simp only [ordinal] at h
  have : d = d' := by omega
  rw [this]

theorem step_eq (a : PyDate) (h : a.Exists) : step a = Spec.nextDay a := by
  obtain ⟨h1, h2, h3, h4, h5, h6⟩ := h
  unfold step Spec.nextDay
  by_cases hd : a.d < daysInMonth a.y a.m
  · rw [if_pos (by omega), if_pos hd]
  · rw [if_neg (by omega), if_neg hd]
    by_cases hm : a.m = 12
    · rw [if_pos hm, if_neg (by omega)]
    · rw [if_neg hm, if_pos (by omega)]

theorem daysInMonth_pos (y m : ℕ) : 1 ≤ daysInMonth y m := by
  unfold daysInMonth
  split
  · split <;> omega
  · split <;> omega

theorem nextDay_exists (a b : PyDate) (ha : a.Exists) (hb : b.Exists) (h : a.ordinal < b.ordinal) : (Spec.nextDay a).Exists := by
  have hord := ordinal_nextDay a ha
  obtain ⟨h1, h2, h3, h4, h5, h6⟩ := ha
  unfold Spec.nextDay at *
  split
  · exact ⟨h1, h2, h3, h4, by simp, by simpa using (by omega : a.d + 1 ≤ daysInMonth a.y a.m)⟩
  · rename_i hd
    rw [if_neg hd] at hord
    split
    · exact ⟨h1, h2, by simp, by simp; omega, by simp, daysInMonth_pos _ _⟩
    · rename_i hm
      rw [if_neg hm] at hord
      refine ⟨by simp, ?_, by simp, by simp, by simp, daysInMonth_pos _ _⟩
      by_contra hy
      have hb1 := (ordinal_le_year b hb).1
      have hb2 := daysBeforeYear_mono (y := b.y + 1) (z := a.y + 1) (by omega) (by have := hb.2.1; simp at hy; omega)
      have : daysBeforeMonth (a.y + 1) 1 = 0 := rfl
      simp only [ordinal, this] at hord hb1 h
      push_cast at *
      omega

theorem days_spec (n : ℕ) : ∀ a b : PyDate, a.Exists → b.Exists → a.ordinal + n = b.ordinal + 1 →
    (days n a).Nodup ∧ ∀ x, x ∈ days n a ↔ Spec.Between a b x := by
  induction n with
  | zero =>
    intro a b ha hb h
    refine ⟨by simp [days], fun x => iff_of_false (by simp [days]) ?_⟩
    rintro ⟨-, h1, h2⟩
    push_cast at h
    omega
  | succ n ih =>
    intro a b ha hb h
    simp only [days]
    rcases n with _ | n
    · have hab : a = b := ordinal_inj a b ha hb (by push_cast at h; omega)
      subst hab
      refine ⟨by simp [days], fun x => ?_⟩
      simp only [days, List.mem_singleton]
      constructor
      · rintro rfl
        exact ⟨ha, le_rfl, le_rfl⟩
      · rintro ⟨h0, h1, h2⟩
        exact ordinal_inj x a h0 ha (le_antisymm h2 h1)
    · rw [step_eq a ha]
      have hlt : a.ordinal < b.ordinal := by push_cast at h; omega
      have hord := ordinal_nextDay a ha
      obtain ⟨i1, i2⟩ := ih (Spec.nextDay a) b (nextDay_exists a b ha hb hlt) hb (by push_cast at h ⊢; omega)
      refine ⟨List.nodup_cons.2 ⟨fun hm => ?_, i1⟩, fun x => ?_⟩
      · have := ((i2 a).1 hm).2.1
        omega
      · rw [List.mem_cons, i2]
        constructor
        · rintro (rfl | ⟨h0, h1, h2⟩)
          · exact ⟨ha, le_rfl, hlt.le⟩
          · exact ⟨h0, by omega, h2⟩
        · rintro ⟨h0, h1, h2⟩
          rcases eq_or_lt_of_le h1 with h1 | h1
          · exact .inl (ordinal_inj x a h0 ha h1.symm)
          · exact .inr ⟨h0, by omega, h2⟩

/-- The dates of a range are exactly those from its start to its end, each once. -/
theorem dateRange_spec (a b : PyDate) (ha : a.Exists) (hb : b.Exists) :
    (dateRange a b).Nodup ∧ ∀ x, x ∈ dateRange a b ↔ Spec.Between a b x := by
  unfold dateRange
  by_cases h : a.ordinal ≤ b.ordinal + 1
  · exact days_spec _ a b ha hb (by rw [Int.toNat_of_nonneg (by omega)]; omega)
  · have : (b.ordinal - a.ordinal + 1).toNat = 0 := by omega
    rw [this]
    refine ⟨by simp [days], fun x => iff_of_false (by simp [days]) ?_⟩
    rintro ⟨-, h1, h2⟩
    omega

/-! ## The tables -/

theorem mapM_pure_ok {α β : Type} (f : α → Py β) (g : α → β) (l : List α) (h : ∀ a ∈ l, f a = .ok (g a)) :
    l.mapM f = .ok (l.map g) := by
  induction l with
  | nil => rfl
  | cons a l ih =>
    rw [List.mapM_cons, h a (by simp), ih (fun b hb => h b (by simp [hb]))]
    rfl

theorem seasons_ok (north : Bool) (m : ℕ) (h1 : 1 ≤ m) (h2 : m ≤ 12) :
    (if north then northern else southern).get m = .ok (Spec.season north m) := by
  interval_cases m <;> cases north <;> decide +kernel

/-- **C48, density** For every date range and every set of hemispheres the mesh overlaps, the table holds
each date of the range (both ends included) with each of these hemispheres exactly once, with the density
of the season of its month in that hemisphere, and nothing else. -/
theorem C48_density (hit : String → Bool) (a b : PyDate) (ha : a.Exists) (hb : b.Exists) :
    ∃ rows, density hit a b = .ok rows ∧ rows.Nodup ∧ ∀ x region v, (x, region, v) ∈ rows ↔
      Spec.Between a b x ∧ hit region = true ∧
        ∃ north : Bool, region = (if north then "north" else "south") ∧
          v = (match Spec.season north x.m with | .su => 875 | .wi => 920 | _ => 900) := by
  obtain ⟨-, hmem⟩ := dateRange_spec a b ha hb
  have hf : ∀ (north : Bool) (region : String), densityFrame region (if north then northern else southern) (dateRange a b) =
      .ok ((dateRange a b).map (fun d => (d, region, densities (Spec.season north d.m)))) := by
    intro north region
    refine mapM_pure_ok _ _ _ fun d hd => ?_
    obtain ⟨⟨-, -, h1, h2, -⟩, -⟩ := (hmem d).1 hd
    rw [seasons_ok north d.m h1 h2]
    rfl
  have hn := hf true "north"
  have hs := hf false "south"
  simp only [if_true] at hn
  simp only [Bool.false_eq_true, if_false] at hs
  refine ⟨_, by simp only [density, hn, hs, bind, Except.bind, pure, Except.pure]; rfl, List.nodup_dedup _, fun x region v => ?_⟩
  simp only [List.mem_dedup, List.mem_filter, List.mem_append, List.mem_map, hmem, Prod.mk.injEq]
  have hd : ∀ s : Season.Name, densities s = (match s with | .su => 875 | .wi => 920 | _ => 900) := by intro s; cases s <;> rfl
  constructor
  · rintro ⟨⟨d, hd1, rfl, rfl, rfl⟩ | ⟨d, hd1, rfl, rfl, rfl⟩, hh⟩
    · exact ⟨hd1, hh, true, rfl, hd _⟩
    · exact ⟨hd1, hh, false, rfl, hd _⟩
  · rintro ⟨h1, h2, north, rfl, rfl⟩
    refine ⟨?_, h2⟩
    cases north
    · exact .inr ⟨x, h1, rfl, rfl, hd _⟩
    · exact .inl ⟨x, h1, rfl, rfl, hd _⟩

/-- Both hemispheres on the last day of February and the first of March of a leap year. -/
example : ∃ rows, density (fun _ => true) ⟨2020, 2, 29⟩ ⟨2020, 3, 1⟩ = .ok rows ∧ rows.length = 4 ∧
    (⟨2020, 3, 1⟩, "south", 900) ∈ rows ∧ (⟨2020, 2, 29⟩, "south", 875) ∈ rows := by
  refine ⟨[(⟨2020, 2, 29⟩, "north", 920), (⟨2020, 3, 1⟩, "north", 900), (⟨2020, 2, 29⟩, "south", 875), (⟨2020, 3, 1⟩, "south", 900)], ?_, rfl, ?_, ?_⟩ <;>
  decide +kernel

theorem regionFrame_ok (dates : List PyDate) (hd : ∀ d ∈ dates, 1 ≤ d.m ∧ d.m ≤ 12) (r : Season.Region) (north : Bool)
    (hr : r.seasons = if north then northern else southern) :
    regionFrame dates r = .ok ((dates.map (fun d' => dates.map (fun d => (d, r.name, r.values (Spec.season north d'.m))))).flatten) := by
  have h : ∀ month ∈ dates.map (·.m), (do let v ← r.value month; return dates.map (fun d => (d, r.name, v)) : Py (List Season.Row)) =
      .ok (dates.map (fun d => (d, r.name, r.values (Spec.season north month)))) := by
    intro month hm
    obtain ⟨d, hdm, rfl⟩ := List.mem_map.1 hm
    unfold Season.Region.value
    rw [hr, seasons_ok north d.m (hd d hdm).1 (hd d hdm).2]
    rfl
  unfold regionFrame
  rw [mapM_pure_ok _ _ _ h]
  simp only [bind, Except.bind, pure, Except.pure, List.map_map, Function.comp_def]

/-- What the thickness table holds: each date of the range and region the mesh overlaps with the values of
the seasons of *all* the dates of the range. -/
theorem thickness_rows (regs : List Season.Region) (north : Season.Region → Bool)
    (hregs : ∀ r ∈ regs, r.seasons = if north r then northern else southern)
    (hit : String → Bool) (a b : PyDate) (ha : a.Exists) (hb : b.Exists) :
    ∃ rows, thickness regs hit a b = .ok rows ∧ rows.Nodup ∧ ∀ x region v, (x, region, v) ∈ rows ↔
      Spec.Between a b x ∧ hit region = true ∧ ∃ r ∈ regs, region = r.name ∧ ∃ x', Spec.Between a b x' ∧ v = r.values (Spec.season (north r) x'.m) := by
  obtain ⟨-, hmem⟩ := dateRange_spec a b ha hb
  have h : ∀ r ∈ regs.filter (fun r => hit r.name), regionFrame (dateRange a b) r =
      .ok (((dateRange a b).map (fun d' => (dateRange a b).map (fun d => (d, r.name, r.values (Spec.season (north r) d'.m))))).flatten) := by
    intro r hr
    refine regionFrame_ok _ (fun d hd => ?_) r (north r) (hregs r (List.mem_filter.1 hr).1)
    obtain ⟨⟨-, -, h1, h2, -⟩, -⟩ := (hmem d).1 hd
    exact ⟨h1, h2⟩
  refine ⟨_, by simp only [thickness, mapM_pure_ok _ _ _ h, bind, Except.bind, pure, Except.pure]; rfl, List.nodup_dedup _, fun x region v => ?_⟩
  simp only [List.mem_dedup, List.mem_flatten, List.mem_map, List.mem_filter]
  constructor
  · rintro ⟨l, ⟨r, ⟨hr, hh⟩, rfl⟩, hl⟩
    simp only [List.mem_flatten, List.mem_map] at hl
    obtain ⟨l', ⟨d', hd', rfl⟩, hl'⟩ := hl
    simp only [List.mem_map, Prod.mk.injEq] at hl'
    obtain ⟨d, hd, rfl, rfl, rfl⟩ := hl'
    exact ⟨(hmem d).1 hd, hh, r, hr, rfl, d', (hmem d').1 hd', rfl⟩
  · rintro ⟨h1, h2, r, hr, rfl, x', hx', rfl⟩
    refine ⟨_, ⟨r, ⟨hr, h2⟩, rfl⟩, ?_⟩
    simp only [List.mem_flatten, List.mem_map]
    refine ⟨_, ⟨x', (hmem x').2 hx', rfl⟩, ?_⟩
    simp only [List.mem_map]
    exact ⟨x, (hmem x).2 h1, rfl⟩

/-- **C48, thickness** (partial: all the dates of the range have the same season.) The table holds each date
of the range with each region the mesh overlaps exactly once, with the thickness of the season of its month
in that region, and nothing else. -/
theorem C48_thickness_partial (hit : String → Bool) (a b : PyDate) (ha : a.Exists) (hb : b.Exists)
    (hs : ∀ x x', Spec.Between a b x → Spec.Between a b x' → ∀ north, Spec.season north x.m = Spec.season north x'.m) :
    ∃ rows, thickness Season.regions hit a b = .ok rows ∧ rows.Nodup ∧ ∀ x region v, (x, region, v) ∈ rows ↔
      Spec.Between a b x ∧ hit region = true ∧ ∃ r ∈ Season.regions, region = r.name ∧
        v = r.values (Spec.season (decide (region = "Baltic" ∨ region = "None")) x.m) := by
  have hregs : ∀ r ∈ Season.regions, r.seasons = if (decide (r.name = "Baltic" ∨ r.name = "None")) then northern else southern := by
    decide +kernel
  obtain ⟨rows, h1, h2, h3⟩ := thickness_rows Season.regions (fun r => decide (r.name = "Baltic" ∨ r.name = "None")) hregs hit a b ha hb
  refine ⟨rows, h1, h2, fun x region v => (h3 x region v).trans (and_congr_right fun hx => and_congr_right fun _ => ?_)⟩
  constructor
  · rintro ⟨r, hr, rfl, x', hx', rfl⟩
    exact ⟨r, hr, rfl, by rw [hs x' x hx' hx]⟩
  · rintro ⟨r, hr, rfl, rfl⟩
    exact ⟨r, hr, rfl, x, hx, rfl⟩

/-- The names of the regions are different, so that a date has one value in each region. -/
theorem regions_nodup : (Season.regions.map (·.name)).Nodup := by decide +kernel

/-- A range within one season meets the hypotheses. -/
example : ∃ rows, thickness Season.regions (fun s => s = "Indian") ⟨2020, 2, 28⟩ ⟨2020, 2, 29⟩ = .ok rows ∧
    rows = [(⟨2020, 2, 28⟩, "Indian", 1.05), (⟨2020, 2, 29⟩, "Indian", 1.05)] := ⟨_, by decide +kernel, rfl⟩

example : ∀ x x', Spec.Between ⟨2020, 2, 28⟩ ⟨2020, 2, 29⟩ x → Spec.Between ⟨2020, 2, 28⟩ ⟨2020, 2, 29⟩ x' →
    ∀ north, Spec.season north x.m = Spec.season north x'.m := by
  have h : ∀ x ∈ dateRange ⟨2020, 2, 28⟩ ⟨2020, 2, 29⟩, x.m = 2 := by decide +kernel
  obtain ⟨-, hmem⟩ := dateRange_spec ⟨2020, 2, 28⟩ ⟨2020, 2, 29⟩ (by decide +kernel) (by decide +kernel)
  intro x x' hx hx' north
  rw [h x ((hmem x).2 hx), h x' ((hmem x').2 hx')]

/-- **C48** The claim is false for the thickness table: in a range over the end of a season each date has
the values of both seasons. -/
theorem C48_thickness_false : ∃ rows, thickness Season.regions (fun s => s = "Indian") ⟨2020, 2, 29⟩ ⟨2020, 3, 1⟩ = .ok rows ∧
    (⟨2020, 2, 29⟩, "Indian", 1.05) ∈ rows ∧ (⟨2020, 2, 29⟩, "Indian", 0.45) ∈ rows ∧
    Spec.season false 2 = .su ∧ Season.values 0.59 0.78 1.05 0.45 .su = 1.05 := by
  refine ⟨[(⟨2020, 2, 29⟩, "Indian", 1.05), (⟨2020, 3, 1⟩, "Indian", 1.05), (⟨2020, 2, 29⟩, "Indian", 0.45), (⟨2020, 3, 1⟩, "Indian", 0.45)], ?_, ?_, ?_, rfl, rfl⟩ <;>
  decide +kernel

/-! ## C60: the tables cover the globe -/

/-- A point is inside a polygon or on its edge. -/
def Spec.InArea (A : Season.Area) (lat long : ℚ) : Prop :=
  A.latMin ≤ lat ∧ lat ≤ A.latMax ∧ A.longMin ≤ long ∧ long ≤ A.longMax ∧
    ∀ h ∈ A.holes, ¬ (h.1 < lat ∧ lat < h.2.1 ∧ h.2.2.1 < long ∧ long < h.2.2.2)

/-- A point is strictly inside a polygon. -/
def Spec.InsideArea (A : Season.Area) (lat long : ℚ) : Prop :=
  A.latMin < lat ∧ lat < A.latMax ∧ A.longMin < long ∧ long < A.longMax ∧
    ∀ h ∈ A.holes, ¬ (h.1 ≤ lat ∧ lat ≤ h.2.1 ∧ h.2.2.1 ≤ long ∧ long ≤ h.2.2.2)

/-- Polygons that cover the globe without overlapping: every point is in some polygon, and no point
strictly inside one of them is in another. -/
def Spec.CoversGlobe (areas : List Season.Area) : Prop :=
  (∀ lat long : ℚ, -90 ≤ lat → lat ≤ 90 → -180 ≤ long → long ≤ 180 → ∃ A ∈ areas, Spec.InArea A lat long) ∧
    ∀ lat long : ℚ, ∀ A ∈ areas, ∀ B ∈ areas, Spec.InsideArea A lat long → Spec.InArea B lat long → A.name = B.name

/-- **C60** The hemispheres of the density table and the regions of the thickness table cover the globe,
without gaps and without overlaps. -/
theorem C60_globe : Spec.CoversGlobe Season.hemispheres ∧ Spec.CoversGlobe Season.regionAreas := by
  refine ⟨⟨?_, ?_⟩, ⟨?_, ?_⟩⟩
  · intro lat long h1 h2 h3 h4
    rcases le_total 0 lat with h | h
    · exact ⟨⟨"north", 0, 90, -180, 180, []⟩, by simp [Season.hemispheres], h, h2, h3, h4, by simp⟩
    · exact ⟨⟨"south", -90, 0, -180, 180, []⟩, by simp [Season.hemispheres], h1, h, h3, h4, by simp⟩
  · intro lat long A hA B hB h1 h2
    simp only [Season.hemispheres, List.mem_cons, List.not_mem_nil, or_false] at hA hB
    obtain ⟨a1, a2, -⟩ := h1
    obtain ⟨b1, b2, -⟩ := h2
    rcases hA with rfl | rfl <;> rcases hB with rfl | rfl <;> first | rfl | (exfalso; simp only at *; linarith)
  · intro lat long h1 h2 h3 h4
    rcases le_total 0 lat with h | h
    · by_cases hb : 54 < lat ∧ lat < 66 ∧ 12 < long ∧ long < 32
      · exact ⟨⟨"Baltic", 54, 66, 12, 32, []⟩, by simp [Season.regionAreas], hb.1.le, hb.2.1.le, hb.2.2.1.le, hb.2.2.2.le, by simp⟩
      · exact ⟨⟨"None", 0, 90, -180, 180, [(54, 66, 12, 32)]⟩, by simp [Season.regionAreas], h, h2, h3, h4, by simpa using hb⟩
    · rcases le_total long (-130) with g1 | g1
      · exact ⟨⟨"Ross E", -90, 0, -180, -130, []⟩, by simp [Season.regionAreas], h1, h, h3, g1, by simp⟩
      rcases le_total long (-60) with g2 | g2
      · exact ⟨⟨"Bellinghausen", -90, 0, -130, -60, []⟩, by simp [Season.regionAreas], h1, h, g1, g2, by simp⟩
      rcases le_total long (-45) with g3 | g3
      · exact ⟨⟨"Weddell W", -90, 0, -60, -45, []⟩, by simp [Season.regionAreas], h1, h, g2, g3, by simp⟩
      rcases le_total long 20 with g4 | g4
      · exact ⟨⟨"Weddell E", -90, 0, -45, 20, []⟩, by simp [Season.regionAreas], h1, h, g3, g4, by simp⟩
      rcases le_total long 90 with g5 | g5
      · exact ⟨⟨"Indian", -90, 0, 20, 90, []⟩, by simp [Season.regionAreas], h1, h, g4, g5, by simp⟩
      rcases le_total long 160 with g6 | g6
      · exact ⟨⟨"West Pacific", -90, 0, 90, 160, []⟩, by simp [Season.regionAreas], h1, h, g5, g6, by simp⟩
      · exact ⟨⟨"Ross W", -90, 0, 160, 180, []⟩, by simp [Season.regionAreas], h1, h, g6, h4, by simp⟩
  · intro lat long A hA B hB h1 h2
    simp only [Season.regionAreas, List.mem_cons, List.not_mem_nil, or_false] at hA hB
    obtain ⟨a1, a2, a3, a4, a5⟩ := h1
    obtain ⟨b1, b2, b3, b4, b5⟩ := h2
    rcases hA with rfl | rfl | rfl | rfl | rfl | rfl | rfl | rfl | rfl <;>
    rcases hB with rfl | rfl | rfl | rfl | rfl | rfl | rfl | rfl | rfl <;>
    first
      | rfl
      | (exfalso; simp only at a1 a2 a3 a4 b1 b2 b3 b4; linarith)
      | (exfalso; exact b5 (54, 66, 12, 32) (by simp) ⟨a1, a2, a3, a4⟩)
      | (exfalso; exact a5 (54, 66, 12, 32) (by simp) ⟨b1, b2, b3, b4⟩)

/-- The areas and the values of the thickness table have the same regions. -/
example : Season.regionAreas.map (·.name) = Season.regions.map (·.name) := by decide +kernel

/-- A point of the Baltic Sea is strictly inside its region, and not in the one around it. -/
example : Spec.InsideArea ⟨"Baltic", 54, 66, 12, 32, []⟩ 60 20 ∧ ¬ Spec.InArea ⟨"None", 0, 90, -180, 180, [(54, 66, 12, 32)]⟩ 60 20 := by
  norm_num [Spec.InsideArea, Spec.InArea]

end Verif
