import Verif.Proof.Trim
import Verif.Proof.History
import Mathlib.Algebra.BigOperators.Group.List.Basic

/-!
# C24-C26: trimming of datapoints
-/

namespace Verif
open Spec

variable {V D C : Type}

/-! ## C24: every datapoint of the region is in exactly one live cell -/

/-- The datapoints selected by trimming (none when trimming raises). -/
def Spec.pointsIn (d : Dataset V) (b : Boundary) : List (Row V) :=
  match d.trim b with
  | .ok d' => d'.rows
  | .error _ => []

/-- The datapoints selected for the cell in a position of the cell list. -/
def Spec.pointsAt (d : Dataset V) : Option (CellBox D) → List (Row V)
  | some c => pointsIn d c.bounds
  | none => []

/-- Every datapoint selected for the region is selected for exactly one live cell, nothing else is
selected for live cells, and the datapoints of the live cells together are (as a multiset) those of the
region, so that counts over cells add up. -/
def Spec.Partitioned (d : Dataset V) (m : MeshState D) (b : Boundary) : Prop :=
  (∀ i c, Live m i c → ∃ dc, d.trim c.bounds = .ok dc) ∧
  (∀ r ∈ pointsIn d b, ∃! i, ∃ c, Live m i c ∧ r ∈ pointsIn d c.bounds) ∧
  (∀ i c, Live m i c → ∀ r ∈ pointsIn d c.bounds, r ∈ pointsIn d b) ∧
  (m.cells.flatMap (pointsAt d)).Perm (pointsIn d b) ∧
  (m.cells.map (fun o => (pointsAt d o).length)).sum = (pointsIn d b).length

theorem countP_unique {α : Type} (p : α → Bool) (l : List α) (i : ℕ) (h : ∀ j, (∃ x, l[j]? = some x ∧ p x = true) ↔ j = i) :
    l.countP p = 1 := by
  induction l generalizing i with
  | nil =>
    obtain ⟨x, hx, _⟩ := (h i).2 rfl
    simp at hx
  | cons a l ih =>
    rw [List.countP_cons]
    rcases Nat.eq_zero_or_pos i with rfl | hi
    · obtain ⟨x, hx, hp⟩ := (h 0).2 rfl
      simp only [List.getElem?_cons_zero, Option.some.injEq] at hx
      subst hx
      rw [hp]
      have : l.countP p = 0 := by
        rw [List.countP_eq_zero]
        intro y hy hpy
        obtain ⟨j, hj⟩ := List.mem_iff_getElem?.1 hy
        have := (h (j + 1)).1 ⟨y, by simpa using hj, hpy⟩
        omega
      simp [this]
    · obtain ⟨i, rfl⟩ : ∃ k, i = k + 1 := ⟨i - 1, by omega⟩
      have hpa : p a = false := by
        by_contra hc
        have := (h 0).1 ⟨a, rfl, by simpa using hc⟩
        omega
      rw [hpa, ih i]
      · simp
      · intro j
        have := h (j + 1)
        simpa using this

theorem perm_flatMap_filter {α β : Type} (cells : List β) (l : List α) (p : β → α → Bool) (q : α → Bool)
    (h : ∀ a ∈ l, cells.countP (fun c => p c a) = if q a then 1 else 0) :
    (cells.flatMap (fun c => l.filter (p c))).Perm (l.filter q) := by
  classical
  rw [List.perm_iff_count]
  intro a
  rw [List.count_flatMap]
  have e : ∀ c, List.count a (l.filter (p c)) = if p c a then l.count a else 0 := by
    intro c
    by_cases hc : p c a = true
    · rw [List.count_filter hc, if_pos hc]
    · rw [if_neg hc, List.count_eq_zero]
      intro hm
      exact hc (List.mem_filter.1 hm).2
  have e2 : List.map (List.count a ∘ fun c => l.filter (p c)) cells = cells.map (fun c => if p c a then l.count a else 0) := by
    apply List.map_congr_left
    intro c _
    exact e c
  rw [e2]
  have e3 : (cells.map (fun c => if p c a then l.count a else 0)).sum = cells.countP (fun c => p c a) * l.count a := by
    clear e e2 h
    induction cells with
    | nil => simp
    | cons c cs ih =>
      rw [List.map_cons, List.sum_cons, ih, List.countP_cons]
      by_cases hc : p c a = true <;> simp [hc, Nat.add_mul, Nat.add_comm]
  rw [e3]
  by_cases ha : a ∈ l
  · rw [h a ha]
    by_cases hq : q a = true
    · rw [if_pos hq, List.count_filter hq, Nat.one_mul]
    · rw [if_neg hq, Nat.zero_mul]
      symm
      rw [List.count_eq_zero]
      intro hm
      exact hq (List.mem_filter.1 hm).2
  · rw [List.count_eq_zero.2 ha, Nat.mul_zero]
    symm
    rw [List.count_eq_zero]
    intro hm
    exact ha (List.mem_filter.1 hm).1

/-- Which datapoints a tiling distributes correctly. -/
def Good (d : Dataset V) (m : MeshState D) (b : Boundary) (r : Row V) : Prop :=
  ((d.mask b r = true ↔ HCovers b r.long r.lat) ∧ ∀ i c, Live m i c → (d.mask c.bounds r = true ↔ HCovers c.bounds r.long r.lat)) ∨
  (d.mask b r = false ∧ ∀ i c, Live m i c → d.mask c.bounds r = false)

theorem timeLimits_congr {a b : Boundary} (h : a.time = b.time) : timeLimits a = timeLimits b := by
  unfold timeLimits; rw [h]

theorem timeOk_congr {a b : Boundary} (h : a.time = b.time) : timeOk a = timeOk b := by
  funext t; unfold timeOk; rw [h]

theorem pointsIn_eq {d : Dataset V} (hs : d.Sorted) {b : Boundary} (ht : d.hasTime = true → ∃ p, timeLimits b = .ok p) :
    pointsIn d b = d.rows.filter (d.sel b) := by
  unfold pointsIn
  rw [trim_eq hs ht, ← trimTo_rows]

theorem partition_core {b : Boundary} {W H : ℚ} {m : MeshState D} (hm : CellsOK b W H m) {d : Dataset V} (hs : d.Sorted)
    (ht : d.hasTime = true → ∃ p, timeLimits b = .ok p) (hg : ∀ r ∈ d.rows, Good d m b r) : Partitioned d m b := by
  have htc : ∀ i c, Live m i c → d.hasTime = true → ∃ p, timeLimits c.bounds = .ok p := by
    intro i c hl h
    rw [timeLimits_congr (hm.time i c hl)]
    exact ht h
  have hpb := pointsIn_eq hs ht
  have hpc : ∀ i c, Live m i c → pointsIn d c.bounds = d.rows.filter (d.sel c.bounds) := fun i c hl => pointsIn_eq hs (htc i c hl)
  have selc : ∀ i c, Live m i c → ∀ r, d.sel c.bounds r = true ↔ d.mask c.bounds r = true ∧ (!d.hasTime || timeOk b r.time) = true := by
    intro i c hl r
    unfold Dataset.sel
    rw [timeOk_congr (hm.time i c hl), Bool.and_eq_true]
  have selb : ∀ r, d.sel b r = true ↔ d.mask b r = true ∧ (!d.hasTime || timeOk b r.time) = true := by
    intro r; unfold Dataset.sel; rw [Bool.and_eq_true]
  -- every selected point of the region is in exactly one cell
  have uniq : ∀ r ∈ d.rows, d.sel b r = true → ∃ i, ∀ j, (∃ c, Live m j c ∧ d.sel c.bounds r = true) ↔ j = i := by
    intro r hr hsel
    obtain ⟨h1, h2⟩ := (selb r).1 hsel
    rcases hg r hr with ⟨e, ec⟩ | ⟨e, -⟩
    · obtain ⟨i, c, hl, hc⟩ := (hm.cover _ _).1 (e.1 h1)
      refine ⟨i, fun j => ⟨?_, ?_⟩⟩
      · rintro ⟨c', hl', hs'⟩
        exact hm.disj j i c' c _ _ hl' hl ((ec j c' hl').1 ((selc j c' hl' r).1 hs').1) hc
      · rintro rfl
        exact ⟨c, hl, (selc j c hl r).2 ⟨(ec j c hl).2 hc, h2⟩⟩
    · rw [e] at h1; cases h1
  have back : ∀ r ∈ d.rows, ∀ i c, Live m i c → d.sel c.bounds r = true → d.sel b r = true := by
    intro r hr i c hl hs'
    obtain ⟨h1, h2⟩ := (selc i c hl r).1 hs'
    rcases hg r hr with ⟨e, ec⟩ | ⟨-, ec⟩
    · exact (selb r).2 ⟨e.2 ((hm.cover _ _).2 ⟨i, c, hl, (ec i c hl).1 h1⟩), h2⟩
    · rw [ec i c hl] at h1; cases h1
  have perm : (m.cells.flatMap (pointsAt d)).Perm (pointsIn d b) := by
    rw [hpb]
    have e : m.cells.flatMap (pointsAt d) = m.cells.flatMap (fun o => d.rows.filter (fun r =>
        match o with | some c => d.sel c.bounds r | none => false)) := by
      rw [List.flatMap_def, List.flatMap_def]
      congr 1
      apply List.map_congr_left
      intro o ho
      obtain ⟨i, hi⟩ := List.mem_iff_getElem?.1 ho
      rcases o with _ | c
      · simp [pointsAt]
      · exact hpc i c hi
    rw [e]
    apply perm_flatMap_filter
    intro r hr
    by_cases hsel : d.sel b r = true
    · rw [if_pos hsel]
      obtain ⟨i, hi⟩ := uniq r hr hsel
      apply countP_unique _ _ i
      intro j
      rw [← hi j]
      constructor
      · rintro ⟨o, h1, h2⟩
        rcases o with _ | c
        · cases h2
        · exact ⟨c, h1, h2⟩
      · rintro ⟨c, h1, h2⟩
        exact ⟨some c, h1, h2⟩
    · rw [if_neg hsel, List.countP_eq_zero]
      intro o ho h2
      obtain ⟨i, hi⟩ := List.mem_iff_getElem?.1 ho
      rcases o with _ | c
      · cases h2
      · exact hsel (back r hr i c hi h2)
  refine ⟨fun i c hl => ⟨_, trim_eq hs (htc i c hl)⟩, ?_, ?_, perm, ?_⟩
  · intro r hr
    rw [hpb, List.mem_filter] at hr
    obtain ⟨i, hi⟩ := uniq r hr.1 hr.2
    obtain ⟨c, hl, hc⟩ := (hi i).2 rfl
    refine ⟨i, ⟨c, hl, ?_⟩, ?_⟩
    · rw [hpc i c hl]; exact List.mem_filter.2 ⟨hr.1, hc⟩
    · rintro j ⟨c', hl', hr'⟩
      rw [hpc j c' hl'] at hr'
      exact (hi j).1 ⟨c', hl', (List.mem_filter.1 hr').2⟩
  · intro i c hl r hr
    rw [hpc i c hl, List.mem_filter] at hr
    rw [hpb, List.mem_filter]
    exact ⟨hr.1, back r hr.1 i c hl hr.2⟩
  · have := perm.length_eq
    rw [List.length_flatMap] at this
    exact this

/-- **C24.**  For every mesh reached by any splits over a region that does not cross the antimeridian,
and every dataset (table, or grid with ascending coordinates) that can be trimmed to the region, each
datapoint of the region is in exactly one live cell and the counts add up. -/
theorem C24_each_point_once_partial {ops : DataOps D} {b : Boundary} {W H : ℚ} {initData : Boundary → D} {depth : ℕ} {m : MeshState D}
    (hp : ProperGrid b W H) (hcr : b.longMin < b.longMax) (h : Reach ops b W H initData depth m)
    (d : Dataset V) (hs : d.Sorted) {dr : Dataset V} (htrim : d.trim b = .ok dr) : Partitioned d m b := by
  refine partition_core (reach_cells hp h) hs (trim_time htrim) ?_
  intro r _
  by_cases hr : -180 < r.long ∧ r.long ≤ 180
  · left
    refine ⟨mask_iff d hp.valid hcr r hr, ?_⟩
    intro i c hl
    obtain ⟨⟨⟨hv, -⟩, -, hc⟩, -⟩ := (reach_history_noncrossing hp hcr h hl).1.all
    exact mask_iff d hv hc r hr
  · right
    constructor
    · by_contra hc
      exact hr (mask_range d hp.valid hcr r (by simpa using hc))
    · intro i c hl
      obtain ⟨⟨⟨hv, -⟩, -, hcc⟩, -⟩ := (reach_history_noncrossing hp hcr h hl).1.all
      by_contra hc
      exact hr (mask_range d hv hcc r (by simpa using hc))

/-- **C24**, meshes over the antimeridian: for gridded data the same holds for every region, as long as
neither the region nor its cells are a full circle from a meridian to itself and the longitudes of the
data are in the half-open domain. -/
theorem C24_each_point_once_crossing_grid_partial {ops : DataOps D} {b : Boundary} {W H : ℚ} {initData : Boundary → D} {depth : ℕ}
    {m : MeshState D} (hp : ProperGrid b W H) (hne : b.longMin ≠ b.longMax) (hW : W < 360)
    (h : Reach ops b W H initData depth m) (g : Grid V) (hs : (Dataset.grid g).Sorted)
    (hlong : ∀ x ∈ g.longs, -180 < x ∧ x ≤ 180) {dr : Dataset V} (htrim : (Dataset.grid g).trim b = .ok dr) :
    Partitioned (.grid g) m b := by
  refine partition_core (reach_cells hp h) hs (trim_time htrim) ?_
  intro r hr
  have hr : -180 < r.long ∧ r.long ≤ 180 := by
    apply hlong
    simp only [Dataset.rows, Grid.rows, List.mem_flatMap] at hr
    obtain ⟨y, -, x, hx, hr⟩ := hr
    rcases hg : g.times with _ | ts
    · simp only [hg, List.mem_singleton] at hr; rw [hr]; exact hx
    · simp only [hg, List.mem_map] at hr; obtain ⟨t, _, rfl⟩ := hr; exact hx
  left
  refine ⟨grid_mask_iff hp.valid hne r hr, ?_⟩
  intro i c hl
  obtain ⟨⟨⟨hv, -⟩, -, hw⟩, -⟩ := (reach_history hp h hl).1.all
  refine grid_mask_iff hv ?_ r hr
  intro e
  have hwe := Boundary.width_eq c.bounds
  unfold eastEdge at hwe
  rw [if_neg (by rw [e]; exact lt_irrefl _), e] at hwe
  linarith

theorem runSplits_ok {r : Py (MeshState Unit)} {l : List ℕ} (h : (runSplits r l).toOption.isSome = true) :
    ∃ m, runSplits r l = .ok m := by
  cases e : runSplits r l with
  | ok m => exact ⟨m, rfl⟩
  | error _ => rw [e] at h; cases h

/-- Data at a border between cells and at a border of the region, used in the examples. -/
def exTable : Dataset (Option ℚ) :=
  .table ⟨false, [⟨-55, 10, 0, some 1⟩, ⟨-60, 5, 0, some 2⟩, ⟨-52, 20, 0, none⟩, ⟨-52, 0, 0, some 4⟩, ⟨-51, 11, 0, some 5⟩]⟩

example : ∃ m, Reach unitOps exRegion 10 5 (fun _ => ()) 3 m ∧ Partitioned exTable m exRegion ∧
    (pointsIn exTable exRegion).length = 3 := by
  obtain ⟨m, hm⟩ := runSplits_ok (r := MeshBuilder.init exRegion 10 5 (fun _ => ()) 3) (l := [0, 5]) (by decide +kernel)
  have hR := runSplits_reach _ hm
  exact ⟨m, hR, C24_each_point_once_partial exRegion_proper (by decide +kernel) hR exTable trivial (dr := exTable.trimTo exRegion) rfl,
    by decide +kernel⟩

/-- A region over the antimeridian, and gridded data there. -/
def exCrossRegion : Boundary := ⟨0, 20, 170, -170, []⟩

/-- Gridded data on both sides of the antimeridian. -/
def exGrid : Grid (Option ℚ) := ⟨[5, 10, 15], [-175, -170, 0, 170, 175, 180], none, fun y x _ => some (y + x)⟩

theorem exGrid_sorted : (Dataset.grid exGrid).Sorted := by
  unfold Dataset.Sorted exGrid; constructor <;> decide +kernel

theorem exGrid_longs : ∀ x ∈ exGrid.longs, (-180 : ℚ) < x ∧ x ≤ 180 := by decide +kernel

theorem exCrossRegion_proper : ProperGrid exCrossRegion 10 10 := by
  refine ⟨by norm_num [Valid, exCrossRegion], by norm_num [exCrossRegion], by norm_num, by norm_num, ?_⟩
  intro h
  have : exCrossRegion.width = 20 := by decide +kernel
  rw [this] at h; norm_num at h

example : ∃ m, Reach unitOps exCrossRegion 10 10 (fun _ => ()) 3 m ∧ Partitioned (.grid exGrid) m exCrossRegion ∧
    (pointsIn (.grid exGrid) exCrossRegion).length = 12 := by
  obtain ⟨m, hm⟩ := runSplits_ok (r := MeshBuilder.init exCrossRegion 10 10 (fun _ => ()) 3) (l := [0]) (by decide +kernel)
  have hR := runSplits_reach _ hm
  refine ⟨m, hR, C24_each_point_once_crossing_grid_partial exCrossRegion_proper (by norm_num [exCrossRegion]) (by norm_num) hR exGrid exGrid_sorted
    exGrid_longs (trim_eq exGrid_sorted (by intro h; cases h)), ?_⟩
  rw [pointsIn_eq exGrid_sorted (by intro h; cases h)]
  decide +kernel

/-- The grid of the examples stored from north to south, as many files are. -/
def exDescending : Grid (Option ℚ) := ⟨[15, 10, 5], [0, 5, 10], none, fun y x _ => some (y + x)⟩

/-- **C24 is false for grids stored from north to south**: a label slice from the southern to the northern
edge is empty then, so every datapoint is lost, without an error. -/
theorem C24_false : ∃ (g : Grid (Option ℚ)) (b : Boundary) (r : Row (Option ℚ)), ProperBox b ∧ b.longMin < b.longMax ∧
    r ∈ (Dataset.grid g).rows ∧ HCovers b r.long r.lat ∧ (∃ d', (Dataset.grid g).trim b = .ok d') ∧ pointsIn (.grid g) b = [] := by
  refine ⟨exDescending, ⟨0, 20, 0, 20, []⟩, ⟨10, 5, 0, some 15⟩, ⟨by norm_num [Valid], by norm_num, by norm_num⟩, by norm_num,
    by decide +kernel, ?_, ?_, by decide +kernel⟩
  · refine ⟨⟨0, ?_⟩, by norm_num⟩
    norm_num [eastEdge]
  · cases h : (Dataset.grid exDescending).trim ⟨0, 20, 0, 20, []⟩ with
    | ok d => exact ⟨d, rfl⟩
    | error e =>
      exfalso
      have : ((Dataset.grid exDescending).trim ⟨0, 20, 0, 20, []⟩).toOption.isSome = true := by decide +kernel
      rw [h] at this; cases this

/-! ## C25: trimming composes -/

/-- Boxes to which trimming is right for the dataset: boxes that do not cross the antimeridian; for
gridded data with longitudes in the half-open domain also boxes that do, but not a full circle from a
meridian to itself. -/
def Spec.TrimsRight (d : Dataset V) (b : Boundary) : Prop :=
  ProperBox b ∧ match d with
    | .table _ => b.longMin < b.longMax
    | .grid g => b.longMin < b.longMax ∨ ((∀ x ∈ g.longs, -180 < x ∧ x ≤ 180) ∧ b.longMin ≠ b.longMax)

/-- A point of a box. -/
theorem corner_covered {b : Boundary} (hb : ProperBox b) {x y : ℚ} (hx : b.longMin < b.longMax ∧ b.longMin < x ∧ x ≤ b.longMax ∨
    x = b.longMax) (hy : b.latMin < y ∧ y ≤ b.latMax) : HCovers b x y := by
  obtain ⟨⟨-, v1, v2, v3, v4, -⟩, hd, -⟩ := hb
  refine ⟨?_, hy⟩
  unfold eastEdge
  by_cases h : b.longMin < b.longMax
  · rw [if_pos h]
    refine ⟨0, ?_⟩
    push_cast
    rcases hx with hx | hx <;> constructor <;> linarith
  · rw [if_neg h]
    refine ⟨1, ?_⟩
    push_cast
    rcases hx with hx | hx
    · exact absurd hx.1 h
    · subst hx
      constructor
      · by_contra hc
        apply hd
        constructor <;> linarith
      · linarith

/-- Trimming to an inner box after trimming to an outer one. -/
theorem trimTo_trimTo {d : Dataset V} {p q : Boundary} (hp : TrimsRight d p) (hq : TrimsRight d q) (hw : Within q p) :
    (d.trimTo p).trimTo q = d.trimTo q := by
  obtain ⟨hin, htime⟩ := hw
  obtain ⟨⟨hvp, hdp, hhp⟩, hp⟩ := hp
  obtain ⟨⟨hvq, hdq, hhq⟩, hq⟩ := hq
  cases d with
  | table t =>
    simp only [Dataset.trimTo]
    congr 2
    rw [List.filter_filter]
    apply List.filter_congr
    intro r _
    have e : ∀ t' : Table V, t'.hasTime = t.hasTime → (Dataset.table t').sel q r = (Dataset.table t).sel q r := by
      intro t' ht'
      simp [Dataset.sel, Dataset.mask, Dataset.hasTime, ht']
    rw [e ⟨t.hasTime, t.rows.filter ((Dataset.table t).sel p)⟩ rfl]
    by_cases hs : (Dataset.table t).sel q r = true
    · rw [hs, Bool.true_and]
      unfold Dataset.sel at hs ⊢
      rw [Bool.and_eq_true] at hs ⊢
      refine ⟨?_, by rw [← timeOk_congr htime]; exact hs.2⟩
      have hr := mask_range _ hvq hq r hs.1
      exact (mask_iff _ hvp hp r hr).2 (hin _ _ ((mask_iff _ hvq hq r hr).1 hs.1))
    · have hs' : (Dataset.table t).sel q r = false := by simpa using hs
      rw [hs', Bool.false_and]
  | grid g =>
    have hlat : ∀ y, q.latMin < y ∧ y ≤ q.latMax → p.latMin < y ∧ y ≤ p.latMax := by
      intro y hy
      exact (hin q.longMax y (corner_covered ⟨hvq, hdq, hhq⟩ (Or.inr rfl) hy)).2
    have hlong : ∀ x ∈ g.longs, Grid.lmask q x = true → Grid.lmask p x = true := by
      intro x hx hl
      have hx180 : -180 < x ∧ x ≤ 180 := by
        rcases hq with hq | hq
        · exact mask_range (.grid g) hvq hq ⟨q.latMax, x, 0, g.val 0 0 0⟩ (by
            simp only [Dataset.mask, Grid.mask, hl, Bool.and_true, decide_eq_true_eq]; exact ⟨hhq, le_refl _⟩)
        · exact hq.1 x hx
      have hneq : q.longMin ≠ q.longMax := by
        rcases hq with hq | hq
        · exact hq.ne
        · exact hq.2
      have hnep : p.longMin ≠ p.longMax := by
        rcases hp with hp | hp
        · exact hp.ne
        · exact hp.2
      have h1 : HCovers q x q.latMax := (grid_mask_iff hvq hneq ⟨q.latMax, x, 0, g.val 0 0 0⟩ hx180).1 (by
        simp only [Grid.mask, hl, Bool.and_true, decide_eq_true_eq]; exact ⟨hhq, le_refl _⟩)
      have h2 := (grid_mask_iff hvp hnep ⟨q.latMax, x, 0, g.val 0 0 0⟩ hx180).2 (hin _ _ h1)
      simp only [Grid.mask, Bool.and_eq_true] at h2
      exact h2.2
    simp only [Dataset.trimTo, Grid.trimTo]
    congr 2
    · rw [List.filter_filter]
      apply List.filter_congr
      intro y _
      by_cases hy : q.latMin < y ∧ y ≤ q.latMax
      · simp [hy, hlat y hy]
      · simp [hy]
    · rw [List.filter_filter]
      apply List.filter_congr
      intro x hx
      by_cases h : Grid.lmask q x = true
      · simp [h, hlong x hx h]
      · have h' : Grid.lmask q x = false := by simpa using h
        simp [h']
    · rcases g.times with _ | ts
      · rfl
      · simp only [Option.map_some, List.filter_filter, timeOk_congr htime, Bool.and_self]

/-- **C25**, what holds: trimming to a box and then to a box inside of it is the same as trimming to the
inner box right away; trimming twice to the same box is the same as once. -/
theorem C25_composes_partial (d : Dataset V) (hs : d.Sorted) {p q : Boundary} (hp : TrimsRight d p) (hq : TrimsRight d q)
    (hw : Within q p) {d1 : Dataset V} (h : d.trim p = .ok d1) : d1.trim q = d.trim q ∧ d1.trim p = .ok d1 := by
  have ht := trim_time h
  have htq : d.hasTime = true → ∃ p, timeLimits q = .ok p := by
    intro e; rw [timeLimits_congr hw.2]; exact ht e
  have e := trim_inv hs h
  subst e
  have e1 := trim_eq (b := q) (trimTo_sorted p hs) (by rw [trimTo_hasTime]; exact htq)
  have e2 := trim_eq (b := p) (trimTo_sorted p hs) (by rw [trimTo_hasTime]; exact ht)
  rw [e1, e2, trimTo_trimTo hp hq hw, trimTo_trimTo hp hp (.refl p)]
  exact ⟨(trim_eq hs htq).symm, rfl⟩

example : TrimsRight exTable exRegion ∧ TrimsRight exTable ⟨-55, -50, 0, 10, []⟩ ∧ Within ⟨-55, -50, 0, 10, []⟩ exRegion := by
  refine ⟨⟨⟨by norm_num [Valid, exRegion], by norm_num [exRegion], by norm_num [exRegion]⟩, by simp [exTable]; norm_num [exRegion]⟩,
    ⟨⟨by norm_num [Valid], by norm_num, by norm_num⟩, by simp [exTable]⟩, ?_, rfl⟩
  rintro x y ⟨⟨n, h1, h2⟩, h3, h4⟩
  have e1 : eastEdge ⟨-55, -50, 0, 10, []⟩ = 10 := by norm_num [eastEdge]
  have e2 : eastEdge exRegion = 20 := by norm_num [eastEdge, exRegion]
  rw [e1] at h2
  simp only at h1 h3 h4
  exact ⟨⟨n, by simp only [exRegion]; linarith, by rw [e2]; linarith⟩, by simp only [exRegion]; linarith, by simp only [exRegion]; linarith⟩

/-- The operations of a loader on the subsets of the cells are the trimming of its datapoints. -/
def Spec.TrimsDatapoints (l : Loader (Dataset V) C) : Prop := ∀ b d d', d.trim b = .ok d' → l.trim b d = d'

theorem scalarLoader_trims (id : ℕ) (name : String) (agg : AggType) (minDp : ℕ) :
    TrimsDatapoints (scalarLoader id name agg minDp) := by
  intro b d d' h
  show (match d.trim b with | .ok d' => d' | .error _ => d) = d'
  rw [h]

theorem history_fresh {full : List (Source (Dataset V) C)} {P : Boundary → Prop}
    (hl : ∀ s ∈ full, TrimsDatapoints s.loader ∧ s.subset.Sorted ∧
      ∀ q, P q → TrimsRight s.subset q ∧ ∃ d', s.subset.trim q = .ok d')
    {b : Boundary} {d : List (Source (Dataset V) C)} {anc : List (Boundary × List (Source (Dataset V) C))}
    (h : History (sourceOps (Dataset V) C) (fun q => trimSources q full) P b d anc) :
    d = trimSources b full ∧ ∀ a ∈ anc, a.2 = trimSources a.1 full := by
  induction h with
  | root b hb => exact ⟨rfl, by simp⟩
  | @child b d anc q hh hw hq ih =>
    obtain ⟨ih1, ih2⟩ := ih
    have hb := hh.all.1
    subst ih1
    refine ⟨?_, ?_⟩
    · show trimSources q (trimSources b full) = _
      unfold trimSources
      rw [List.map_map]
      apply List.map_congr_left
      intro s hs
      obtain ⟨h1, h2, h3⟩ := hl s hs
      obtain ⟨hrb, d1, hd1⟩ := h3 b hb
      obtain ⟨hrq, d2, hd2⟩ := h3 q hq
      have e := (C25_composes_partial s.subset h2 hrb hrq hw hd1).1
      simp only [Function.comp, Source.mk.injEq, true_and]
      rw [h1 b _ _ hd1, h1 q _ _ hd2, h1 q d1 d2 (by rw [e, hd2])]
    · intro a ha
      rcases List.mem_cons.1 ha with rfl | ha
      · rfl
      · exact ih2 a ha

/-- **C25**, cells: in every mesh reached by any splits over a region that does not cross the
antimeridian, for sources whose full data can be trimmed to the region, the data kept with each live cell
and with each of its ancestors is what trimming the full data to that cell gives. -/
theorem C25_cached_partial {b : Boundary} {W H : ℚ} {depth : ℕ} {full : List (Source (Dataset V) C)}
    {m : MeshState (List (Source (Dataset V) C))} (hp : ProperGrid b W H) (hcr : b.longMin < b.longMax)
    (hl : ∀ s ∈ full, TrimsDatapoints s.loader ∧ s.subset.Sorted ∧ ∃ d', s.subset.trim b = .ok d')
    (h : Reach (sourceOps (Dataset V) C) b W H (fun q => trimSources q full) depth m) {i : ℕ}
    {c : CellBox (List (Source (Dataset V) C))} (hc : Live m i c) :
    c.data = trimSources c.bounds full ∧ (∀ a ∈ c.anc, a.2 = trimSources a.1 full) ∧
      ∀ s ∈ full, ∃ d', s.subset.trim c.bounds = .ok d' ∧ s.loader.trim c.bounds s.subset = d' := by
  have hist := (reach_history_noncrossing hp hcr h hc).1
  have hok : ∀ s ∈ full, ∀ q : Boundary, Within q b → ∃ d', s.subset.trim q = .ok d' := by
    intro s hs q hq
    obtain ⟨_, h2, d', hd'⟩ := hl s hs
    refine ⟨_, trim_eq h2 ?_⟩
    rw [timeLimits_congr hq.2]
    exact trim_time hd'
  have hfr := history_fresh (full := full) (fun s hs => ⟨(hl s hs).1, (hl s hs).2.1, fun q hq => ⟨⟨hq.1, ?_⟩, hok s hs q hq.2.1⟩⟩) hist
  · refine ⟨hfr.1, hfr.2, fun s hs => ?_⟩
    obtain ⟨d', hd'⟩ := hok s hs c.bounds hist.all.1.2.1
    exact ⟨d', hd', (hl s hs).1 _ _ _ hd'⟩
  · split
    · exact hq.2.2
    · exact Or.inl hq.2.2

/-- **C25**, cells over the antimeridian: for sources with gridded data the same holds for every region
and cell width below 360. -/
theorem C25_cached_crossing_grid {b : Boundary} {W H : ℚ} {depth : ℕ} {full : List (Source (Dataset V) C)}
    {m : MeshState (List (Source (Dataset V) C))} (hp : ProperGrid b W H) (hW : W < 360)
    (hl : ∀ s ∈ full, TrimsDatapoints s.loader ∧ (∃ g, s.subset = .grid g ∧ ∀ x ∈ g.longs, -180 < x ∧ x ≤ 180) ∧
      s.subset.Sorted ∧ ∃ d', s.subset.trim b = .ok d')
    (h : Reach (sourceOps (Dataset V) C) b W H (fun q => trimSources q full) depth m) {i : ℕ}
    {c : CellBox (List (Source (Dataset V) C))} (hc : Live m i c) :
    c.data = trimSources c.bounds full ∧ ∀ a ∈ c.anc, a.2 = trimSources a.1 full := by
  have hist := (reach_history hp h hc).1
  refine history_fresh (full := full) (fun s hs => ⟨(hl s hs).1, (hl s hs).2.2.1, fun q hq => ⟨⟨hq.1, ?_⟩, ?_⟩⟩) hist
  · obtain ⟨g, hg, hlong⟩ := (hl s hs).2.1
    rw [hg]
    refine Or.inr ⟨hlong, ?_⟩
    intro e
    have hwe := Boundary.width_eq q
    unfold eastEdge at hwe
    rw [if_neg (by rw [e]; exact lt_irrefl _), e] at hwe
    linarith [hq.2.2]
  · obtain ⟨-, -, h2, d', hd'⟩ := hl s hs
    refine ⟨_, trim_eq h2 ?_⟩
    rw [timeLimits_congr hq.2.1.2]
    exact trim_time hd'

/-- The sources of the examples: one table, one grid. -/
def exSources : List (Source (Dataset (Option ℚ)) Cond) :=
  [⟨scalarLoader 0 "a" .mean 5, [⟨1, 0, 1, false⟩], .parent, exTable⟩, ⟨scalarLoader 1 "b" .max 5, [], .parent, .grid exGrid⟩]

/-- A mesh of the sources of the examples with one cell split. -/
theorem exSources_mesh : ∃ m, Reach (sourceOps (Dataset (Option ℚ)) Cond) exRegion 10 5 (fun q => trimSources q exSources) 3 m ∧
    ∃ c, Live m 5 c ∧ c.anc.length = 1 := by
  have h : ((do
      let m ← MeshBuilder.init exRegion 10 5 (fun q => trimSources q exSources) 3
      MeshBuilder.splitAndReplace (sourceOps (Dataset (Option ℚ)) Cond) m 0 : Py _).toOption.bind
        (fun m => (m.cells[5]?.bind id).map (fun c => c.anc.length))) = some 1 := by decide +kernel
  simp only [bind, Except.bind] at h
  cases h0 : MeshBuilder.init exRegion 10 5 (fun q => trimSources q exSources) 3 with
  | error e => rw [h0] at h; cases h
  | ok m0 =>
    rw [h0] at h
    cases h1 : MeshBuilder.splitAndReplace (sourceOps (Dataset (Option ℚ)) Cond) m0 0 with
    | error e => simp only [h1] at h; cases h
    | ok m1 =>
      simp only [h1, Except.toOption, Option.bind_some] at h
      refine ⟨m1, ⟨m0, h0, .step 0 (.refl m0) h1⟩, ?_⟩
      obtain ⟨c, hc, hc2⟩ := Option.map_eq_some_iff.1 h
      obtain ⟨o, ho, hoc⟩ := Option.bind_eq_some_iff.1 hc
      refine ⟨c, ?_, hc2⟩
      unfold Live
      rw [ho]
      exact congrArg some hoc

example : ∃ (m : MeshState (List (Source (Dataset (Option ℚ)) Cond))) (c : CellBox (List (Source (Dataset (Option ℚ)) Cond))),
    Live m 5 c ∧ c.data = trimSources c.bounds exSources ∧ c.anc.length = 1 := by
  obtain ⟨m, hm, c, hc, ha⟩ := exSources_mesh
  refine ⟨m, c, hc, (C25_cached_partial exRegion_proper (by norm_num [exRegion]) ?_ hm hc).1, ha⟩
  intro s hs
  simp only [exSources, List.mem_cons, List.not_mem_nil, or_false] at hs
  rcases hs with rfl | rfl
  · exact ⟨scalarLoader_trims _ _ _ _, trivial, _, trim_eq (d := exTable) trivial (by intro h; cases h)⟩
  · exact ⟨scalarLoader_trims _ _ _ _, exGrid_sorted, _, trim_eq exGrid_sorted (by intro h; cases h)⟩

/-- **C25** fails for tables and boxes over the antimeridian: trimming to `170:-170` and then to its
western half `170:180` loses a datapoint that trimming to the western half selects. -/
theorem C25_false : ∃ (d d1 : Dataset (Option ℚ)) (p q : Boundary), ProperBox p ∧ ProperBox q ∧ Within q p ∧
    d.trim p = .ok d1 ∧ ∃ d2 d3, d1.trim q = .ok d2 ∧ d.trim q = .ok d3 ∧ d2.rows = [] ∧ d3.rows ≠ [] := by
  refine ⟨.table ⟨false, [⟨5, 175, 0, some 1⟩]⟩, .table ⟨false, []⟩, ⟨0, 10, 170, -170, []⟩, ⟨0, 10, 170, 180, []⟩,
    ⟨by norm_num [Valid], by norm_num, by norm_num⟩, ⟨by norm_num [Valid], by norm_num, by norm_num⟩, ⟨?_, rfl⟩, ?_,
    .table ⟨false, []⟩, .table ⟨false, [⟨5, 175, 0, some 1⟩]⟩, ?_, ?_, rfl, by simp [Dataset.rows]⟩
  · rintro x y ⟨⟨n, h1, h2⟩, h3, h4⟩
    have e1 : eastEdge ⟨0, 10, 170, 180, []⟩ = 180 := by norm_num [eastEdge]
    have e2 : eastEdge ⟨0, 10, 170, -170, []⟩ = 190 := by norm_num [eastEdge]
    rw [e1] at h2
    exact ⟨⟨n, h1, by rw [e2]; linarith⟩, h3, h4⟩
  · norm_num [Dataset.trim, Table.trim, Table.mask, bind, Except.bind, pure, Except.pure]
  · norm_num [Dataset.trim, Table.trim, Table.mask, bind, Except.bind, pure, Except.pure]
  · norm_num [Dataset.trim, Table.trim, Table.mask, bind, Except.bind, pure, Except.pure]

/-! ## C26: tables and grids -/

/-- The table with the datapoints of a grid. -/
def Spec.tableOf (g : Grid V) : Table V := ⟨g.times.isSome, g.rows⟩

/-- **C26**, boxes that do not cross the antimeridian: a grid and the table of its datapoints select the
same datapoints in the same order. -/
theorem C26_table_grid_agree_partial (g : Grid V) (hs : (Dataset.grid g).Sorted) (b : Boundary) (hb : b.longMin < b.longMax) :
    (Dataset.grid g).trim b = .error .indexError ∧ (Dataset.table (tableOf g)).trim b = .error .indexError ∨
    ∃ g' t', (Dataset.grid g).trim b = .ok g' ∧ (Dataset.table (tableOf g)).trim b = .ok t' ∧ g'.rows = t'.rows := by
  have hsel : ∀ r : Row V, (Dataset.grid g).sel b r = (Dataset.table (tableOf g)).sel b r := by
    intro r
    simp only [Dataset.sel, Dataset.mask, Dataset.hasTime, tableOf]
    congr 1
    rw [Bool.eq_iff_iff]
    simp only [Grid.mask, Grid.lmask, Table.mask, hb, if_true, Bool.and_eq_true, decide_eq_true_eq, gt_iff_lt]
    constructor
    · rintro ⟨⟨h1, h2⟩, h3, h4⟩; exact ⟨⟨⟨h1, h2⟩, h3⟩, h4⟩
    · rintro ⟨⟨⟨h1, h2⟩, h3⟩, h4⟩; exact ⟨⟨h1, h2⟩, h3, h4⟩
  by_cases ht : (Dataset.grid g).hasTime = true → ∃ p, timeLimits b = .ok p
  · right
    refine ⟨_, _, trim_eq hs ht, trim_eq (d := .table (tableOf g)) trivial ht, ?_⟩
    rw [trimTo_rows, trimTo_rows]
    exact List.filter_congr (fun r _ => hsel r)
  · left
    push Not at ht
    obtain ⟨h1, h2⟩ := ht
    have he : timeLimits b = .error .indexError := by
      unfold timeLimits at h2 ⊢
      split
      · rename_i e; rw [e] at h2; exact absurd rfl (h2 _)
      · rfl
    have h1' : g.times.isSome = true := h1
    obtain ⟨ts, hts⟩ := Option.isSome_iff_exists.1 h1'
    obtain ⟨l', hl', -⟩ := selLongs_drop (b := b) hs.2
    constructor
    · show (Grid.trim b g >>= fun g => pure (Dataset.grid g)) = _
      unfold Grid.trim
      rw [selSlice_sorted hs.1, hl']
      simp only [hts, he, bind, Except.bind]
    · show (Table.trim b (tableOf g) >>= fun t => pure (Dataset.table t)) = _
      unfold Table.trim tableOf
      simp only [h1', if_true, he, bind, Except.bind]

/-- **C26**, boxes over the antimeridian, gridded data: exactly the datapoints of the box are selected. -/
theorem C26_crossing_grid (g : Grid V) (hs : (Dataset.grid g).Sorted) (b : Boundary) (hv : Valid b) (hb : b.longMax < b.longMin)
    {d : Dataset V} (h : (Dataset.grid g).trim b = .ok d) (r : Row V) (hr : -180 < r.long ∧ r.long ≤ 180) (hmem : r ∈ g.rows) :
    r ∈ d.rows ↔ HCovers b r.long r.lat ∧ (g.times.isSome = true → timeOk b r.time = true) := by
  rw [trim_inv hs h, trimTo_rows, List.mem_filter]
  unfold Dataset.sel
  rw [Bool.and_eq_true]
  have := grid_mask_iff hv hb.ne' r hr
  show _ ∧ Grid.mask b r = true ∧ _ ↔ _
  rw [this]
  have e : (Dataset.grid g).rows = g.rows := rfl
  rw [e]
  rcases ht : g.times with _ | ts
  · simp [hmem, Dataset.hasTime, ht]
  · simp [hmem, Dataset.hasTime, ht]

/-- **C26**, boxes over the antimeridian, tables: only datapoints *outside* of the box are selected. -/
theorem C26_crossing_table_wrong (t : Table V) (b : Boundary) (hv : Valid b) (hb : b.longMax < b.longMin)
    {d : Dataset V} (h : (Dataset.table t).trim b = .ok d) : ∀ r ∈ d.rows, ¬ HCovers b r.long r.lat := by
  intro r hr
  rw [trim_inv (d := .table t) trivial h, trimTo_rows, List.mem_filter] at hr
  have hm : Table.mask b r = true := by
    have := hr.2
    unfold Dataset.sel at this
    rw [Bool.and_eq_true] at this
    exact this.1
  have hn : ¬ b.longMin < b.longMax := by linarith
  simp only [Table.mask, hn, if_false, Bool.and_eq_true, decide_eq_true_eq, gt_iff_lt] at hm
  obtain ⟨⟨-, h1⟩, h2⟩ := hm
  have hv' := hv
  obtain ⟨-, v1, v2, v3, v4, -⟩ := hv'
  rintro ⟨hx, -⟩
  rw [longs_iff hv ⟨by linarith, by linarith⟩, if_neg hn] at hx
  rcases hx with hx | hx <;> linarith

/-- **C26** fails over the antimeridian: for the same datapoints and the box `170:-170` the grid selects
the points of the box and the table selects none. -/
theorem C26_false : ∃ (g : Grid (Option ℚ)) (b : Boundary) (g' t' : Dataset (Option ℚ)), (Dataset.grid g).Sorted ∧ Valid b ∧
    (Dataset.grid g).trim b = .ok g' ∧ (Dataset.table (tableOf g)).trim b = .ok t' ∧
    g'.rows = [⟨5, 175, 0, some 1⟩] ∧ t'.rows = [] := by
  have hs : (Dataset.grid (⟨[5], [175], none, fun _ _ _ => some 1⟩ : Grid (Option ℚ))).Sorted := by
    unfold Dataset.Sorted; constructor <;> decide +kernel
  refine ⟨⟨[5], [175], none, fun _ _ _ => some 1⟩, ⟨0, 10, 170, -170, []⟩, _, _, hs, by norm_num [Valid],
    trim_eq hs (by intro h; cases h), trim_eq (d := .table _) trivial (by intro h; cases h), ?_, ?_⟩
  · decide +kernel
  · decide +kernel

example : ∃ g' t', (Dataset.grid exGrid).trim ⟨0, 12, -175, 170, []⟩ = .ok g' ∧
    (Dataset.table (tableOf exGrid)).trim ⟨0, 12, -175, 170, []⟩ = .ok t' ∧ g'.rows = t'.rows ∧ g'.rows.length = 6 := by
  rcases C26_table_grid_agree_partial exGrid exGrid_sorted ⟨0, 12, -175, 170, []⟩ (by norm_num) with h | ⟨g', t', h1, h2, h3⟩
  · rw [trim_eq exGrid_sorted (by intro h; cases h)] at h; exact absurd h.1 (by simp)
  · refine ⟨g', t', h1, h2, h3, ?_⟩
    rw [trim_inv exGrid_sorted h1]
    decide +kernel

example : (⟨5, 175, 0, some 180⟩ : Row (Option ℚ)) ∈ (Dataset.grid exGrid).rows ∧ HCovers exCrossRegion 175 5 ∧
    (⟨5, 0, 0, some 5⟩ : Row (Option ℚ)) ∈ pointsIn (.table (tableOf exGrid)) exCrossRegion := by
  refine ⟨by decide +kernel, ⟨⟨0, by norm_num [exCrossRegion], by norm_num [exCrossRegion, eastEdge]⟩, by norm_num [exCrossRegion], by norm_num [exCrossRegion]⟩, ?_⟩
  rw [pointsIn_eq (d := .table _) trivial (by intro h; cases h)]
  decide +kernel

end Verif
