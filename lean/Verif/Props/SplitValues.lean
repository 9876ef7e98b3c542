import Verif.Props.Values
import Mathlib.Algebra.BigOperators.Ring.Finset

/-!
# C30: aggregated values of a cell and of its quarters
-/

namespace Verif
open Spec

variable {V D : Type}

/-- Is the data gridded? -/
def Dataset.isGrid : Dataset V → Bool
  | .table _ => false
  | .grid _ => true

/-- The present values of the datapoints of a box. -/
def Spec.valuesIn (d : Dataset (Option ℚ)) (b : Boundary) : List ℚ := presentValues ((pointsIn d b).map Row.val)

theorem scalarValue_eq (agg : AggType) {b : Boundary} {d : Dataset (Option ℚ)} (hs : d.Sorted)
    (ht : d.hasTime = true → ∃ p, timeLimits b = .ok p) :
    scalarValue agg b d = valueOf d.isGrid agg ((pointsIn d b).map Row.val) := by
  unfold scalarValue pointsIn
  rw [trim_eq hs ht]
  cases d <;> rfl

theorem mask_right (d : Dataset V) {b : Boundary} (h : TrimsRight d b) (r : Row V) (hr : -180 < r.long ∧ r.long ≤ 180) :
    d.mask b r = true ↔ HCovers b r.long r.lat := by
  obtain ⟨⟨hv, -, -⟩, h⟩ := h
  cases d with
  | table t => exact mask_iff _ hv h r hr
  | grid g =>
    rcases h with h | h
    · exact mask_iff _ hv h r hr
    · exact grid_mask_iff hv h.2 r hr

theorem mask_domain (d : Dataset V) {b : Boundary} (h : TrimsRight d b) (r : Row V) (hm : r ∈ d.rows) (h1 : d.mask b r = true) :
    -180 < r.long ∧ r.long ≤ 180 := by
  obtain ⟨⟨hv, -, -⟩, h⟩ := h
  cases d with
  | table t => exact mask_range _ hv h r h1
  | grid g =>
    rcases h with h | h
    · exact mask_range _ hv h r h1
    · apply h.1
      simp only [Dataset.rows, Grid.rows, List.mem_flatMap] at hm
      obtain ⟨y, -, x, hx, hr⟩ := hm
      rcases hg : g.times with _ | ts
      · simp only [hg, List.mem_singleton] at hr; rw [hr]; exact hx
      · simp only [hg, List.mem_map] at hr; obtain ⟨t, _, rfl⟩ := hr; exact hx

/-- The datapoints of a box are those of the boxes of any tiling of it. -/
theorem points_tiling {d : Dataset V} (hs : d.Sorted) {p : Boundary} {l : List Boundary} (hT : Tiles l p)
    (hp : TrimsRight d p) (hl : ∀ q ∈ l, TrimsRight d q ∧ q.time = p.time) (ht : d.hasTime = true → ∃ x, timeLimits p = .ok x) :
    (l.flatMap (pointsIn d)).Perm (pointsIn d p) := by
  rw [pointsIn_eq hs ht]
  have e : l.flatMap (pointsIn d) = l.flatMap (fun q => d.rows.filter (d.sel q)) := by
    rw [List.flatMap_def, List.flatMap_def]
    congr 1
    apply List.map_congr_left
    intro q hq
    exact pointsIn_eq hs (by rw [timeLimits_congr (hl q hq).2]; exact ht)
  rw [e]
  apply perm_flatMap_filter
  intro r hr
  have selq : ∀ q ∈ l, d.sel q r = true ↔ d.mask q r = true ∧ (!d.hasTime || timeOk p r.time) = true := by
    intro q hq
    unfold Dataset.sel
    rw [timeOk_congr (hl q hq).2, Bool.and_eq_true]
  by_cases h : d.sel p r = true
  · rw [if_pos h]
    have h' := h
    unfold Dataset.sel at h'
    rw [Bool.and_eq_true] at h'
    have hdom := mask_domain d hp r hr h'.1
    obtain ⟨q, hq, hc⟩ := (hT.1 _ _).1 ((mask_right d hp r hdom).1 h'.1)
    obtain ⟨i, hi⟩ := List.mem_iff_getElem?.1 hq
    apply countP_unique _ _ i
    intro j
    constructor
    · rintro ⟨q', hj, hs'⟩
      have hq' := List.mem_iff_getElem?.2 ⟨j, hj⟩
      have hc' := (mask_right d (hl q' hq').1 r hdom).1 ((selq q' hq').1 hs').1
      by_contra hne
      obtain ⟨hi1, hi2⟩ := List.getElem?_eq_some_iff.1 hi
      obtain ⟨hj1, hj2⟩ := List.getElem?_eq_some_iff.1 hj
      have hpw := List.pairwise_iff_getElem.1 hT.2
      rcases Nat.lt_or_ge i j with hij | hij
      · exact hpw i j hi1 hj1 hij r.long r.lat ⟨by rw [hi2]; exact hc, by rw [hj2]; exact hc'⟩
      · exact hpw j i hj1 hi1 (by omega) r.long r.lat ⟨by rw [hj2]; exact hc', by rw [hi2]; exact hc⟩
    · rintro rfl
      exact ⟨q, hi, (selq q hq).2 ⟨(mask_right d (hl q hq).1 r hdom).2 hc, h'.2⟩⟩
  · rw [if_neg h, List.countP_eq_zero]
    intro q hq hs'
    apply h
    obtain ⟨h1, h2⟩ := (selq q hq).1 hs'
    have hdom := mask_domain d (hl q hq).1 r hr h1
    unfold Dataset.sel
    rw [Bool.and_eq_true]
    exact ⟨(mask_right d hp r hdom).2 ((hT.1 _ _).2 ⟨q, hq, (mask_right d (hl q hq).1 r hdom).1 h1⟩), h2⟩

/-- The quarters of a box to which trimming is right. -/
theorem quarters_right {ops : DataOps D} {c : CellBox D} {start : ℕ} {new : List (CellBox D)} (h : c.split ops start = .ok new)
    {d : Dataset V} (hr : TrimsRight d c.bounds) :
    Tiles (new.map (·.bounds)) c.bounds ∧ ∀ q ∈ new.map (·.bounds), TrimsRight d q ∧ q.time = c.bounds.time := by
  obtain ⟨⟨hv, hd, hh⟩, hr⟩ := hr
  obtain ⟨nw, ne, sw, se, hnew, -, -, -, -, hT, hall, -⟩ := C14_cell_split_partial ops c start hv hd
  rw [h] at hnew
  cases hnew
  refine ⟨hT, ?_⟩
  intro q hq
  obtain ⟨c', hc', e⟩ := List.mem_map.1 hq
  subst e
  clear hq
  rename' c' => q, hc' => hq
  obtain ⟨h1, h2, -, ht, hw, h6, -⟩ := hall q hq
  refine ⟨⟨⟨h1, h2, by unfold Boundary.height at h6; linarith⟩, ?_⟩, ht⟩
  have hcross : c.bounds.longMin < c.bounds.longMax → q.bounds.longMin < q.bounds.longMax := by
    intro hcr
    obtain ⟨f, hsp', hf⟩ := split_quarters ops c start hv hcr
    rw [h] at hsp'
    cases hsp'
    obtain ⟨q', rfl⟩ : ∃ q', q = f q' := by
      simp only [List.mem_cons, List.not_mem_nil, or_false] at hq
      rcases hq with rfl | rfl | rfl | rfl
      · exact ⟨.nw, rfl⟩
      · exact ⟨.ne, rfl⟩
      · exact ⟨.sw, rfl⟩
      · exact ⟨.se, rfl⟩
    have hr := hf q'
    unfold rectOf at hr
    cases q' <;> simp only [Rect.quarter, Rect.mk.injEq] at hr <;> obtain ⟨e1, e2, e3, e4⟩ := hr <;> linarith
  cases d with
  | table t => exact hcross hr
  | grid g =>
    rcases hr with hr | hr
    · exact Or.inl (hcross hr)
    · refine Or.inr ⟨hr.1, ?_⟩
      intro e
      have hwe := Boundary.width_eq q.bounds
      have hwc := (C04_geometry_partial _ hv hd).1
      unfold eastEdge at hwe
      rw [if_neg (by rw [e]; exact lt_irrefl _), e] at hwe
      linarith [hwc.2]

/-- Numbers of values and sums over a list of lists. -/
theorem flatMap_sums {α : Type} (l : List α) (f : α → List ℚ) :
    (((l.flatMap f).length : ℕ) : ℚ) = (l.map (fun a => ((f a).length : ℚ))).sum ∧ (l.flatMap f).sum = (l.map (fun a => (f a).sum)).sum := by
  induction l with
  | nil => simp
  | cons a l ih =>
    simp only [List.flatMap_cons, List.length_append, Nat.cast_add, List.map_cons, List.sum_cons, List.sum_append, ih.1, ih.2,
      and_self]

theorem valuesIn_flatMap {d : Dataset (Option ℚ)} (l : List Boundary) :
    presentValues ((l.flatMap (pointsIn d)).map Row.val) = l.flatMap (valuesIn d) := by
  unfold valuesIn presentValues
  induction l with
  | nil => rfl
  | cons a l ih => simp only [List.flatMap_cons, List.map_append, List.filterMap_append, ih]

/-! ## Grids stored from north to south or from east to west -/

/-- The coordinates of a grid are ascending or descending. -/
def Spec.Ordered : Dataset V → Prop
  | .table _ => True
  | .grid g => (g.lats.Pairwise (· ≤ ·) ∨ g.lats.Pairwise (· ≥ ·)) ∧ (g.longs.Pairwise (· ≤ ·) ∨ g.longs.Pairwise (· ≥ ·))

theorem Dataset.Sorted.ordered {d : Dataset V} (h : d.Sorted) : Ordered d := by
  cases d with
  | table t => trivial
  | grid g => exact ⟨Or.inl h.1, Or.inl h.2⟩

theorem selSlice_desc {l : List ℚ} (h : l.Pairwise (· ≥ ·)) (h' : ¬ l.Pairwise (· ≤ ·)) (lo hi : ℚ) :
    selSlice l lo hi = .ok ((l.take (l.countP (fun x => x ≥ hi))).drop (l.countP (fun x => x > lo))) := by
  unfold selSlice; rw [if_neg h', if_pos h]

/-- A slice in the wrong direction is empty. -/
theorem selSlice_wrong {l : List ℚ} (h : l.Pairwise (· ≥ ·)) (h' : ¬ l.Pairwise (· ≤ ·)) {lo hi : ℚ} (hlt : lo < hi) :
    selSlice l lo hi = .ok [] := by
  rw [selSlice_desc h h', List.drop_eq_nil_of_le]
  rw [List.length_take]
  refine (min_le_left _ _).trans (List.countP_mono_left ?_)
  intro x _ hx
  simp only [ge_iff_le, decide_eq_true_eq, gt_iff_lt] at hx ⊢
  linarith

theorem take_countP_desc {l : List ℚ} (h : l.Pairwise (· ≥ ·)) (hi : ℚ) {x : ℚ} (hx : x ∈ l.take (l.countP (fun y => y ≥ hi))) : hi ≤ x := by
  induction l with
  | nil => simp at hx
  | cons a l ih =>
    obtain ⟨h1, h2⟩ := List.pairwise_cons.1 h
    by_cases ha : a ≥ hi
    · rw [List.countP_cons_of_pos (by simpa using ha), List.take_succ_cons, List.mem_cons] at hx
      rcases hx with rfl | hx
      · exact ha
      · exact ih h2 hx
    · rw [List.countP_cons_of_neg (by simpa using ha)] at hx
      have h0 : l.countP (fun y => decide (y ≥ hi)) = 0 := by
        rw [List.countP_eq_zero]
        intro y hy
        have := h1 y hy
        simp only [ge_iff_le, decide_eq_true_eq, not_le] at ha this ⊢
        linarith
      rw [h0] at hx
      simp at hx

/-- No longitudes are left by slices in the wrong direction. -/
theorem selLongs_wrong {g : Grid V} {b : Boundary} (hr : TrimsRight (.grid g) b) (h : g.longs.Pairwise (· ≥ ·)) (h' : ¬ g.longs.Pairwise (· ≤ ·)) :
    ∃ l', Grid.selLongs b g.longs = .ok l' ∧ (if b.longMin ∈ l' then l'.filter (fun x => decide (x ≠ b.longMin)) else l') = [] := by
  obtain ⟨⟨hv, -, -⟩, hr⟩ := hr
  unfold Grid.selLongs
  by_cases hb : b.longMin < b.longMax
  · rw [if_pos hb, selSlice_wrong h h' hb]
    exact ⟨[], rfl, by simp⟩
  · rcases hr with hr | ⟨hr, -⟩
    · exact absurd hr hb
    have e1 : selSlice g.longs (-180) b.longMax = .ok [] := by
      rw [selSlice_desc h h', List.drop_eq_nil_of_le]
      rw [List.length_take]
      refine (min_le_right _ _).trans (le_of_eq (Eq.symm ?_))
      rw [List.countP_eq_length]
      intro x hx
      simpa using (hr x hx).1
    rw [if_neg hb, e1]
    obtain ⟨-, v1, v2, v3, v4, -⟩ := hv
    rcases lt_or_eq_of_le (show b.longMin ≤ 180 by linarith) with hlt | he
    · rw [selSlice_wrong h h' hlt]
      exact ⟨[], rfl, by simp⟩
    · rw [selSlice_desc h h', he]
      refine ⟨_, rfl, ?_⟩
      have hall : ∀ x ∈ ([] : List ℚ) ++ (g.longs.take (g.longs.countP (fun x => x ≥ 180))).drop (g.longs.countP (fun x => x > 180)), x = 180 := by
        intro x hx
        rw [List.nil_append] at hx
        have hx := List.mem_of_mem_drop hx
        exact le_antisymm (hr x (List.mem_of_mem_take hx)).2 (take_countP_desc h 180 hx)
      split
      · rw [List.filter_eq_nil_iff]
        intro x hx
        simpa using hall x hx
      · rename_i hn
        rw [List.eq_nil_iff_forall_not_mem]
        intro x hx
        have e := hall x hx
        subst e
        exact hn hx

/-- Trimming a grid whose latitudes or longitudes descend leaves nothing. -/
theorem ordered_cases {d : Dataset V} (ho : Ordered d) : d.Sorted ∨ ∀ b, TrimsRight d b → (d.hasTime = true → ∃ p, timeLimits b = .ok p) →
    ∃ g, d.isGrid = true ∧ d.trim b = .ok (.grid g) ∧ g.rows = [] := by
  cases d with
  | table t => exact Or.inl trivial
  | grid g =>
    by_cases hs : (Dataset.grid g).Sorted
    · exact Or.inl hs
    right
    intro b hr ht
    have hlats : ∃ l', selSlice g.lats b.latMin b.latMax = .ok l' ∧ (¬ g.lats.Pairwise (· ≤ ·) → l' = []) := by
      rcases em (g.lats.Pairwise (· ≤ ·)) with h | h
      · exact ⟨_, selSlice_sorted h _ _, fun hn => absurd h hn⟩
      · exact ⟨[], selSlice_wrong (ho.1.resolve_left h) h hr.1.2.2, fun _ => rfl⟩
    have hlongs : ∃ l', Grid.selLongs b g.longs = .ok l' ∧
        (¬ g.longs.Pairwise (· ≤ ·) → (if b.longMin ∈ l' then l'.filter (fun x => decide (x ≠ b.longMin)) else l') = []) := by
      rcases em (g.longs.Pairwise (· ≤ ·)) with h | h
      · obtain ⟨l', h1, -⟩ := selLongs_drop (b := b) h
        exact ⟨l', h1, fun hn => absurd h hn⟩
      · obtain ⟨l', h1, h2⟩ := selLongs_wrong hr (ho.2.resolve_left h) h
        exact ⟨l', h1, fun _ => h2⟩
    obtain ⟨la, hla, ela⟩ := hlats
    obtain ⟨lo, hlo, elo⟩ := hlongs
    have hempty : ∀ (ts : Option (List ℤ)), (⟨if b.latMin ∈ la then la.filter (fun x => decide (x ≠ b.latMin)) else la,
        if b.longMin ∈ lo then lo.filter (fun x => decide (x ≠ b.longMin)) else lo, ts, g.val⟩ : Grid V).rows = [] := by
      intro ts
      unfold Grid.rows
      by_cases h : g.lats.Pairwise (· ≤ ·)
      · have h2 : ¬ g.longs.Pairwise (· ≤ ·) := fun h2 => hs ⟨h, h2⟩
        rw [elo h2]
        simp
      · rw [ela h]
        simp
    unfold Dataset.trim Grid.trim
    simp only [hla, hlo, bind, Except.bind, pure, Except.pure]
    rcases hg : g.times with _ | ts
    · exact ⟨_, rfl, rfl, hempty none⟩
    · obtain ⟨⟨t0, t1⟩, hp⟩ := ht (by show g.times.isSome = true; rw [hg]; rfl)
      simp only [hp]
      exact ⟨_, rfl, rfl, hempty _⟩

/-- **C30**: for every cell and its quarters and every dataset that can be trimmed to the cell (boxes over
the antimeridian for gridded data only): COUNT of the cell is the sum of the COUNTs of its quarters; MIN
(MAX) of the cell is the least (greatest) of those of its quarters, and NaN only if theirs all are; the
number of values and MEAN of the cell are those of the quarters together, weighted by their numbers of
values.  The coordinates of a grid may ascend or descend (if they descend, trimming loses all data, `C24_false`);
in any other order the claim fails (`C30_false`). -/
theorem C30_quarters_partial {ops : DataOps D} {c : CellBox D} {start : ℕ} {new : List (CellBox D)} (h : c.split ops start = .ok new)
    {d : Dataset (Option ℚ)} (ho : Ordered d) (hr : TrimsRight d c.bounds) {dc : Dataset (Option ℚ)} (htrim : d.trim c.bounds = .ok dc) :
    (∃ (n : ℚ) (f : CellBox D → ℚ), scalarValue .count c.bounds d = .ok (some n) ∧
      (∀ q ∈ new, scalarValue .count q.bounds d = .ok (some (f q))) ∧ n = (new.map f).sum) ∧
    ((scalarValue .min c.bounds d = .ok none ↔ ∀ q ∈ new, scalarValue .min q.bounds d = .ok none) ∧
      ∀ v, scalarValue .min c.bounds d = .ok (some v) ↔ (∃ q ∈ new, scalarValue .min q.bounds d = .ok (some v)) ∧
        ∀ q ∈ new, ∀ w, scalarValue .min q.bounds d = .ok (some w) → v ≤ w) ∧
    ((scalarValue .max c.bounds d = .ok none ↔ ∀ q ∈ new, scalarValue .max q.bounds d = .ok none) ∧
      ∀ v, scalarValue .max c.bounds d = .ok (some v) ↔ (∃ q ∈ new, scalarValue .max q.bounds d = .ok (some v)) ∧
        ∀ q ∈ new, ∀ w, scalarValue .max q.bounds d = .ok (some w) → w ≤ v) ∧
    (∃ f : CellBox D → ℚ, (∀ q ∈ new, scalarValue .mean q.bounds d = .ok (some (f q)) ∨
        scalarValue .mean q.bounds d = .ok none ∧ valuesIn d q.bounds = []) ∧
      ((valuesIn d c.bounds).length : ℚ) = (new.map (fun q => ((valuesIn d q.bounds).length : ℚ))).sum ∧
      ∀ v, scalarValue .mean c.bounds d = .ok (some v) →
        v * (valuesIn d c.bounds).length = (new.map (fun q => f q * (valuesIn d q.bounds).length)).sum) := by
  obtain ⟨hT, hall⟩ := quarters_right h hr
  have ht := trim_time htrim
  have htq : ∀ q ∈ new, d.hasTime = true → ∃ p, timeLimits q.bounds = .ok p := by
    intro q hq
    rw [timeLimits_congr (hall _ (List.mem_map.2 ⟨q, hq, rfl⟩)).2]
    exact ht
  have hsum : (∀ agg, scalarValue agg c.bounds d = valueOf d.isGrid agg ((pointsIn d c.bounds).map Row.val)) ∧
      (∀ q ∈ new, ∀ agg, scalarValue agg q.bounds d = valueOf d.isGrid agg ((pointsIn d q.bounds).map Row.val)) ∧
      ((new.map (·.bounds)).flatMap (pointsIn d)).Perm (pointsIn d c.bounds) := by
    rcases ordered_cases ho with hs | hn
    · exact ⟨fun agg => scalarValue_eq agg hs ht, fun q hq agg => scalarValue_eq agg hs (htq q hq), points_tiling hs hT hr hall ht⟩
    · have key : ∀ b, TrimsRight d b → (d.hasTime = true → ∃ p, timeLimits b = .ok p) → pointsIn d b = [] ∧
          ∀ agg, scalarValue agg b d = valueOf d.isGrid agg ((pointsIn d b).map Row.val) := by
        intro b hb htb
        obtain ⟨g, h1, h2, h3⟩ := hn b hb htb
        have e : pointsIn d b = g.rows := by unfold pointsIn; rw [h2]; rfl
        refine ⟨by rw [e, h3], fun agg => ?_⟩
        unfold scalarValue
        rw [e, h1, h2]
        rfl
      refine ⟨(key _ hr ht).2, fun q hq => (key _ (hall _ (List.mem_map.2 ⟨q, hq, rfl⟩)).1 (htq q hq)).2, ?_⟩
      rw [(key _ hr ht).1]
      have : (new.map (·.bounds)).flatMap (pointsIn d) = [] := by
        rw [List.flatMap_eq_nil_iff]
        intro q hq
        obtain ⟨q', hq', rfl⟩ := List.mem_map.1 hq
        exact (key _ (hall _ hq).1 (htq q' hq')).1
      rw [this]
  obtain ⟨vp, vq, hperm⟩ := hsum
  have hvals : (new.flatMap (fun q => valuesIn d q.bounds)).Perm (valuesIn d c.bounds) := by
    have := presentValues_perm (hperm.map Row.val)
    rw [valuesIn_flatMap, List.flatMap_map] at this
    exact this
  have memv : ∀ x, x ∈ valuesIn d c.bounds ↔ ∃ q ∈ new, x ∈ valuesIn d q.bounds := by
    intro x
    rw [← hvals.mem_iff, List.mem_flatMap]
  refine ⟨?_, ?_, ?_, ?_⟩
  · have e : (pointsIn d c.bounds).length = (new.map (fun q => (pointsIn d q.bounds).length)).sum := by
      rw [← hperm.length_eq, List.length_flatMap, List.map_map]; rfl
    obtain ⟨hlen, -⟩ := flatMap_sums new (fun q => valuesIn d q.bounds)
    rw [hvals.length_eq] at hlen
    rcases hg : d.isGrid with _ | _
    · refine ⟨(valuesIn d c.bounds).length, fun q => (valuesIn d q.bounds).length, ?_, ?_, hlen⟩
      · rw [vp, hg, (C29_count _).1]; rfl
      · intro q hq
        rw [vq q hq, hg, (C29_count _).1]; rfl
    · refine ⟨(pointsIn d c.bounds).length, fun q => (pointsIn d q.bounds).length, ?_, ?_, ?_⟩
      · rw [vp, hg, (C29_count _).2, List.length_map]
      · intro q hq
        rw [vq q hq, hg, (C29_count _).2, List.length_map]
      · rw [e, Nat.cast_list_sum, List.map_map]; rfl
  · have none_iff : ∀ b, valueOf d.isGrid .min ((pointsIn d b).map Row.val) = .ok none ↔ valuesIn d b = [] := by
      intro b
      obtain ⟨r, h1, h2⟩ := (C29_values d.isGrid ((pointsIn d b).map Row.val)).1 .min (by simp)
      rw [h1, Except.ok.injEq]; exact h2
    have some_iff : ∀ b v, valueOf d.isGrid .min ((pointsIn d b).map Row.val) = .ok (some v) ↔ IsMinOf (valuesIn d b) v :=
      fun b => (C29_values d.isGrid ((pointsIn d b).map Row.val)).2.1
    constructor
    · rw [vp, none_iff]
      constructor
      · intro he q hq
        rw [vq q hq, none_iff, List.eq_nil_iff_forall_not_mem]
        intro x hx
        have := (memv x).2 ⟨q, hq, hx⟩
        rw [he] at this; cases this
      · intro hn
        rw [List.eq_nil_iff_forall_not_mem]
        intro x hx
        obtain ⟨q, hq, hx⟩ := (memv x).1 hx
        have := hn q hq
        rw [vq q hq, none_iff] at this
        rw [this] at hx; cases hx
    · intro v
      rw [vp, some_iff]
      constructor
      · rintro ⟨h1, h2⟩
        obtain ⟨q, hq, hx⟩ := (memv v).1 h1
        refine ⟨⟨q, hq, ?_⟩, ?_⟩
        · rw [vq q hq, some_iff]
          exact ⟨hx, fun x hx => h2 x ((memv x).2 ⟨q, hq, hx⟩)⟩
        · intro q' hq' w hw
          rw [vq q' hq', some_iff] at hw
          exact h2 w ((memv w).2 ⟨q', hq', hw.1⟩)
      · rintro ⟨⟨q, hq, hv⟩, h2⟩
        rw [vq q hq, some_iff] at hv
        refine ⟨(memv v).2 ⟨q, hq, hv.1⟩, ?_⟩
        intro x hx
        obtain ⟨q', hq', hx'⟩ := (memv x).1 hx
        rcases hw : scalarValue .min q'.bounds d with e | o
        · obtain ⟨r, h1, -⟩ := (C29_values d.isGrid ((pointsIn d q'.bounds).map Row.val)).1 .min (by simp)
          rw [vq q' hq', h1] at hw; cases hw
        · rcases o with _ | w
          · rw [vq q' hq', none_iff] at hw
            rw [hw] at hx'; cases hx'
          · have hle := h2 q' hq' w hw
            rw [vq q' hq', some_iff] at hw
            exact hle.trans (hw.2 x hx')
  · have none_iff : ∀ b, valueOf d.isGrid .max ((pointsIn d b).map Row.val) = .ok none ↔ valuesIn d b = [] := by
      intro b
      obtain ⟨r, h1, h2⟩ := (C29_values d.isGrid ((pointsIn d b).map Row.val)).1 .max (by simp)
      rw [h1, Except.ok.injEq]; exact h2
    have some_iff : ∀ b v, valueOf d.isGrid .max ((pointsIn d b).map Row.val) = .ok (some v) ↔ IsMaxOf (valuesIn d b) v :=
      fun b => (C29_values d.isGrid ((pointsIn d b).map Row.val)).2.2.1
    constructor
    · rw [vp, none_iff]
      constructor
      · intro he q hq
        rw [vq q hq, none_iff, List.eq_nil_iff_forall_not_mem]
        intro x hx
        have := (memv x).2 ⟨q, hq, hx⟩
        rw [he] at this; cases this
      · intro hn
        rw [List.eq_nil_iff_forall_not_mem]
        intro x hx
        obtain ⟨q, hq, hx⟩ := (memv x).1 hx
        have := hn q hq
        rw [vq q hq, none_iff] at this
        rw [this] at hx; cases hx
    · intro v
      rw [vp, some_iff]
      constructor
      · rintro ⟨h1, h2⟩
        obtain ⟨q, hq, hx⟩ := (memv v).1 h1
        refine ⟨⟨q, hq, ?_⟩, ?_⟩
        · rw [vq q hq, some_iff]
          exact ⟨hx, fun x hx => h2 x ((memv x).2 ⟨q, hq, hx⟩)⟩
        · intro q' hq' w hw
          rw [vq q' hq', some_iff] at hw
          exact h2 w ((memv w).2 ⟨q', hq', hw.1⟩)
      · rintro ⟨⟨q, hq, hv⟩, h2⟩
        rw [vq q hq, some_iff] at hv
        refine ⟨(memv v).2 ⟨q, hq, hv.1⟩, ?_⟩
        intro x hx
        obtain ⟨q', hq', hx'⟩ := (memv x).1 hx
        rcases hw : scalarValue .max q'.bounds d with e | o
        · obtain ⟨r, h1, -⟩ := (C29_values d.isGrid ((pointsIn d q'.bounds).map Row.val)).1 .max (by simp)
          rw [vq q' hq', h1] at hw; cases hw
        · rcases o with _ | w
          · rw [vq q' hq', none_iff] at hw
            rw [hw] at hx'; cases hx'
          · have hle := h2 q' hq' w hw
            rw [vq q' hq', some_iff] at hw
            exact (hw.2 x hx').trans hle
  · have some_iff : ∀ b v, valueOf d.isGrid .mean ((pointsIn d b).map Row.val) = .ok (some v) ↔
        valuesIn d b ≠ [] ∧ v * (valuesIn d b).length = (valuesIn d b).sum :=
      fun b => (C29_values d.isGrid ((pointsIn d b).map Row.val)).2.2.2.1
    obtain ⟨hlen, hsum⟩ := flatMap_sums new (fun q => valuesIn d q.bounds)
    rw [hvals.length_eq] at hlen
    rw [hvals.sum_eq] at hsum
    refine ⟨fun q => (valuesIn d q.bounds).sum / (valuesIn d q.bounds).length, ?_, hlen, ?_⟩
    · intro q hq
      by_cases hn : valuesIn d q.bounds = []
      · right
        refine ⟨?_, hn⟩
        obtain ⟨r, h1, h2⟩ := (C29_values d.isGrid ((pointsIn d q.bounds).map Row.val)).1 .mean (by simp)
        rw [vq q hq, h1, h2.2 hn]
      · left
        rw [vq q hq, some_iff]
        exact ⟨hn, div_mul_cancel₀ _ (length_pos_of_ne_nil hn).ne'⟩
    · intro v hv
      rw [vp, some_iff] at hv
      rw [hv.2, hsum]
      congr 1
      apply List.map_congr_left
      intro q _
      by_cases hn : valuesIn d q.bounds = []
      · simp [hn]
      · exact (div_mul_cancel₀ _ (length_pos_of_ne_nil hn).ne').symm

example : ∃ new dc, (⟨exRegion, 0, 0, (), []⟩ : CellBox Unit).split unitOps 4 = .ok new ∧ exTable.trim exRegion = .ok dc ∧
    TrimsRight exTable exRegion ∧ scalarValue .mean exRegion exTable = .ok (some 3) ∧
    new.map (fun q => (valuesIn exTable q.bounds).length) = [0, 1, 1, 0] := by
  obtain ⟨nw, ne, sw, se, hnew, -⟩ := C14_cell_split_partial unitOps (⟨exRegion, 0, 0, (), []⟩ : CellBox Unit) 4
    (by norm_num [Valid, exRegion]) (by norm_num [exRegion])
  have hl : ((⟨exRegion, 0, 0, (), []⟩ : CellBox Unit).split unitOps 4).toOption.map
      (fun new => new.map (fun q => (valuesIn exTable q.bounds).length)) = some [0, 1, 1, 0] := by decide +kernel
  rw [hnew] at hl
  refine ⟨_, _, hnew, trim_eq (d := exTable) trivial (by intro h; cases h),
    ⟨⟨by norm_num [Valid, exRegion], by norm_num [exRegion], by norm_num [exRegion]⟩, by simp [exTable]; norm_num [exRegion]⟩, by decide +kernel, ?_⟩
  simpa [Except.toOption] using hl

/-- A grid whose latitudes are in no order. -/
def exUnordered : Grid (Option ℚ) := ⟨[0, 20, 10], [5, 15], none, fun y x _ => some (y + x)⟩

/-- **C30** fails for grids whose coordinates neither ascend nor descend: slices between labels take what is
stored between them, so the quarters of this cell have datapoints that the cell does not have. -/
theorem C30_false : ∃ (c : CellBox Unit) (new : List (CellBox Unit)) (d : Dataset (Option ℚ)), ProperBox c.bounds ∧
    c.bounds.longMin < c.bounds.longMax ∧ c.split unitOps 4 = .ok new ∧ scalarValue .count c.bounds d = .ok (some 2) ∧
    new.map (fun q => scalarValue .count q.bounds d) = [.ok (some 0), .ok (some 0), .ok (some 2), .ok (some 2)] := by
  obtain ⟨nw, ne, sw, se, hnew, -⟩ := C14_cell_split_partial unitOps (⟨⟨0, 20, 0, 20, []⟩, 0, 0, (), []⟩ : CellBox Unit) 4
    (by norm_num [Valid]) (by norm_num)
  have hl : ((⟨⟨0, 20, 0, 20, []⟩, 0, 0, (), []⟩ : CellBox Unit).split unitOps 4).toOption.map
      (fun new => new.map (fun q => scalarValue .count q.bounds (.grid exUnordered))) =
      some [.ok (some 0), .ok (some 0), .ok (some 2), .ok (some 2)] := by decide +kernel
  rw [hnew] at hl
  refine ⟨_, _, .grid exUnordered, ⟨by norm_num [Valid], by norm_num, by norm_num⟩, by norm_num, hnew, by decide +kernel, ?_⟩
  simpa [Except.toOption] using hl

/-- **C24** fails for every grid whose latitudes or longitudes descend, not only for the one of `C24_false`: trimming
to any proper box raises nothing and leaves no datapoint, so the datapoints inside are counted in no cell. -/
theorem C24_descending_false {g : Grid V} (ho : Ordered (.grid g)) (hn : ¬ (Dataset.grid g).Sorted) {b : Boundary}
    (hr : TrimsRight (.grid g) b) (ht : g.times.isSome = true → ∃ t0 t1 l, b.time = t0 :: t1 :: l) :
    (∃ d', (Dataset.grid g).trim b = .ok d') ∧ pointsIn (.grid g) b = [] := by
  obtain ⟨g', -, h1, h2⟩ := (ordered_cases ho).resolve_left hn b hr (by
    intro h
    obtain ⟨t0, t1, l, e⟩ := ht h
    exact ⟨(t0, t1), by unfold timeLimits; rw [e]⟩)
  refine ⟨⟨_, h1⟩, ?_⟩
  unfold pointsIn
  rw [h1]
  exact h2

/-- A grid from north to south meets the hypotheses of `C30_quarters_partial` and of `C24_descending_false`. -/
example : Ordered (.grid exDescending) ∧ ¬ (Dataset.grid exDescending).Sorted ∧ TrimsRight (.grid exDescending) ⟨0, 20, 0, 20, []⟩ ∧
    scalarValue .count ⟨0, 20, 0, 20, []⟩ (.grid exDescending) = .ok (some 0) := by
  refine ⟨⟨Or.inr (by decide +kernel), Or.inl (by decide +kernel)⟩, fun h => ?_,
    ⟨⟨by norm_num [Valid], by norm_num, by norm_num⟩, Or.inl (by norm_num)⟩, by decide +kernel⟩
  have := h.1
  revert this
  decide +kernel

end Verif
