import Verif.Model.Data
import Verif.Props.Mesh

/-!
# Trimming as filtering
-/

namespace Verif
open Spec

variable {V : Type}

namespace Dataset

/-- Does the data have a time column? -/
def hasTime : Dataset V → Bool
  | table t => t.hasTime
  | grid g => g.times.isSome

/-- Grids have ascending coordinates. -/
def Sorted : Dataset V → Prop
  | table _ => True
  | grid g => g.lats.Pairwise (· ≤ ·) ∧ g.longs.Pairwise (· ≤ ·)

end Dataset

/-- The longitudes a grid keeps for a box. -/
def Grid.lmask (b : Boundary) (x : ℚ) : Bool :=
  if b.longMin < b.longMax then decide (b.longMin < x ∧ x ≤ b.longMax)
  else decide (x ≠ b.longMin) && (decide (-180 ≤ x ∧ x ≤ b.longMax) || decide (b.longMin ≤ x ∧ x ≤ 180))

/-- The datapoints a grid keeps for a box, disregarding time. -/
def Grid.mask (b : Boundary) (r : Row V) : Bool := decide (b.latMin < r.lat ∧ r.lat ≤ b.latMax) && Grid.lmask b r.long

/-- The spatial selection of a dataset. -/
def Dataset.mask : Dataset V → Boundary → Row V → Bool
  | table _ => Table.mask
  | grid _ => Grid.mask

/-- Time part of the selection. -/
def timeOk (b : Boundary) (t : ℤ) : Bool :=
  match b.time with
  | t0 :: t1 :: _ => decide (t0 ≤ t) && decide (t ≤ t1)
  | _ => false

/-- The whole selection. -/
def Dataset.sel (d : Dataset V) (b : Boundary) (r : Row V) : Bool := d.mask b r && (!d.hasTime || timeOk b r.time)

theorem filter_flatMap_if {α β : Type} (l : List α) (p : α → Bool) (f : α → List β) :
    (l.filter p).flatMap f = l.flatMap (fun a => if p a then f a else []) := by
  induction l with
  | nil => rfl
  | cons a l ih =>
    by_cases h : p a = true
    · simp [h, ih]
    · simp [h, ih]

theorem timeLimits_ok {b : Boundary} {t0 t1 : ℤ} (h : timeLimits b = .ok (t0, t1)) (t : ℤ) :
    timeOk b t = (decide (t0 ≤ t) && decide (t ≤ t1)) := by
  unfold timeLimits at h
  unfold timeOk
  split at h
  · rename_i a c _ e
    rw [e]
    cases h; rfl
  · cases h

theorem selSlice_sorted {l : List ℚ} (h : l.Pairwise (· ≤ ·)) (lo hi : ℚ) :
    selSlice l lo hi = .ok (l.filter (fun x => lo ≤ x ∧ x ≤ hi)) := by
  unfold selSlice; rw [if_pos h]

theorem drop_min (l : List ℚ) (lo hi : ℚ) :
    (if lo ∈ l.filter (fun x => decide (lo ≤ x ∧ x ≤ hi)) then
      (l.filter (fun x => decide (lo ≤ x ∧ x ≤ hi))).filter (fun x => decide (x ≠ lo))
     else l.filter (fun x => decide (lo ≤ x ∧ x ≤ hi))) = l.filter (fun x => decide (lo < x ∧ x ≤ hi)) := by
  have h1 : (l.filter (fun x => decide (lo ≤ x ∧ x ≤ hi))).filter (fun x => decide (x ≠ lo)) =
      l.filter (fun x => decide (lo < x ∧ x ≤ hi)) := by
    rw [List.filter_filter]
    apply List.filter_congr
    intro x _
    rw [Bool.eq_iff_iff]
    simp only [ne_eq, decide_not, Bool.and_eq_true, Bool.not_eq_eq_eq_not, Bool.not_true, decide_eq_false_iff_not, decide_eq_true_eq]
    constructor
    · rintro ⟨h1, h2, h3⟩; exact ⟨lt_of_le_of_ne h2 (fun e => h1 e.symm), h3⟩
    · rintro ⟨h1, h2⟩; exact ⟨fun e => by subst e; exact lt_irrefl _ h1, h1.le, h2⟩
  split
  · exact h1
  · rename_i h
    rw [← h1]
    symm
    rw [List.filter_eq_self]
    intro a ha
    simp only [ne_eq, decide_not, Bool.not_eq_eq_eq_not, Bool.not_true, decide_eq_false_iff_not]
    rintro rfl
    exact h ha

theorem drop_mem (l : List ℚ) (a : ℚ) :
    (if a ∈ l then l.filter (fun x => decide (x ≠ a)) else l) = l.filter (fun x => decide (x ≠ a)) := by
  split
  · rfl
  · rename_i h
    symm
    rw [List.filter_eq_self]
    intro x hx
    simp only [ne_eq, decide_not, Bool.not_eq_eq_eq_not, Bool.not_true, decide_eq_false_iff_not]
    rintro rfl
    exact h hx

theorem filter_two {l : List ℚ} (hl : l.Pairwise (· ≤ ·)) (p q : ℚ → Bool) (m : ℚ) (hp : ∀ x, p x = true → x < m)
    (hq : ∀ x, q x = true → m < x) : l.filter p ++ l.filter q = l.filter (fun x => p x || q x) := by
  induction l with
  | nil => rfl
  | cons a l ih =>
    obtain ⟨h1, h2⟩ := List.pairwise_cons.1 hl
    have ih := ih h2
    by_cases ha : p a = true
    · have : q a = false := by
        by_contra hc
        have := hq a (by simpa using hc)
        have := hp a ha
        linarith
      simp only [List.filter_cons, ha, this, if_true, Bool.true_or, List.cons_append]
      simpa using ih
    · have ha' : p a = false := by simpa using ha
      by_cases hb : q a = true
      · have hnil : l.filter p = [] := by
          rw [List.filter_eq_nil_iff]
          intro x hx hpx
          have := hq a hb
          have := hp x hpx
          have := h1 x hx
          linarith
        rw [hnil] at ih
        simp only [List.filter_cons, ha', hb, hnil, if_true, Bool.or_true, List.nil_append] at ih ⊢
        simp [ih]
      · have hb' : q a = false := by simpa using hb
        simp only [List.filter_cons, ha', hb', Bool.or_false]
        simpa using ih

/-- The longitudes of a sorted grid after trimming. -/
theorem selLongs_drop {b : Boundary} {l : List ℚ} (hl : l.Pairwise (· ≤ ·)) :
    ∃ l', Grid.selLongs b l = .ok l' ∧
      (if b.longMin ∈ l' then l'.filter (fun x => decide (x ≠ b.longMin)) else l') = l.filter (Grid.lmask b) := by
  unfold Grid.selLongs
  by_cases hb : b.longMin < b.longMax
  · rw [if_pos hb, selSlice_sorted hl]
    refine ⟨_, rfl, ?_⟩
    rw [drop_min]
    apply List.filter_congr
    intro x _
    simp [Grid.lmask, hb]
  · rw [if_neg hb, selSlice_sorted hl, selSlice_sorted hl]
    refine ⟨_, rfl, ?_⟩
    rw [drop_mem, List.filter_append, List.filter_filter, List.filter_filter, filter_two hl _ _ b.longMin]
    · apply List.filter_congr
      intro x _
      simp only [Grid.lmask, hb, if_false, Bool.and_or_distrib_left]
    · intro x hx
      simp only [ne_eq, decide_not, Bool.and_eq_true, Bool.not_eq_eq_eq_not, Bool.not_true, decide_eq_false_iff_not, decide_eq_true_eq] at hx
      push Not at hb
      exact lt_of_le_of_ne (by linarith [hx.2.2]) hx.1
    · intro x hx
      simp only [ne_eq, decide_not, Bool.and_eq_true, Bool.not_eq_eq_eq_not, Bool.not_true, decide_eq_false_iff_not, decide_eq_true_eq] at hx
      exact lt_of_le_of_ne hx.2.1 (fun e => hx.1 e.symm)

/-- The result of trimming a sorted grid. -/
def Grid.trimTo (b : Boundary) (g : Grid V) : Grid V :=
  { g with lats := g.lats.filter (fun x => b.latMin < x ∧ x ≤ b.latMax),
           longs := g.longs.filter (Grid.lmask b),
           times := g.times.map (fun ts => ts.filter (timeOk b)) }

theorem grid_trim {b : Boundary} {g : Grid V} (hlat : g.lats.Pairwise (· ≤ ·)) (hlong : g.longs.Pairwise (· ≤ ·))
    (ht : g.times.isSome = true → ∃ p, timeLimits b = .ok p) : g.trim b = .ok (g.trimTo b) := by
  obtain ⟨l', hl', hl⟩ := selLongs_drop (b := b) hlong
  unfold Grid.trim Grid.trimTo
  rw [hl', selSlice_sorted hlat]
  rcases hg : g.times with _ | ts
  · simp only [bind, Except.bind, pure, Except.pure, drop_min, Option.map_none]
    rw [hl]
  · rw [hg] at ht
    obtain ⟨⟨t0, t1⟩, hp⟩ := ht rfl
    have key := timeLimits_ok hp
    simp only [hp, bind, Except.bind, pure, Except.pure, drop_min, Option.map_some]
    rw [hl]
    congr 4
    funext t
    rw [key]
    simp

/-- The result of trimming. -/
def Dataset.trimTo (b : Boundary) : Dataset V → Dataset V
  | table t => table { t with rows := t.rows.filter ((table t).sel b) }
  | grid g => grid (g.trimTo b)

/-- Trimming raises exactly when a time range is needed and missing; otherwise it gives `trimTo`. -/
theorem trim_eq {b : Boundary} {d : Dataset V} (hs : d.Sorted) (ht : d.hasTime = true → ∃ p, timeLimits b = .ok p) :
    d.trim b = .ok (d.trimTo b) := by
  cases d with
  | table t =>
    show (Table.trim b t >>= fun t => pure (Dataset.table t)) = _
    unfold Table.trim Dataset.trimTo
    by_cases hh : t.hasTime = true
    · obtain ⟨⟨t0, t1⟩, hp⟩ := ht hh
      have key := timeLimits_ok hp
      rw [if_pos hh]
      simp only [hp, bind, Except.bind, pure, Except.pure]
      congr 3
      apply List.filter_congr
      intro r _
      simp [Dataset.sel, Dataset.mask, Dataset.hasTime, hh, key]
    · rw [if_neg hh]
      simp only [bind, Except.bind, pure, Except.pure]
      congr 3
      apply List.filter_congr
      intro r _
      simp [Dataset.sel, Dataset.mask, Dataset.hasTime, hh]
  | grid g =>
    show (Grid.trim b g >>= fun g => pure (Dataset.grid g)) = _
    rw [grid_trim hs.1 hs.2 ht]
    rfl

theorem trim_time {b : Boundary} {d d' : Dataset V} (h : d.trim b = .ok d') (ht : d.hasTime = true) : ∃ p, timeLimits b = .ok p := by
  rcases hp : timeLimits b with e | p
  · exfalso
    cases d with
    | table t =>
      have hh : t.hasTime = true := ht
      unfold Dataset.trim Table.trim at h
      simp [hh, hp, bind, Except.bind] at h
    | grid g =>
      obtain ⟨ts, hg⟩ := Option.isSome_iff_exists.1 ht
      unfold Dataset.trim Grid.trim at h
      simp only [hg, hp, bind, Except.bind] at h
      split at h
      · cases h
      · rename_i hx
        split at hx
        · cases hx
        · split at hx <;> cases hx
  · exact ⟨p, rfl⟩

/-- Whenever trimming succeeds its result is `trimTo`. -/
theorem trim_inv {b : Boundary} {d d' : Dataset V} (hs : d.Sorted) (h : d.trim b = .ok d') : d' = d.trimTo b := by
  rw [trim_eq hs (trim_time h)] at h
  cases h; rfl

theorem trimTo_hasTime (b : Boundary) (d : Dataset V) : (d.trimTo b).hasTime = d.hasTime := by
  cases d <;> simp [Dataset.trimTo, Dataset.hasTime, Grid.trimTo]

theorem trimTo_mask (b : Boundary) (d : Dataset V) : (d.trimTo b).mask = d.mask := by
  cases d <;> rfl

theorem trimTo_sorted (b : Boundary) {d : Dataset V} (hs : d.Sorted) : (d.trimTo b).Sorted := by
  cases d with
  | table t => trivial
  | grid g => exact ⟨hs.1.filter _, hs.2.filter _⟩

/-- Trimming is filtering the datapoints. -/
theorem trimTo_rows (b : Boundary) (d : Dataset V) : (d.trimTo b).rows = d.rows.filter (d.sel b) := by
  cases d with
  | table t => rfl
  | grid g =>
    simp only [Dataset.rows, Grid.rows, Dataset.trimTo, Grid.trimTo]
    rw [List.filter_flatMap, filter_flatMap_if]
    congr 1
    funext y
    rw [List.filter_flatMap, filter_flatMap_if]
    by_cases hy : b.latMin < y ∧ y ≤ b.latMax
    · rw [if_pos (by simpa using hy)]
      congr 1
      funext x
      by_cases hx : Grid.lmask b x = true
      · rw [if_pos hx]
        rcases hg : g.times with _ | ts
        · simp [Dataset.sel, Dataset.mask, Grid.mask, Dataset.hasTime, hg, hx, hy.1, hy.2]
        · simp only [Option.map_some]
          rw [List.filter_map]
          congr 1
          apply List.filter_congr
          intro t _
          simp [Dataset.sel, Dataset.mask, Grid.mask, Dataset.hasTime, hg, hx, hy.1, hy.2]
      · rw [if_neg hx]
        symm
        rw [List.filter_eq_nil_iff]
        intro r hr
        have hrx : r.long = x ∧ r.lat = y := by
          rcases hg : g.times with _ | ts
          · simp only [hg, List.mem_singleton] at hr; rw [hr]; exact ⟨rfl, rfl⟩
          · simp only [hg, List.mem_map] at hr; obtain ⟨t, _, rfl⟩ := hr; exact ⟨rfl, rfl⟩
        simp only [Dataset.sel, Dataset.mask, Grid.mask, hrx, Bool.and_eq_true]
        rintro ⟨⟨-, h1⟩, -⟩
        exact hx h1
    · rw [if_neg (by simpa using hy)]
      symm
      rw [List.flatMap_eq_nil_iff]
      intro x _
      rw [List.filter_eq_nil_iff]
      intro r hr
      have hrx : r.long = x ∧ r.lat = y := by
        rcases hg : g.times with _ | ts
        · simp only [hg, List.mem_singleton] at hr; rw [hr]; exact ⟨rfl, rfl⟩
        · simp only [hg, List.mem_map] at hr; obtain ⟨t, _, rfl⟩ := hr; exact ⟨rfl, rfl⟩
      simp only [Dataset.sel, Dataset.mask, Grid.mask, hrx, Bool.and_eq_true, decide_eq_true_eq]
      rintro ⟨⟨h1, -⟩, -⟩
      exact hy h1

/-- Longitude ranges on the circle, for longitudes in the usual domain. -/
theorem longs_iff {b : Boundary} (hv : Valid b) {x : ℚ} (hx : -180 < x ∧ x ≤ 180) :
    (∃ n : ℤ, b.longMin < x + 360 * n ∧ x + 360 * n ≤ eastEdge b) ↔
      if b.longMin < b.longMax then b.longMin < x ∧ x ≤ b.longMax else b.longMin < x ∨ x ≤ b.longMax := by
  obtain ⟨-, v1, v2, v3, v4, -⟩ := hv
  unfold eastEdge
  constructor
  · rintro ⟨n, h3, h4⟩
    split at h4
    · rename_i hb
      have l1 : (-1 : ℚ) < n := by linarith
      have l2 : (n : ℚ) < 1 := by linarith
      have l1' : -1 < n := by exact_mod_cast l1
      have l2' : n < 1 := by exact_mod_cast l2
      have : n = 0 := by omega
      subst this
      rw [if_pos hb]
      push_cast at h3 h4
      exact ⟨by linarith, by linarith⟩
    · rename_i hb
      rw [if_neg hb]
      have l1 : (-1 : ℚ) < n := by linarith
      have l2 : (n : ℚ) < 2 := by linarith
      have l1' : -1 < n := by exact_mod_cast l1
      have l2' : n < 2 := by exact_mod_cast l2
      have : n = 0 ∨ n = 1 := by omega
      rcases this with rfl | rfl
      · left; push_cast at h3; linarith
      · right; push_cast at h4; linarith
  · intro h
    split at h
    · rename_i hb
      rw [if_pos hb]
      exact ⟨0, by push_cast; linarith, by push_cast; linarith⟩
    · rename_i hb
      rw [if_neg hb]
      rcases h with h | h
      · exact ⟨0, by push_cast; linarith, by push_cast; linarith⟩
      · exact ⟨1, by push_cast; linarith, by push_cast; linarith⟩

/-- Selection by a box that does not cross the antimeridian, in terms of the half-open box. -/
theorem mask_iff (d : Dataset V) {b : Boundary} (hv : Valid b) (hb : b.longMin < b.longMax) (r : Row V)
    (hr : -180 < r.long ∧ r.long ≤ 180) : d.mask b r = true ↔ HCovers b r.long r.lat := by
  unfold HCovers
  rw [longs_iff hv hr, if_pos hb]
  cases d with
  | table t =>
    simp only [Dataset.mask, Table.mask, hb, if_true, Bool.and_eq_true, decide_eq_true_eq, gt_iff_lt]
    constructor
    · rintro ⟨⟨⟨h1, h2⟩, h3⟩, h4⟩; exact ⟨⟨h3, h4⟩, h1, h2⟩
    · rintro ⟨⟨h3, h4⟩, h1, h2⟩; exact ⟨⟨⟨h1, h2⟩, h3⟩, h4⟩
  | grid g =>
    simp only [Dataset.mask, Grid.mask, Grid.lmask, hb, if_true, Bool.and_eq_true, decide_eq_true_eq]
    constructor
    · rintro ⟨h1, h2⟩; exact ⟨h2, h1⟩
    · rintro ⟨h1, h2⟩; exact ⟨h2, h1⟩

/-- Points outside of the usual longitudes are not selected. -/
theorem mask_range (d : Dataset V) {b : Boundary} (hv : Valid b) (hb : b.longMin < b.longMax) (r : Row V)
    (h : d.mask b r = true) : -180 < r.long ∧ r.long ≤ 180 := by
  obtain ⟨-, v1, v2, v3, v4, -⟩ := hv
  cases d with
  | table t =>
    simp only [Dataset.mask, Table.mask, hb, if_true, Bool.and_eq_true, decide_eq_true_eq, gt_iff_lt] at h
    exact ⟨by linarith [h.1.2], by linarith [h.2]⟩
  | grid g =>
    simp only [Dataset.mask, Grid.mask, Grid.lmask, hb, if_true, Bool.and_eq_true, decide_eq_true_eq] at h
    exact ⟨by linarith [h.2.1], by linarith [h.2.2]⟩

/-- Selection of a grid by any box that is not a full circle from a meridian to itself. -/
theorem grid_mask_iff {b : Boundary} (hv : Valid b) (hb : b.longMin ≠ b.longMax) (r : Row V)
    (hr : -180 < r.long ∧ r.long ≤ 180) : Grid.mask b r = true ↔ HCovers b r.long r.lat := by
  unfold HCovers
  rw [longs_iff hv hr]
  simp only [Grid.mask, Grid.lmask]
  by_cases h : b.longMin < b.longMax
  · simp only [h, if_true, Bool.and_eq_true, decide_eq_true_eq]
    constructor
    · rintro ⟨h1, h2⟩; exact ⟨h2, h1⟩
    · rintro ⟨h1, h2⟩; exact ⟨h2, h1⟩
  · have h' : b.longMax < b.longMin := lt_of_le_of_ne (by push Not at h; exact h) (fun e => hb e.symm)
    simp only [h, if_false, Bool.and_eq_true, Bool.or_eq_true, decide_eq_true_eq]
    constructor
    · rintro ⟨h1, h2, h3⟩
      refine ⟨?_, h1⟩
      rcases h3 with h3 | h3
      · exact Or.inr h3.2
      · exact Or.inl (lt_of_le_of_ne h3.1 (fun e => h2 e.symm))
    · rintro ⟨h1, h2⟩
      refine ⟨h2, ?_, ?_⟩
      · rintro e; rcases h1 with h1 | h1 <;> linarith
      · rcases h1 with h1 | h1
        · exact Or.inr ⟨h1.le, hr.2⟩
        · exact Or.inl ⟨hr.1.le, h1⟩

end Verif
