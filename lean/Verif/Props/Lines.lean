import Verif.Props.Sides

/-!
# Straight lines lead from neighbour to neighbour (C136)
-/

namespace Verif.Spec
open Verif

/-- The point at time `t` of a straight walk that is at `p` at time 0 and at `q` at time 1. -/
def along (p q : ℚ × ℚ) (t : ℚ) : ℚ × ℚ := (p.1 + t * (q.1 - p.1), p.2 + t * (q.2 - p.2))

/-- The direction does not lead back on the way from `p` to `q`. -/
def Onwards (p q : ℚ × ℚ) (d : Dir) : Prop :=
  (p.1 < q.1 → hSide d ≠ .lo) ∧ (q.1 < p.1 → hSide d ≠ .hi) ∧ (p.2 < q.2 → vSide d ≠ .lo) ∧ (q.2 < p.2 → vSide d ≠ .hi)

/-- The walk from `p` towards `q` is up to time `t` within the listed cells (the last one first), one after the other, and every one of them is
listed as a neighbour of the one before in a direction that does not lead back. -/
inductive Walk (cell : ℕ → Option Rect) (nbrs : ℕ → Option NMap) (p q : ℚ × ℚ) : ℚ → List ℕ → Prop
  | start {t i a} : 0 ≤ t → cell i = some a → (∀ u, 0 ≤ u → u ≤ t → a.Mem (along p q u).1 (along p q u).2) → Walk cell nbrs p q t [i]
  | step {s t i l f d j a} : Walk cell nbrs p q s (i :: l) → s < t → nbrs i = some f → j ∈ f d → Onwards p q d → cell j = some a →
      (∀ u, s ≤ u → u ≤ t → a.Mem (along p q u).1 (along p q u).2) → Walk cell nbrs p q t (j :: i :: l)

/-- In a mesh over the rectangle `R` every straight walk within `R`, from any cell that it starts in, leads from neighbour to neighbour and never comes back to a cell;
it ends in the cell that its end is inside of. -/
def LinesLead (R : Rect) (cell : ℕ → Option Rect) (nbrs : ℕ → Option NMap) : Prop :=
  ∀ p q : ℚ × ℚ, R.Mem p.1 p.2 → R.Mem q.1 q.2 → ∀ i a, cell i = some a → a.Mem p.1 p.2 →
    ∃ j l, Walk cell nbrs p q 1 (j :: l) ∧ (j :: l).Nodup ∧ (j :: l).getLast? = some i ∧
      ∀ k r, cell k = some r → r.IMem q.1 q.2 → j = k

end Verif.Spec

namespace Verif
open Spec

variable {D : Type}

/-! ## Points on a line -/

/-- How long a walk stays in an interval. -/
theorem exit_interval {w e x0 dx u : ℚ} (h1 : w ≤ x0 + u * dx) (h2 : x0 + u * dx ≤ e) (hu : u ≤ 1) :
    ∃ T, u ≤ T ∧ T ≤ 1 ∧ ∀ v, u ≤ v → v ≤ 1 → (w ≤ x0 + v * dx ∧ x0 + v * dx ≤ e ↔ v ≤ T) := by
  rcases lt_trichotomy dx 0 with h | h | h
  · refine ⟨min 1 ((w - x0) / dx), le_min hu ?_, min_le_left _ _, fun v hv hv1 => ?_⟩
    · rw [le_div_iff_of_neg h]; linarith
    · rw [le_min_iff, le_div_iff_of_neg h]
      have : v * dx ≤ u * dx := mul_le_mul_of_nonpos_right hv h.le
      exact ⟨fun k => ⟨hv1, by linarith [k.1]⟩, fun k => ⟨by linarith [k.2], by linarith⟩⟩
  · subst h
    exact ⟨1, hu, le_rfl, fun v hv hv1 => ⟨fun _ => hv1, fun _ => ⟨by linarith, by linarith⟩⟩⟩
  · refine ⟨min 1 ((e - x0) / dx), le_min hu ?_, min_le_left _ _, fun v hv hv1 => ?_⟩
    · rw [le_div_iff₀ h]; linarith
    · rw [le_min_iff, le_div_iff₀ h]
      have : u * dx ≤ v * dx := mul_le_mul_of_nonneg_right hv h.le
      exact ⟨fun k => ⟨hv1, by linarith [k.2]⟩, fun k => ⟨by linarith, by linarith [k.2]⟩⟩

/-- How long a walk stays in a rectangle. -/
theorem exit_rect {r : Rect} {p q : ℚ × ℚ} {u : ℚ} (h : r.Mem (along p q u).1 (along p q u).2) (hu : u ≤ 1) :
    ∃ T, u ≤ T ∧ T ≤ 1 ∧ ∀ v, u ≤ v → v ≤ 1 → (r.Mem (along p q v).1 (along p q v).2 ↔ v ≤ T) := by
  obtain ⟨h1, h2, h3, h4⟩ := h
  obtain ⟨T, a1, a2, a3⟩ := exit_interval h1 h2 hu
  obtain ⟨T', b1, b2, b3⟩ := exit_interval h3 h4 hu
  refine ⟨min T T', le_min a1 b1, (min_le_left _ _).trans a2, fun v hv hv1 => ?_⟩
  rw [le_min_iff, ← a3 v hv hv1, ← b3 v hv hv1]
  unfold Rect.Mem along
  tauto

/-- A walk that is off an interval stays off it for a while. -/
theorem off_interval {w e x0 dx T : ℚ} (h : ¬ (w ≤ x0 + T * dx ∧ x0 + T * dx ≤ e)) :
    ∃ v, T < v ∧ ∀ u, T ≤ u → u ≤ v → ¬ (w ≤ x0 + u * dx ∧ x0 + u * dx ≤ e) := by
  have key : ∀ g : ℚ, 0 < g → ∃ v, T < v ∧ ∀ u, T ≤ u → u ≤ v → |(u - T) * dx| < g := by
    intro g hg
    have hd : 0 < |dx| + 1 := by positivity
    refine ⟨T + g / (|dx| + 1), by have := div_pos hg hd; linarith, fun u h1 h2 => ?_⟩
    rw [abs_mul, abs_of_nonneg (by linarith : (0 : ℚ) ≤ u - T)]
    have h3 : (u - T) * (|dx| + 1) ≤ g := by
      have : u - T ≤ g / (|dx| + 1) := by linarith
      rwa [le_div_iff₀ hd] at this
    rcases h1.eq_or_lt with rfl | h1
    · simpa using hg
    · nlinarith
  rw [not_and_or, not_le, not_le] at h
  rcases h with h | h
  · obtain ⟨v, hv, k⟩ := key (w - (x0 + T * dx)) (by linarith)
    refine ⟨v, hv, fun u h1 h2 hu => ?_⟩
    have := (abs_lt.1 (k u h1 h2)).2
    nlinarith [hu.1]
  · obtain ⟨v, hv, k⟩ := key (x0 + T * dx - e) (by linarith)
    refine ⟨v, hv, fun u h1 h2 hu => ?_⟩
    have := (abs_lt.1 (k u h1 h2)).1
    nlinarith [hu.2]

theorem off_rect {r : Rect} {p q : ℚ × ℚ} {T : ℚ} (h : ¬ r.Mem (along p q T).1 (along p q T).2) :
    ∃ v, T < v ∧ ∀ u, T ≤ u → u ≤ v → ¬ r.Mem (along p q u).1 (along p q u).2 := by
  have h' : ¬ (r.w ≤ p.1 + T * (q.1 - p.1) ∧ p.1 + T * (q.1 - p.1) ≤ r.e) ∨ ¬ (r.s ≤ p.2 + T * (q.2 - p.2) ∧ p.2 + T * (q.2 - p.2) ≤ r.n) := by
    by_contra hc
    rw [not_or, not_not, not_not] at hc
    exact h ⟨hc.1.1, hc.1.2, hc.2.1, hc.2.2⟩
  rcases h' with h' | h' <;> obtain ⟨v, hv, k⟩ := off_interval h'
  · exact ⟨v, hv, fun u h1 h2 hm => k u h1 h2 ⟨hm.1, hm.2.1⟩⟩
  · exact ⟨v, hv, fun u h1 h2 hm => k u h1 h2 ⟨hm.2.2.1, hm.2.2.2⟩⟩

/-- Just after a time the walk is in no cell that it was not in at that time. -/
theorem next_time {cell : ℕ → Option Rect} (hN : ∃ N, ∀ i r, cell i = some r → i < N) (p q : ℚ × ℚ) {T : ℚ} (hT : T < 1) :
    ∃ v, T < v ∧ v ≤ 1 ∧ ∀ i r, cell i = some r → r.Mem (along p q v).1 (along p q v).2 → r.Mem (along p q T).1 (along p q T).2 := by
  obtain ⟨N, hN⟩ := hN
  have key : ∀ n : ℕ, ∃ v, T < v ∧ v ≤ 1 ∧ ∀ i r, i < n → cell i = some r → ¬ r.Mem (along p q T).1 (along p q T).2 →
      ∀ u, T ≤ u → u ≤ v → ¬ r.Mem (along p q u).1 (along p q u).2 := by
    intro n
    induction n with
    | zero => exact ⟨1, hT, le_rfl, fun i r h => absurd h (Nat.not_lt_zero _)⟩
    | succ n ih =>
      obtain ⟨v, h1, h2, h3⟩ := ih
      by_cases hc : ∃ r, cell n = some r ∧ ¬ r.Mem (along p q T).1 (along p q T).2
      · obtain ⟨r, hr, hm⟩ := hc
        obtain ⟨v', k1, k2⟩ := off_rect hm
        refine ⟨min v v', lt_min h1 k1, (min_le_left _ _).trans h2, fun i r' hi hr' hm' u u1 u2 => ?_⟩
        rcases Nat.lt_succ_iff_lt_or_eq.1 hi with h | rfl
        · exact h3 i r' h hr' hm' u u1 (u2.trans (min_le_left _ _))
        · rw [hr] at hr'; cases hr'
          exact k2 u u1 (u2.trans (min_le_right _ _))
      · refine ⟨v, h1, h2, fun i r' hi hr' hm' u u1 u2 => ?_⟩
        rcases Nat.lt_succ_iff_lt_or_eq.1 hi with h | rfl
        · exact h3 i r' h hr' hm' u u1 u2
        · exact absurd ⟨r', hr', hm'⟩ hc
  obtain ⟨v, h1, h2, h3⟩ := key N
  refine ⟨v, h1, h2, fun i r hr hm => ?_⟩
  by_contra hn
  exact h3 i r (hN i r hr) hr hn v h1.le le_rfl hm

theorem along_mem {r : Rect} {p q : ℚ × ℚ} {s t : ℚ} (h1 : r.Mem (along p q s).1 (along p q s).2) (h2 : r.Mem (along p q t).1 (along p q t).2) {u : ℚ}
    (hs : s ≤ u) (ht : u ≤ t) : r.Mem (along p q u).1 (along p q u).2 := by
  have key : ∀ w e x0 dx : ℚ, w ≤ x0 + s * dx → x0 + s * dx ≤ e → w ≤ x0 + t * dx → x0 + t * dx ≤ e → w ≤ x0 + u * dx ∧ x0 + u * dx ≤ e := by
    intro w e x0 dx a1 a2 a3 a4
    rcases le_total 0 dx with h | h
    · have k1 := mul_le_mul_of_nonneg_right hs h
      have k2 := mul_le_mul_of_nonneg_right ht h
      constructor <;> linarith
    · have k1 := mul_le_mul_of_nonpos_right hs h
      have k2 := mul_le_mul_of_nonpos_right ht h
      constructor <;> linarith
  obtain ⟨a1, a2, a3, a4⟩ := h1
  obtain ⟨b1, b2, b3, b4⟩ := h2
  obtain ⟨k1, k2⟩ := key _ _ _ _ a1 a2 b1 b2
  obtain ⟨k3, k4⟩ := key _ _ _ _ a3 a4 b3 b4
  exact ⟨k1, k2, k3, k4⟩

/-! ## Cells at a point -/

/-- Every point of the closed rectangle is in some closed cell. -/
theorem closed_cover {cell : ℕ → Option Rect} {R : Rect} (hN : ∃ N, ∀ i r, cell i = some r → i < N)
    (hC : ∀ x y, R.HMem x y → ∃ i r, cell i = some r ∧ r.HMem x y) (hR : R.Pos) {x y : ℚ} (h : R.Mem x y) :
    ∃ i r, cell i = some r ∧ r.Mem x y := by
  obtain ⟨h1, h2, h3, h4⟩ := h
  have hx : ∃ x', R.w < x' ∧ x' ≤ R.e ∧ ∀ i r, cell i = some r → r.w < x' → x' ≤ r.e → r.w ≤ x ∧ x ≤ r.e := by
    rcases h1.eq_or_lt with e | h1
    · obtain ⟨x', k1, k2, k3⟩ := next_edge hN Rect.w R.w R.e hR.1
      exact ⟨x', k1, k2, fun i r hr a b => ⟨(k3 i r hr a).trans e.le, by linarith⟩⟩
    · exact ⟨x, h1, h2, fun i r hr a b => ⟨a.le, b⟩⟩
  have hy : ∃ y', R.s < y' ∧ y' ≤ R.n ∧ ∀ i r, cell i = some r → r.s < y' → y' ≤ r.n → r.s ≤ y ∧ y ≤ r.n := by
    rcases h3.eq_or_lt with e | h3
    · obtain ⟨x', k1, k2, k3⟩ := next_edge hN Rect.s R.s R.n hR.2
      exact ⟨x', k1, k2, fun i r hr a b => ⟨(k3 i r hr a).trans e.le, by linarith⟩⟩
    · exact ⟨y, h3, h4, fun i r hr a b => ⟨a.le, b⟩⟩
  obtain ⟨x', a1, a2, a3⟩ := hx
  obtain ⟨y', b1, b2, b3⟩ := hy
  obtain ⟨i, r, hr, m1, m2, m3, m4⟩ := hC x' y' ⟨a1, a2, b1, b2⟩
  obtain ⟨c1, c2⟩ := a3 i r hr m1 m2
  obtain ⟨d1, d2⟩ := b3 i r hr m3 m4
  exact ⟨i, r, hr, c1, c2, d1, d2⟩

/-- On which side an interval lies that shares a point with another. -/
theorem side_exists {a0 a1 b0 b1 x : ℚ} (h1 : a0 ≤ x) (h2 : x ≤ a1) (h3 : b0 ≤ x) (h4 : x ≤ b1) :
    ∃ s, sideRel s a0 a1 b0 b1 ∧ (s = .mid → b0 < a1 ∧ a0 < b1) ∧ (s = .hi → b0 = x) ∧ (s = .lo → b1 = x) := by
  by_cases e1 : a1 = b0
  · exact ⟨.hi, e1, by simp, fun _ => by linarith, by simp⟩
  · by_cases e2 : b1 = a0
    · exact ⟨.lo, e2, by simp, by simp, fun _ => by linarith⟩
    · have k1 : b0 < a1 := lt_of_le_of_ne (h3.trans h2) (Ne.symm e1)
      have k2 : a0 < b1 := lt_of_le_of_ne (h1.trans h4) (Ne.symm e2)
      exact ⟨.mid, ⟨k1, k2⟩, fun _ => ⟨k1, k2⟩, by simp, by simp⟩

/-- Two cells that share a point are neighbours. -/
theorem share_point {cell : ℕ → Option Rect} {nbrs : ℕ → Option NMap} (hK : ∀ i a, cell i = some a → ∃ f, nbrs i = some f)
    (hD : ∀ i j a b, i ≠ j → cell i = some a → cell j = some b → ¬ a.Overlap b)
    (hL : ∀ i j a b d f, cell i = some a → cell j = some b → Touches d a b → nbrs i = some f → j ∈ f d) {i j : ℕ} {a r : Rect} (hne : i ≠ j)
    (ha : cell i = some a) (hr : cell j = some r) {x y : ℚ} (h1 : a.Mem x y) (h2 : r.Mem x y) :
    ∃ f d, nbrs i = some f ∧ j ∈ f d ∧ (hSide d = .hi → r.w = x) ∧ (hSide d = .lo → r.e = x) ∧ (vSide d = .hi → r.s = y) ∧ (vSide d = .lo → r.n = y) := by
  obtain ⟨f, hf⟩ := hK i a ha
  obtain ⟨a1, a2, a3, a4⟩ := h1
  obtain ⟨b1, b2, b3, b4⟩ := h2
  obtain ⟨s, s1, s2, s3, s4⟩ := side_exists a1 a2 b1 b2
  obtain ⟨s', t1, t2, t3, t4⟩ := side_exists a3 a4 b3 b4
  have hd : ∃ d, hSide d = s ∧ vSide d = s' := by
    cases s <;> cases s'
    · exact ⟨.southWest, rfl, rfl⟩
    · exact ⟨.west, rfl, rfl⟩
    · exact ⟨.northWest, rfl, rfl⟩
    · exact ⟨.south, rfl, rfl⟩
    · exact absurd ⟨(s2 rfl).1, (s2 rfl).2, (t2 rfl).1, (t2 rfl).2⟩ (hD i j a r hne ha hr)
    · exact ⟨.north, rfl, rfl⟩
    · exact ⟨.southEast, rfl, rfl⟩
    · exact ⟨.east, rfl, rfl⟩
    · exact ⟨.northEast, rfl, rfl⟩
  obtain ⟨d, rfl, rfl⟩ := hd
  exact ⟨f, d, hf, hL i j a r d f ha hr ⟨s1, t1⟩ hf, s3, s4, t3, t4⟩

/-! ## Walks -/

theorem Spec.Walk.last {cell : ℕ → Option Rect} {nbrs : ℕ → Option NMap} {p q : ℚ × ℚ} {t : ℚ} {i : ℕ} {l : List ℕ} (h : Walk cell nbrs p q t (i :: l)) :
    0 ≤ t ∧ ∃ a, cell i = some a ∧ a.Mem (along p q t).1 (along p q t).2 := by
  have key : ∀ (t : ℚ) (L : List ℕ), Walk cell nbrs p q t L → 0 ≤ t ∧ ∀ i l, L = i :: l → ∃ a, cell i = some a ∧ a.Mem (along p q t).1 (along p q t).2 := by
    intro t L h
    induction h with
    | start h0 hc hm => exact ⟨h0, fun i l e => by cases e; exact ⟨_, hc, hm _ h0 le_rfl⟩⟩
    | step hw hlt _ _ _ hc hm ih => exact ⟨ih.1.trans hlt.le, fun i l e => by cases e; exact ⟨_, hc, hm _ hlt.le le_rfl⟩⟩
  exact ⟨(key t _ h).1, (key t _ h).2 i l rfl⟩

/-- A walk can go on within its last cell. -/
theorem Spec.Walk.extend {cell : ℕ → Option Rect} {nbrs : ℕ → Option NMap} {p q : ℚ × ℚ} {t t' : ℚ} {i : ℕ} {l : List ℕ} (h : Walk cell nbrs p q t (i :: l))
    (htt : t ≤ t') {a : Rect} (ha : cell i = some a) (hm : a.Mem (along p q t').1 (along p q t').2) : Walk cell nbrs p q t' (i :: l) := by
  cases h with
  | start h0 hc hm' =>
    rw [hc] at ha; cases ha
    exact .start (h0.trans htt) hc (fun u u1 u2 => along_mem (hm' 0 le_rfl h0) hm u1 u2)
  | step hw hlt hf hj ho hc hm' =>
    rw [hc] at ha; cases ha
    exact .step hw (hlt.trans_le htt) hf hj ho hc (fun u u1 u2 => along_mem (hm' _ le_rfl hlt.le) hm u1 u2)

open Classical in
/-- The cells that a walk is in from a time on. -/
noncomputable def ahead (cell : ℕ → Option Rect) (p q : ℚ × ℚ) (N : ℕ) (t : ℚ) : Finset ℕ :=
  (Finset.range N).filter (fun i => ∃ r, cell i = some r ∧ ∃ u, t ≤ u ∧ u ≤ 1 ∧ r.Mem (along p q u).1 (along p q u).2)

/-- Lines lead wherever cells cover a rectangle, do not overlap, and list those that they touch. -/
theorem lines_lead_of {cell : ℕ → Option Rect} {nbrs : ℕ → Option NMap} (hK : ∀ i a, cell i = some a → ∃ f, nbrs i = some f)
    (hP : ∀ i a, cell i = some a → a.Pos) (hD : ∀ i j a b, i ≠ j → cell i = some a → cell j = some b → ¬ a.Overlap b)
    (hL : ∀ i j a b d f, cell i = some a → cell j = some b → Touches d a b → nbrs i = some f → j ∈ f d) {R : Rect}
    (hF : ∃ N, ∀ i r, cell i = some r → i < N) (hC : ∀ x y, R.HMem x y → ∃ i r, cell i = some r ∧ r.HMem x y) (hR : R.Pos) :
    LinesLead R cell nbrs := by
  intro p q hp hq i0 a0 hi0 hm0
  obtain ⟨N, hN⟩ := hF
  have hR0 : R.Mem (along p q 0).1 (along p q 0).2 := by unfold along; simpa using hp
  have hR1 : R.Mem (along p q 1).1 (along p q 1).2 := by unfold along; simpa using hq
  have hmem : ∀ t i, i ∈ ahead cell p q N t ↔ ∃ r, cell i = some r ∧ ∃ u, t ≤ u ∧ u ≤ 1 ∧ r.Mem (along p q u).1 (along p q u).2 := by
    intro t i
    unfold ahead
    simp only [Finset.mem_filter, Finset.mem_range]
    exact ⟨fun h => h.2, fun ⟨r, hr, h⟩ => ⟨hN i r hr, r, hr, h⟩⟩
  have key : ∀ n t i l, (ahead cell p q N t).card = n → t ≤ 1 → Walk cell nbrs p q t (i :: l) → (i :: l).Nodup → (∀ k ∈ l, k ∉ ahead cell p q N t) →
      (i :: l).getLast? = some i0 → ∃ j l', Walk cell nbrs p q 1 (j :: l') ∧ (j :: l').Nodup ∧ (j :: l').getLast? = some i0 := by
    intro n
    induction n using Nat.strong_induction_on with
    | _ n ih =>
      intro t i l hn ht hw hnd hl hlast
      obtain ⟨h0, a, ha, hm⟩ := hw.last
      obtain ⟨T, k1, k2, k3⟩ := exit_rect hm ht
      have hmT := (k3 T k1 k2).2 le_rfl
      have hw' := hw.extend k1 ha hmT
      rcases k2.eq_or_lt with rfl | hT1
      · exact ⟨i, l, hw', hnd, hlast⟩
      obtain ⟨v, v1, v2, v3⟩ := next_time ⟨N, hN⟩ p q hT1
      obtain ⟨j, r, hr, hrm⟩ := closed_cover ⟨N, hN⟩ hC hR (along_mem hR0 hR1 (h0.trans (k1.trans v1.le)) v2)
      have hrT := v3 j r hr hrm
      have hout : ∀ u, v ≤ u → u ≤ 1 → ¬ a.Mem (along p q u).1 (along p q u).2 := by
        intro u u1 u2 hu
        have := (k3 u (k1.trans (v1.le.trans u1)) u2).1 hu
        linarith
      have hsub : ∀ k, k ∈ ahead cell p q N v → k ∈ ahead cell p q N t := by
        intro k hk
        obtain ⟨r, hr, u, u1, u2, u3⟩ := (hmem v k).1 hk
        exact (hmem t k).2 ⟨r, hr, u, by linarith, u2, u3⟩
      have hni : i ∉ ahead cell p q N v := by
        intro hi
        obtain ⟨r, hr, u, u1, u2, u3⟩ := (hmem v i).1 hi
        rw [ha] at hr; cases hr
        exact hout u u1 u2 u3
      have hj : j ∈ ahead cell p q N v := (hmem v j).2 ⟨r, hr, v, le_rfl, v2, hrm⟩
      have hne : i ≠ j := fun e => hni (e ▸ hj)
      have hcard : (ahead cell p q N v).card < n := by
        rw [← hn]
        refine Finset.card_lt_card ⟨hsub, fun hc => hni (hc ((hmem t i).2 ⟨a, ha, t, le_rfl, ht, hm⟩))⟩
      obtain ⟨f, d, hf, hjd, d1, d2, d3, d4⟩ := share_point hK hD hL hne ha hr hmT hrT
      have hon : Onwards p q d := by
        obtain ⟨g1, g2, g3, g4⟩ := hrm
        have hvT : 0 < v - T := by linarith
        unfold along at g1 g2 g3 g4 d1 d2 d3 d4
        simp only at g1 g2 g3 g4 d1 d2 d3 d4
        refine ⟨fun hx hd => ?_, fun hx hd => ?_, fun hx hd => ?_, fun hx hd => ?_⟩
        · have := d2 hd; nlinarith
        · have := d1 hd; nlinarith
        · have := d4 hd; nlinarith
        · have := d3 hd; nlinarith
      refine ih _ hcard v j (i :: l) rfl v2 (.step hw' v1 hf hjd hon hr (fun u u1 u2 => along_mem hrT hrm u1 u2)) ?_ ?_ ?_
      · refine List.nodup_cons.2 ⟨fun hc => ?_, hnd⟩
        rcases List.mem_cons.1 hc with rfl | hc
        · exact hne rfl
        · exact hl j hc (hsub j hj)
      · intro k hk hka
        rcases List.mem_cons.1 hk with rfl | hk
        · exact hni hka
        · exact hl k hk (hsub k hka)
      · rw [List.getLast?_cons_cons]; exact hlast
  have hstart : Walk cell nbrs p q 0 [i0] := by
    refine .start le_rfl hi0 (fun u u1 u2 => ?_)
    have : u = 0 := le_antisymm u2 u1
    subst this
    unfold along
    simpa using hm0
  obtain ⟨j, l, h1, h2, h3⟩ := key _ 0 i0 [] rfl zero_le_one hstart (List.nodup_singleton _) (by simp) rfl
  refine ⟨j, l, h1, h2, h3, fun k r hr hin => ?_⟩
  obtain ⟨-, a, ha, hm⟩ := h1.last
  have hm : a.Mem q.1 q.2 := by unfold along at hm; simpa using hm
  by_contra hne
  obtain ⟨p1, p2⟩ := hP j a ha
  obtain ⟨i1, i2, i3, i4⟩ := hin
  obtain ⟨m1, m2, m3, m4⟩ := hm
  exact hD j k a r hne ha hr ⟨by linarith, by linarith, by linarith, by linarith⟩

theorem lines_lead {glob : Bool} {cell : ℕ → Option Rect} {nbrs : ℕ → Option NMap} (hE : Exact glob cell nbrs) {R : Rect}
    (hT : TiledRect cell R) (hR : R.Pos) : LinesLead R cell nbrs := by
  refine lines_lead_of (fun i a ha => Option.isSome_iff_exists.1 ((hE.keys i).2 (by rw [ha]; rfl))) (fun i a ha => (hE.ok i a ha).1) hE.disjoint
    (fun i j a b d f ha hb ht hf => (hE.mem i f d j a hf ha).2 ⟨b, hb, 0, zero_turn _, ?_⟩) hT.finite hT.cover hR
  unfold Touches Rect.shift
  simp only [add_zero]
  exact ht

/-! ## C136 -/

/-- C136, any sequence of splits of a mesh over a region that does not cross the antimeridian. -/
theorem C136_grown (ops : DataOps D) (b : Boundary) (W H : ℚ) (hp : ProperGrid b W H) (hcr : b.longMin < b.longMax) (hh : b.latMin < b.latMax)
    (hcol : b.longMin = -180 ∧ b.longMax = 180 → W ≤ 180) (initData : Boundary → D) (depth : ℕ) (m : MeshState D)
    (h : Reach ops b W H initData depth m) : LinesLead (rectOf b) (liveRect m) (nbrs m) :=
  lines_lead (tiled_reach hp hcr hcol h).1 (tiled_reach hp hcr hcol h).2 ⟨hcr, hh⟩

/-- C136, the mesh that a build of an accepted region ends with, whatever the sources decide. -/
theorem C136_built (ops : DataOps D) (agg : CellBox D → Py (Dict String Val)) (config : MeshConfig) (b : Boundary) (W H : ℚ)
    (hp : ProperGrid b W H) (hcr : b.longMin < b.longMax) (hh : b.latMin < b.latMax) (hcol : b.longMin = -180 ∧ b.longMax = 180 → W ≤ 180)
    (hacc : MeshBuilder.validateBounds b W H = .ok ()) (initData : Boundary → D) (depth : ℕ) :
    ∃ m0, MeshBuilder.init b W H initData depth = .ok m0 ∧ ∃ N, ∀ fuel, N ≤ fuel → ∀ em,
      MeshBuilder.buildEnvironmentalMesh ops agg fuel config m0 = .ok em →
      LinesLead (rectOf b) (envRect em) (fun i => em.graph.nodes.get? i) := by
  obtain ⟨m0, h0, N, hN⟩ := C52_build_partial ops agg config b W H hp hcr hh hcol hacc initData depth
  refine ⟨m0, h0, N, fun fuel hf em he => ?_⟩
  rcases hN fuel hf with ⟨em', m, h1, hok, -⟩ | ⟨e, h1, -⟩
  · rw [he] at h1
    cases h1
    exact lines_lead hok.graph (tiled_env hok.ids hok.graph hok.tiles hcr hp.valid.2.1 hp.valid.2.2.2.2.1) ⟨hcr, hh⟩
  · rw [he] at h1
    cases h1

/-- C136, a consistent mesh that was read from a file, after splits of any of its cells in any order. -/
theorem C136_splits (m : EnvMesh) (h : EnvOK m) (hl : Loaded m) (b : Boundary) (ht : EnvTiles m b) (hb : Valid b) (hpos : (rectOf b).Pos)
    (m' : EnvMesh) (hs : EnvSplits m m') : LinesLead (rectOf b) (envRect m') (fun i => m'.graph.nodes.get? i) := by
  obtain ⟨h1, -, h3, -⟩ := C37_sequences m h hl b ht m' hs
  exact lines_lead h1.graph (tiled_env h1.ids h1.graph h3 hpos.1 hb.2.1 hb.2.2.2.2.1) hpos

/-- C136, a mesh into which others, laid out on its grid and lying in its region, were merged. -/
theorem C136_merged (ms : List EnvMesh) (m : EnvMesh) (h : MergeBase m) (b : Boundary) (ht : EnvTiles m b) (hb : Valid b)
    (hpos : (rectOf b).Pos)
    (hms : ∀ m2 ∈ ms, MergeIn m2 ∧ (∃ a n c k : ℤ, m2.bounds.longMin = m.bounds.longMin + a * m.config.cellWidth ∧
        m2.bounds.longMax = m.bounds.longMin + n * m.config.cellWidth ∧ m2.bounds.latMin = m.bounds.latMin + c * m.config.cellHeight ∧
        m2.bounds.latMax = m.bounds.latMin + k * m.config.cellHeight) ∧
      ∀ c ∈ m2.cells, InSquare m.bounds.longMin m.bounds.latMin m.config.cellWidth m.config.cellHeight (rectOf c.bounds))
    (hin : ∀ m2 ∈ ms, Inside (rectOf b) (rectOf m2.bounds)) :
    ∃ m', EnvMesh.mergeAll m ms = .ok m' ∧ LinesLead (rectOf b) (envRect m') (fun i => m'.graph.nodes.get? i) := by
  obtain ⟨m', e1, e2, -, e4⟩ := C38_sequences ms m h hms
  exact ⟨m', e1, lines_lead e2.ok.graph (tiled_env e2.ok.ids e2.ok.graph (e4 b hpos hin ht) hpos.1 hb.2.1 hb.2.2.2.2.1) hpos⟩

/-! ## Examples -/

/-- The hypotheses of C136 hold for a mesh of which cells were split: from cell 1 in the east, of which three cells line the western side, one walks
north-west to 2 E, 51 S. -/
example : ∃ m, exMesh = .ok m ∧ ∃ j l, Walk (liveRect m) (nbrs m) (19, -58) (2, -51) 1 (j :: l) ∧ (j :: l).Nodup ∧ (j :: l).getLast? = some 1 := by
  obtain ⟨m, h1, h2⟩ := exMesh_ok
  have hr : (exMesh.map (fun m => liveRect m 1) : Py (Option Rect)) = .ok (some ⟨10, 20, -60, -55⟩) := by decide +kernel
  rw [h1] at hr
  obtain ⟨j, l, k1, k2, k3, -⟩ := C136_grown unitOps exRegion 10 5 exRegion_proper (by norm_num [exRegion]) (by norm_num [exRegion]) (by norm_num [exRegion])
    (fun _ => ()) 3 m h2 (19, -58) (2, -51) (by norm_num [Rect.Mem, rectOf, exRegion]) (by norm_num [Rect.Mem, rectOf, exRegion]) 1 ⟨10, 20, -60, -55⟩
    (by simpa [Except.map] using hr) (by norm_num [Rect.Mem])
  exact ⟨m, h1, j, l, k1, k2, k3⟩

/-- And for a mesh read from a file. -/
example : ∃ m : EnvMesh, exLoaded = .ok m ∧ EnvOK m ∧ Loaded m ∧ EnvTiles m exRegion ∧ Valid exRegion ∧ (rectOf exRegion).Pos :=
  let ⟨m, h1, h2, h3, h4, _⟩ := exLoaded_ok
  ⟨m, h1, h2, h3, h4, exRegion_proper.valid, by norm_num [Rect.Pos, rectOf, exRegion]⟩

end Verif
