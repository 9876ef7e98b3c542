import Verif.Props.Connected

/-!
# The neighbours of a cell line its sides without gaps (C132)
-/

namespace Verif.Spec
open Verif

/-- The sides of the cells of a mesh over the rectangle `R` are lined by their neighbours: beside every point of a side exactly one of
the neighbours listed for that side lies, unless the side is on the border of `R`, where none is listed.  In a mesh around the globe
there is no border in the east and west. -/
structure SidesLined (glob : Bool) (R : Rect) (cell : ℕ → Option Rect) (nbrs : ℕ → Option NMap) : Prop where
  inside : ∀ i a, cell i = some a → R.w ≤ a.w ∧ a.e ≤ R.e ∧ R.s ≤ a.s ∧ a.n ≤ R.n
  east : ∀ i a f, cell i = some a → nbrs i = some f → a.e < R.e ∨ glob = true →
    ∀ y, a.s < y → y ≤ a.n → ∃! j, j ∈ f .east ∧ ∃ r, cell j = some r ∧ r.s < y ∧ y ≤ r.n
  west : ∀ i a f, cell i = some a → nbrs i = some f → R.w < a.w ∨ glob = true →
    ∀ y, a.s < y → y ≤ a.n → ∃! j, j ∈ f .west ∧ ∃ r, cell j = some r ∧ r.s < y ∧ y ≤ r.n
  north : ∀ i a f, cell i = some a → nbrs i = some f → a.n < R.n →
    ∀ x, a.w < x → x ≤ a.e → ∃! j, j ∈ f .north ∧ ∃ r, cell j = some r ∧ r.w < x ∧ x ≤ r.e
  south : ∀ i a f, cell i = some a → nbrs i = some f → R.s < a.s →
    ∀ x, a.w < x → x ≤ a.e → ∃! j, j ∈ f .south ∧ ∃ r, cell j = some r ∧ r.w < x ∧ x ≤ r.e
  border : ∀ i a f, cell i = some a → nbrs i = some f → (a.e = R.e → glob = false → f .east = []) ∧ (a.w = R.w → glob = false → f .west = []) ∧
    (a.n = R.n → f .north = []) ∧ (a.s = R.s → f .south = [])

end Verif.Spec

namespace Verif
open Spec

variable {D : Type}

/-- Finitely many cells that make up the rectangle `R`. -/
structure TiledRect (cell : ℕ → Option Rect) (R : Rect) : Prop where
  finite : ∃ N, ∀ i r, cell i = some r → i < N
  cover : ∀ x y, R.HMem x y → ∃ i r, cell i = some r ∧ r.HMem x y
  within : ∀ i r x y, cell i = some r → r.HMem x y → R.HMem x y

/-- Just above a value there is one with no edge in between. -/
theorem next_edge {cell : ℕ → Option Rect} (hN : ∃ N, ∀ i r, cell i = some r → i < N) (g : Rect → ℚ) (v top : ℚ) (hv : v < top) :
    ∃ x, v < x ∧ x ≤ top ∧ ∀ i r, cell i = some r → g r < x → g r ≤ v := by
  obtain ⟨N, hN⟩ := hN
  have key : ∀ n : ℕ, ∃ x, v < x ∧ x ≤ top ∧ ∀ i r, i < n → cell i = some r → g r < x → g r ≤ v := by
    intro n
    induction n with
    | zero => exact ⟨top, hv, le_rfl, fun i r h => absurd h (Nat.not_lt_zero _)⟩
    | succ n ih =>
      obtain ⟨x, h1, h2, h3⟩ := ih
      rcases hc : cell n with _ | r
      · refine ⟨x, h1, h2, fun i r' hi hr' => ?_⟩
        rcases Nat.lt_succ_iff_lt_or_eq.1 hi with h | rfl
        · exact h3 i r' h hr'
        · rw [hc] at hr'; cases hr'
      · by_cases hg : v < g r
        · refine ⟨min x (g r), lt_min h1 hg, (min_le_left _ _).trans h2, fun i r' hi hr' hx => ?_⟩
          rcases Nat.lt_succ_iff_lt_or_eq.1 hi with h | rfl
          · exact h3 i r' h hr' (lt_of_lt_of_le hx (min_le_left _ _))
          · rw [hc] at hr'
            cases hr'
            exact absurd (lt_of_lt_of_le hx (min_le_right _ _)) (lt_irrefl _)
        · refine ⟨x, h1, h2, fun i r' hi hr' hx => ?_⟩
          rcases Nat.lt_succ_iff_lt_or_eq.1 hi with h | rfl
          · exact h3 i r' h hr' hx
          · rw [hc] at hr'
            cases hr'
            exact not_lt.1 hg
  obtain ⟨x, h1, h2, h3⟩ := key N
  exact ⟨x, h1, h2, fun i r hr => h3 i r (hN i r hr) hr⟩

theorem turn_cases {glob : Bool} {t : ℚ} (ht : t ∈ turns glob) : t = 0 ∨ glob = true ∧ (t = 360 ∨ t = -360) := by
  unfold turns at ht
  cases glob <;> simp at ht <;> tauto

theorem zero_turn (glob : Bool) : (0 : ℚ) ∈ turns glob := by unfold turns; split <;> simp

/-- The neighbour graph of a mesh whose cells make up a rectangle. -/
theorem sides_lined {glob : Bool} {cell : ℕ → Option Rect} {nbrs : ℕ → Option NMap} (hE : Exact glob cell nbrs) {R : Rect}
    (hT : TiledRect cell R) (hR : glob = true → R.w = -180 ∧ R.e = 180) (hR' : -180 ≤ R.w ∧ R.e ≤ 180) : SidesLined glob R cell nbrs := by
  have hin : ∀ i a, cell i = some a → R.w ≤ a.w ∧ a.e ≤ R.e ∧ R.s ≤ a.s ∧ a.n ≤ R.n := by
    intro i a ha
    obtain ⟨⟨p1, p2⟩, -⟩ := hE.ok i a ha
    have h1 := hT.within i a a.e a.n ha ⟨p1, le_rfl, p2, le_rfl⟩
    refine ⟨?_, h1.2.1, ?_, h1.2.2.2⟩
    · by_contra h
      have hlt := not_le.1 h
      have := hT.within i a (min R.w a.e) a.n ha ⟨lt_min hlt p1, min_le_right _ _, p2, le_rfl⟩
      exact absurd (this.1) (not_lt.2 (min_le_left _ _))
    · by_contra h
      have hlt := not_le.1 h
      have := hT.within i a a.e (min R.s a.n) ha ⟨p1, le_rfl, lt_min hlt p2, min_le_right _ _⟩
      exact absurd (this.2.2.1) (not_lt.2 (min_le_left _ _))
  -- two cells that share a point are the same
  have huniq : ∀ i j a r, cell i = some a → cell j = some r → r.w < a.e → a.w < r.e → r.s < a.n → a.s < r.n → i = j := by
    intro i j a r hi hj h1 h2 h3 h4
    by_contra hne
    exact hE.disjoint i j a r hne hi hj ⟨h1, h2, h3, h4⟩
  -- whatever its turn, a neighbour in the east starts where the cell ends
  have heast : ∀ i a f j r, cell i = some a → nbrs i = some f → cell j = some r → j ∈ f .east → r.w = if a.e = 180 then (if glob then -180 else 180) else a.e := by
    intro i a f j r ha hf hr hj
    obtain ⟨r', hr', t, ht, h1, -⟩ := (hE.mem i f .east j a hf ha).1 hj
    rw [hr] at hr'
    cases hr'
    obtain ⟨⟨p1, -⟩, p2, p3, -⟩ := hE.ok i a ha
    obtain ⟨⟨q1, -⟩, q2, q3, -⟩ := hE.ok j r hr
    simp only [hSide, sideRel, Rect.shift] at h1
    rcases turn_cases ht with rfl | ⟨hg, rfl | rfl⟩
    · split_ifs with k1 k2 <;> linarith
    · rw [if_pos (by linarith), if_pos hg]; linarith
    · linarith
  have hwest : ∀ i a f j r, cell i = some a → nbrs i = some f → cell j = some r → j ∈ f .west → r.e = if a.w = -180 then (if glob then 180 else -180) else a.w := by
    intro i a f j r ha hf hr hj
    obtain ⟨r', hr', t, ht, h1, -⟩ := (hE.mem i f .west j a hf ha).1 hj
    rw [hr] at hr'
    cases hr'
    obtain ⟨⟨p1, -⟩, p2, p3, -⟩ := hE.ok i a ha
    obtain ⟨⟨q1, -⟩, q2, q3, -⟩ := hE.ok j r hr
    simp only [hSide, sideRel, Rect.shift] at h1
    rcases turn_cases ht with rfl | ⟨hg, rfl | rfl⟩
    · split_ifs with k1 k2 <;> linarith
    · linarith
    · rw [if_pos (by linarith), if_pos hg]; linarith
  have hnorth : ∀ i a f j r, cell i = some a → nbrs i = some f → cell j = some r → j ∈ f .north → r.s = a.n := by
    intro i a f j r ha hf hr hj
    obtain ⟨r', hr', t, ht, -, h1⟩ := (hE.mem i f .north j a hf ha).1 hj
    rw [hr] at hr'
    cases hr'
    exact h1.symm
  have hsouth : ∀ i a f j r, cell i = some a → nbrs i = some f → cell j = some r → j ∈ f .south → r.n = a.s := by
    intro i a f j r ha hf hr hj
    obtain ⟨r', hr', t, ht, -, h1⟩ := (hE.mem i f .south j a hf ha).1 hj
    rw [hr] at hr'
    cases hr'
    exact h1
  refine ⟨hin, ?_, ?_, ?_, ?_, ?_⟩
  · -- east
    intro i a f ha hf hside y y1 y2
    obtain ⟨i1, i2, i3, i4⟩ := hin i a ha
    obtain ⟨⟨p1, -⟩, p2, p3, -⟩ := hE.ok i a ha
    have hex : ∃ j r, cell j = some r ∧ r.s < y ∧ y ≤ r.n ∧ j ∈ f .east := by
      by_cases hb : a.e < R.e
      · obtain ⟨x, x1, x2, x3⟩ := next_edge hT.finite Rect.w a.e R.e hb
        obtain ⟨j, r, hr, k1, k2, k3, k4⟩ := hT.cover x y ⟨by linarith, x2, by linarith, by linarith⟩
        have hle := x3 j r hr k1
        have hw : r.w = a.e := by
          by_contra hne
          have := huniq i j a r ha hr (lt_of_le_of_ne hle hne) (by linarith) (by linarith) (by linarith)
          subst this
          rw [ha] at hr
          cases hr
          linarith
        exact ⟨j, r, hr, k3, k4, (hE.mem i f .east j a hf ha).2 ⟨r, hr, 0, zero_turn _, by simpa [hSide, sideRel, Rect.shift] using hw.symm,
          by simp only [vSide, sideRel, Rect.shift]; exact ⟨by linarith, by linarith⟩⟩⟩
      · have hg : glob = true := by tauto
        obtain ⟨g1, g2⟩ := hR hg
        obtain ⟨x, x1, x2, x3⟩ := next_edge hT.finite Rect.w R.w R.e (by linarith)
        obtain ⟨j, r, hr, k1, k2, k3, k4⟩ := hT.cover x y ⟨x1, x2, by linarith, by linarith⟩
        have hle := x3 j r hr k1
        have hge := (hin j r hr).1
        refine ⟨j, r, hr, k3, k4, (hE.mem i f .east j a hf ha).2 ⟨r, hr, 360, by simp [turns, hg], ?_, ?_⟩⟩
        · simp only [hSide, sideRel, Rect.shift]; linarith
        · simp only [vSide, sideRel, Rect.shift]; exact ⟨by linarith, by linarith⟩
    obtain ⟨j, r, hr, k3, k4, hj⟩ := hex
    refine ⟨j, ⟨hj, r, hr, k3, k4⟩, ?_⟩
    rintro j' ⟨hj', r', hr', k3', k4'⟩
    have e1 := heast i a f j r ha hf hr hj
    have e2 := heast i a f j' r' ha hf hr' hj'
    obtain ⟨⟨q1, -⟩, -⟩ := hE.ok j r hr
    obtain ⟨⟨q1', -⟩, -⟩ := hE.ok j' r' hr'
    rw [← e2] at e1
    exact huniq j' j r' r hr' hr (by linarith) (by linarith) (by linarith) (by linarith)
  · -- west
    intro i a f ha hf hside y y1 y2
    obtain ⟨i1, i2, i3, i4⟩ := hin i a ha
    obtain ⟨⟨p1, -⟩, p2, p3, -⟩ := hE.ok i a ha
    have hex : ∃ j r, cell j = some r ∧ r.s < y ∧ y ≤ r.n ∧ j ∈ f .west := by
      by_cases hb : R.w < a.w
      · obtain ⟨j, r, hr, k1, k2, k3, k4⟩ := hT.cover a.w y ⟨hb, by linarith, by linarith, by linarith⟩
        have hw : r.e = a.w := by
          by_contra hne
          have := huniq i j a r ha hr (by linarith) (lt_of_le_of_ne k2 (Ne.symm hne)) (by linarith) (by linarith)
          subst this
          rw [ha] at hr
          cases hr
          linarith
        exact ⟨j, r, hr, k3, k4, (hE.mem i f .west j a hf ha).2 ⟨r, hr, 0, zero_turn _, by simpa [hSide, sideRel, Rect.shift] using hw,
          by simp only [vSide, sideRel, Rect.shift]; exact ⟨by linarith, by linarith⟩⟩⟩
      · have hg : glob = true := by tauto
        obtain ⟨g1, g2⟩ := hR hg
        obtain ⟨j, r, hr, k1, k2, k3, k4⟩ := hT.cover R.e y ⟨by linarith, le_rfl, by linarith, by linarith⟩
        have hle := (hin j r hr).2.1
        refine ⟨j, r, hr, k3, k4, (hE.mem i f .west j a hf ha).2 ⟨r, hr, -360, by simp [turns, hg], ?_, ?_⟩⟩
        · simp only [hSide, sideRel, Rect.shift]; linarith
        · simp only [vSide, sideRel, Rect.shift]; exact ⟨by linarith, by linarith⟩
    obtain ⟨j, r, hr, k3, k4, hj⟩ := hex
    refine ⟨j, ⟨hj, r, hr, k3, k4⟩, ?_⟩
    rintro j' ⟨hj', r', hr', k3', k4'⟩
    have e1 := hwest i a f j r ha hf hr hj
    have e2 := hwest i a f j' r' ha hf hr' hj'
    obtain ⟨⟨q1, -⟩, -⟩ := hE.ok j r hr
    obtain ⟨⟨q1', -⟩, -⟩ := hE.ok j' r' hr'
    rw [← e2] at e1
    exact huniq j' j r' r hr' hr (by linarith) (by linarith) (by linarith) (by linarith)
  · -- north
    intro i a f ha hf hb x y1 y2
    obtain ⟨i1, i2, i3, i4⟩ := hin i a ha
    obtain ⟨⟨p0, p1⟩, p2, p3, -⟩ := hE.ok i a ha
    obtain ⟨y, x1, x2, x3⟩ := next_edge hT.finite Rect.s a.n R.n hb
    obtain ⟨j, r, hr, k1, k2, k3, k4⟩ := hT.cover x y ⟨by linarith, by linarith, by linarith, x2⟩
    have hle := x3 j r hr k3
    have hw : r.s = a.n := by
      by_contra hne
      have := huniq i j a r ha hr (by linarith) (by linarith) (lt_of_le_of_ne hle hne) (by linarith)
      subst this
      rw [ha] at hr
      cases hr
      linarith
    have hj : j ∈ f .north := (hE.mem i f .north j a hf ha).2 ⟨r, hr, 0, zero_turn _,
      by simp only [hSide, sideRel, Rect.shift]; exact ⟨by linarith, by linarith⟩, by simpa [vSide, sideRel, Rect.shift] using hw.symm⟩
    refine ⟨j, ⟨hj, r, hr, k1, k2⟩, ?_⟩
    rintro j' ⟨hj', r', hr', k3', k4'⟩
    have e1 := hnorth i a f j r ha hf hr hj
    have e2 := hnorth i a f j' r' ha hf hr' hj'
    obtain ⟨⟨-, q1⟩, -⟩ := hE.ok j r hr
    obtain ⟨⟨-, q1'⟩, -⟩ := hE.ok j' r' hr'
    exact huniq j' j r' r hr' hr (by linarith) (by linarith) (by linarith) (by linarith)
  · -- south
    intro i a f ha hf hb x y1 y2
    obtain ⟨i1, i2, i3, i4⟩ := hin i a ha
    obtain ⟨⟨p0, p1⟩, p2, p3, -⟩ := hE.ok i a ha
    obtain ⟨j, r, hr, k1, k2, k3, k4⟩ := hT.cover x a.s ⟨by linarith, by linarith, hb, by linarith⟩
    have hw : r.n = a.s := by
      by_contra hne
      have := huniq i j a r ha hr (by linarith) (by linarith) (by linarith) (lt_of_le_of_ne k4 (Ne.symm hne))
      subst this
      rw [ha] at hr
      cases hr
      linarith
    have hj : j ∈ f .south := (hE.mem i f .south j a hf ha).2 ⟨r, hr, 0, zero_turn _,
      by simp only [hSide, sideRel, Rect.shift]; exact ⟨by linarith, by linarith⟩, by simpa [vSide, sideRel, Rect.shift] using hw⟩
    refine ⟨j, ⟨hj, r, hr, k1, k2⟩, ?_⟩
    rintro j' ⟨hj', r', hr', k3', k4'⟩
    have e1 := hsouth i a f j r ha hf hr hj
    have e2 := hsouth i a f j' r' ha hf hr' hj'
    obtain ⟨⟨-, q1⟩, -⟩ := hE.ok j r hr
    obtain ⟨⟨-, q1'⟩, -⟩ := hE.ok j' r' hr'
    exact huniq j' j r' r hr' hr (by linarith) (by linarith) (by linarith) (by linarith)
  · -- border
    intro i a f ha hf
    have cellOf : ∀ d j, j ∈ f d → ∃ r, cell j = some r := fun d j hj =>
      let ⟨r, hr, _⟩ := (hE.mem i f d j a hf ha).1 hj
      ⟨r, hr⟩
    refine ⟨?_, ?_, ?_, ?_⟩
    · intro he hg
      refine List.eq_nil_iff_forall_not_mem.2 fun j hj => ?_
      obtain ⟨r, hr⟩ := cellOf _ j hj
      have h1 := heast i a f j r ha hf hr hj
      obtain ⟨⟨q1, -⟩, -⟩ := hE.ok j r hr
      have := (hin j r hr).2.1
      rw [hg] at h1
      simp only [Bool.false_eq_true, if_false] at h1
      split_ifs at h1 <;> linarith
    · intro he hg
      refine List.eq_nil_iff_forall_not_mem.2 fun j hj => ?_
      obtain ⟨r, hr⟩ := cellOf _ j hj
      have h1 := hwest i a f j r ha hf hr hj
      obtain ⟨⟨q1, -⟩, -⟩ := hE.ok j r hr
      have := (hin j r hr).1
      rw [hg] at h1
      simp only [Bool.false_eq_true, if_false] at h1
      split_ifs at h1 <;> linarith
    · intro he
      refine List.eq_nil_iff_forall_not_mem.2 fun j hj => ?_
      obtain ⟨r, hr⟩ := cellOf _ j hj
      have h1 := hnorth i a f j r ha hf hr hj
      obtain ⟨⟨-, q1⟩, -⟩ := hE.ok j r hr
      have := (hin j r hr).2.2.2
      linarith
    · intro he
      refine List.eq_nil_iff_forall_not_mem.2 fun j hj => ?_
      obtain ⟨r, hr⟩ := cellOf _ j hj
      have h1 := hsouth i a f j r ha hf hr hj
      obtain ⟨⟨-, q1⟩, -⟩ := hE.ok j r hr
      have := (hin j r hr).2.2.1
      linarith

/-- The live cells of a mesh make up the region. -/
theorem tiled_reach {ops : DataOps D} {b : Boundary} {W H : ℚ} (hp : ProperGrid b W H) (hcr : b.longMin < b.longMax)
    (hcol : b.longMin = -180 ∧ b.longMax = 180 → W ≤ 180) {initData : Boundary → D} {depth : ℕ} {m : MeshState D}
    (h : Reach ops b W H initData depth m) : Exact (globalRegion b) (liveRect m) (nbrs m) ∧ TiledRect (liveRect m) (rectOf b) := by
  obtain ⟨hc, -, hg⟩ := reach_graph hp hcr (fun hg => hcol (by simpa [globalRegion] using hg)) h
  have hb2 : -180 ≤ b.longMin := hp.valid.2.1
  have hb3 : b.longMax ≤ 180 := hp.valid.2.2.2.2.1
  refine ⟨hg, ⟨m.cells.length, ?_⟩, ?_, ?_⟩
  · intro i r h
    obtain ⟨c, hl, -⟩ := liveRect_some h
    exact live_lt hl
  · intro x y hxy
    have x1 : -180 < x := lt_of_le_of_lt hb2 hxy.1
    have x2 : x ≤ 180 := hxy.2.1.trans hb3
    obtain ⟨i, c, hl, hcv⟩ := (hc.cover x y).1 ((hcovers_rect b hcr hb2 hb3 x1 x2).2 hxy)
    have hr := liveRect_of_live hl
    obtain ⟨⟨p1, -⟩, p2, p3, -⟩ := hg.ok i _ hr
    exact ⟨i, _, hr, (hcovers_rect c.bounds p1 p2 p3 x1 x2).1 hcv⟩
  · intro i r x y h hm
    obtain ⟨x1, x2⟩ := cellOK_domain (hg.ok i r h) hm
    obtain ⟨c, hl, rfl⟩ := liveRect_some h
    obtain ⟨⟨p1, -⟩, p2, p3, -⟩ := hg.ok i _ h
    exact (hcovers_rect b hcr hb2 hb3 x1 x2).1 ((hc.cover x y).2 ⟨i, c, hl, (hcovers_rect c.bounds p1 p2 p3 x1 x2).2 hm⟩)

/-- C132, any sequence of splits of a mesh over a region that does not cross the antimeridian. -/
theorem C132_grown (ops : DataOps D) (b : Boundary) (W H : ℚ) (hp : ProperGrid b W H) (hcr : b.longMin < b.longMax)
    (hcol : b.longMin = -180 ∧ b.longMax = 180 → W ≤ 180) (initData : Boundary → D) (depth : ℕ) (m : MeshState D)
    (h : Reach ops b W H initData depth m) : SidesLined (globalRegion b) (rectOf b) (liveRect m) (nbrs m) := by
  obtain ⟨hg, ht⟩ := tiled_reach hp hcr hcol h
  exact sides_lined hg ht (fun h => by simpa [globalRegion, rectOf] using h) ⟨hp.valid.2.1, hp.valid.2.2.2.2.1⟩

/-- So do those of an aggregated mesh. -/
theorem tiled_env {glob : Bool} {m : EnvMesh} {b : Boundary} (hids : (m.cells.map (·.id)).Nodup)
    (hg : Exact glob (envRect m) (fun i => m.graph.nodes.get? i)) (ht : EnvTiles m b) (hcr : b.longMin < b.longMax) (hb2 : -180 ≤ b.longMin)
    (hb3 : b.longMax ≤ 180) : TiledRect (envRect m) (rectOf b) := by
  have hrect := envRect_iff hids
  have hN : ∃ N, ∀ c ∈ m.cells, c.id < N := by
    generalize m.cells = l
    induction l with
    | nil => exact ⟨0, by simp⟩
    | cons a l ih =>
      obtain ⟨N, h⟩ := ih
      refine ⟨max N (a.id + 1), fun c hc => ?_⟩
      rcases List.mem_cons.1 hc with rfl | hc
      · omega
      · have := h c hc
        omega
  obtain ⟨N, hN⟩ := hN
  have hcov : ∀ x y, HCovers b x y ↔ ∃ c ∈ m.cells, HCovers c.bounds x y := by
    intro x y
    rw [ht.1 x y]
    simp
  refine ⟨⟨N, ?_⟩, ?_, ?_⟩
  · intro i r h
    obtain ⟨c, hl, rfl, -⟩ := (hrect i r).1 h
    exact hN c hl
  · intro x y hxy
    have x1 : -180 < x := lt_of_le_of_lt hb2 hxy.1
    have x2 : x ≤ 180 := hxy.2.1.trans hb3
    obtain ⟨c, hl, hcv⟩ := (hcov x y).1 ((hcovers_rect b hcr hb2 hb3 x1 x2).2 hxy)
    have hr := (hrect c.id _).2 ⟨c, hl, rfl, rfl⟩
    obtain ⟨⟨p1, -⟩, p2, p3, -⟩ := hg.ok _ _ hr
    exact ⟨_, _, hr, (hcovers_rect c.bounds p1 p2 p3 x1 x2).1 hcv⟩
  · intro i r x y h hm
    obtain ⟨x1, x2⟩ := cellOK_domain (hg.ok i r h) hm
    obtain ⟨c, hl, rfl, rfl⟩ := (hrect i r).1 h
    obtain ⟨⟨p1, -⟩, p2, p3, -⟩ := hg.ok _ _ h
    exact (hcovers_rect b hcr hb2 hb3 x1 x2).1 ((hcov x y).2 ⟨c, hl, (hcovers_rect c.bounds p1 p2 p3 x1 x2).2 hm⟩)

/-- The same for aggregated meshes. -/
theorem lined_env {glob : Bool} (m : EnvMesh) (b : Boundary) (hids : (m.cells.map (·.id)).Nodup)
    (hg : Exact glob (envRect m) (fun i => m.graph.nodes.get? i)) (ht : EnvTiles m b) (hcr : b.longMin < b.longMax) (hb2 : -180 ≤ b.longMin)
    (hb3 : b.longMax ≤ 180) (hglob : glob = true → b.longMin = -180 ∧ b.longMax = 180) :
    SidesLined glob (rectOf b) (envRect m) (fun i => m.graph.nodes.get? i) :=
  sides_lined hg (tiled_env hids hg ht hcr hb2 hb3) hglob ⟨hb2, hb3⟩

/-- C132, the mesh that a build of an accepted region ends with, whatever the sources decide. -/
theorem C132_built (ops : DataOps D) (agg : CellBox D → Py (Dict String Val)) (config : MeshConfig) (b : Boundary) (W H : ℚ)
    (hp : ProperGrid b W H) (hcr : b.longMin < b.longMax) (hh : b.latMin < b.latMax) (hcol : b.longMin = -180 ∧ b.longMax = 180 → W ≤ 180)
    (hacc : MeshBuilder.validateBounds b W H = .ok ()) (initData : Boundary → D) (depth : ℕ) :
    ∃ m0, MeshBuilder.init b W H initData depth = .ok m0 ∧ ∃ N, ∀ fuel, N ≤ fuel → ∀ em,
      MeshBuilder.buildEnvironmentalMesh ops agg fuel config m0 = .ok em →
      SidesLined (globalRegion b) (rectOf b) (envRect em) (fun i => em.graph.nodes.get? i) := by
  obtain ⟨m0, h0, N, hN⟩ := C52_build_partial ops agg config b W H hp hcr hh hcol hacc initData depth
  refine ⟨m0, h0, N, fun fuel hf em he => ?_⟩
  rcases hN fuel hf with ⟨em', m, h1, hok, -⟩ | ⟨e, h1, -⟩
  · rw [he] at h1
    cases h1
    exact lined_env em b hok.ids hok.graph hok.tiles hcr hp.valid.2.1 hp.valid.2.2.2.2.1 (fun h => by simpa [globalRegion] using h)
  · rw [he] at h1
    cases h1

/-- C132, a consistent mesh that was read from a file, after splits of any of its cells in any order. -/
theorem C132_splits (m : EnvMesh) (h : EnvOK m) (hl : Loaded m) (b : Boundary) (ht : EnvTiles m b) (hb : Valid b) (hcr : b.longMin < b.longMax)
    (m' : EnvMesh) (hs : EnvSplits m m') : SidesLined false (rectOf b) (envRect m') (fun i => m'.graph.nodes.get? i) := by
  obtain ⟨h1, -, h3, -⟩ := C37_sequences m h hl b ht m' hs
  exact lined_env m' b h1.ids h1.graph h3 hcr hb.2.1 hb.2.2.2.2.1 (by simp)

/-- C132, a mesh into which others, laid out on its grid and lying in its region, were merged. -/
theorem C132_merged (ms : List EnvMesh) (m : EnvMesh) (h : MergeBase m) (b : Boundary) (ht : EnvTiles m b) (hb : Valid b)
    (hpos : (rectOf b).Pos)
    (hms : ∀ m2 ∈ ms, MergeIn m2 ∧ (∃ a n c k : ℤ, m2.bounds.longMin = m.bounds.longMin + a * m.config.cellWidth ∧
        m2.bounds.longMax = m.bounds.longMin + n * m.config.cellWidth ∧ m2.bounds.latMin = m.bounds.latMin + c * m.config.cellHeight ∧
        m2.bounds.latMax = m.bounds.latMin + k * m.config.cellHeight) ∧
      ∀ c ∈ m2.cells, InSquare m.bounds.longMin m.bounds.latMin m.config.cellWidth m.config.cellHeight (rectOf c.bounds))
    (hin : ∀ m2 ∈ ms, Inside (rectOf b) (rectOf m2.bounds)) :
    ∃ m', EnvMesh.mergeAll m ms = .ok m' ∧ SidesLined false (rectOf b) (envRect m') (fun i => m'.graph.nodes.get? i) := by
  obtain ⟨m', e1, e2, -, e4⟩ := C38_sequences ms m h hms
  exact ⟨m', e1, lined_env m' b e2.ok.ids e2.ok.graph (e4 b hpos hin ht) hpos.1 hb.2.1 hb.2.2.2.2.1 (by simp)⟩

/-- C132, where a region crosses the antimeridian the claim is false, as the code misses neighbours there (C18): cell 1 ends at
170 W, ten degrees before the border of the region, but nothing is listed to its east. -/
theorem C132_crossing_false : ∃ (b : Boundary) (W H : ℚ) (m : MeshState Unit) (c : CellBox Unit) (f : NMap), ProperGrid b W H ∧
    b.longMax ≤ b.longMin ∧ Reach unitOps b W H (fun _ => ()) 3 m ∧ Live m 1 c ∧ nbrs m 1 = some f ∧
    c.bounds.longMax + 10 = b.longMax ∧ f .east = [] := by
  let b : Boundary := ⟨-60, -50, 170, -160, []⟩
  have hp : ProperGrid b 10 10 := by
    refine ⟨by norm_num [Valid, b], by norm_num [b], by norm_num, by norm_num, ?_⟩
    intro h
    have : b.width = 30 := by decide +kernel
    rw [this] at h; norm_num at h
  have h1 : (match runSplits (MeshBuilder.init b 10 10 (fun _ => ()) 3) [2] with
      | .ok m => (match m.cells[1]? with | some (some c) => decide (c.bounds.longMax + 10 = b.longMax) | _ => false) &&
          (match nbrs m 1 with | some f => decide (f .east = []) | none => false)
      | .error _ => false) = true := by decide +kernel
  rcases h : runSplits (MeshBuilder.init b 10 10 (fun _ => ()) 3) [2] with e | m
  · rw [h] at h1; cases h1
  · rw [h] at h1
    simp only [Bool.and_eq_true] at h1
    obtain ⟨k2, k3⟩ := h1
    rcases hc : m.cells[1]? with _ | _ | c
    · simp [hc] at k2
    · simp [hc] at k2
    · rcases hf : nbrs m 1 with _ | f
      · simp [hf] at k3
      · exact ⟨b, 10, 10, m, c, f, hp, by decide +kernel, runSplits_reach [2] h, hc, hf, by simpa [hc] using k2, by simpa [hf] using k3⟩

/-- The hypotheses of C132 hold for a mesh read from a file. -/
example : ∃ m : EnvMesh, exLoaded = .ok m ∧ EnvOK m ∧ Loaded m ∧ EnvTiles m exRegion ∧ Valid exRegion ∧ exRegion.longMin < exRegion.longMax :=
  let ⟨m, h1, h2, h3, h4, _⟩ := exLoaded_ok
  ⟨m, h1, h2, h3, h4, exRegion_proper.valid, by norm_num [exRegion]⟩

/-- And for the build, of a region and of a whole band. -/
example : ProperGrid exRegion 10 5 ∧ exRegion.longMin < exRegion.longMax ∧ exRegion.latMin < exRegion.latMax ∧
    MeshBuilder.validateBounds exRegion 10 5 = .ok () ∧ ProperGrid exBand 90 5 ∧ MeshBuilder.validateBounds exBand 90 5 = .ok () ∧
    globalRegion exBand = true :=
  ⟨exRegion_proper, by decide +kernel, by decide +kernel, by decide +kernel, exBand_proper, by decide +kernel, by decide +kernel⟩

/-- What it says of one side: three cells line the western side of cell 1. -/
example : ∃ m, exMesh = .ok m ∧ Reach unitOps exRegion 10 5 (fun _ => ()) 3 m ∧ listOf exMesh 1 .west = some [5, 9, 11] ∧
    liveRect m 1 = some ⟨10, 20, -60, -55⟩ := by
  obtain ⟨m, h1, h2⟩ := exMesh_ok
  have hr : (exMesh.map (fun m => liveRect m 1) : Py (Option Rect)) = .ok (some ⟨10, 20, -60, -55⟩) := by decide +kernel
  rw [h1] at hr
  exact ⟨m, h1, h2, by decide +kernel, by simpa [Except.map] using hr⟩

end Verif
