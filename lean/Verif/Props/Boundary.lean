import Verif.Spec.Circle
import Verif.Props.Longitude
import Mathlib.Tactic.Ring

/-!
# C03 - C07: boundaries
-/

namespace Verif
open Spec

/-! ## C03 -/

/-- What the documentation promises of an accepted boundary. -/
def DocumentedInput (lat long : List ℚ) (time : List ℤ) : Prop :=
  ∃ a b c d, lat = [a, b] ∧ long = [c, d] ∧ a ≤ b ∧ -180 ≤ c ∧ c ≤ 180 ∧ -180 ≤ d ∧ d ≤ 180 ∧
    (time = [] ∨ ∃ t0 t1, time = [t0, t1] ∧ t0 ≤ t1)

/-- C03 (exact decision table): construction succeeds exactly on these inputs.  The longitude test
only looks at one side of each value, and extra elements of the ranges are ignored. -/
theorem C03_construction_table (lat long : List ℚ) (time : List ℤ) (r : Boundary) :
    Boundary.mk? lat long time = .ok r ↔
      ∃ a b la c d lo, lat = a :: b :: la ∧ long = c :: d :: lo ∧ a ≤ b ∧ -180 ≤ c ∧ d ≤ 180 ∧
        (time = [] ∨ ∃ t0 t1, time = [t0, t1] ∧ t0 ≤ t1) ∧ r = ⟨a, b, c, d, time⟩ := by
  unfold Boundary.mk? Boundary.validateBounds
  constructor
  · intro h
    match lat, long, time with
    | a :: b :: la, c :: d :: lo, [] =>
      simp only [bind, Except.bind] at h
      split_ifs at h with h1 h2
      simp [pure, Except.pure] at h
      push Not at h1 h2
      exact ⟨a, b, la, c, d, lo, rfl, rfl, h1, h2.1, h2.2, Or.inl rfl, h.symm⟩
    | a :: b :: la, c :: d :: lo, [t0, t1] =>
      simp only [bind, Except.bind] at h
      split_ifs at h with h1 h2 h3
      simp [pure, Except.pure] at h
      push Not at h1 h2 h3
      exact ⟨a, b, la, c, d, lo, rfl, rfl, h1, h2.1, h2.2, Or.inr ⟨t0, t1, rfl, h3⟩, h.symm⟩
    | a :: b :: la, c :: d :: lo, t0 :: t1 :: t2 :: ts =>
      simp only [bind, Except.bind] at h
      split_ifs at h
    | _, _, [_] => simp at h
    | [], _, [] => simp [bind, Except.bind] at h
    | [], _, _ :: _ :: _ => simp [bind, Except.bind] at h
    | [_], _, [] => simp [bind, Except.bind] at h
    | [_], _, _ :: _ :: _ => simp [bind, Except.bind] at h
    | _ :: _ :: _, [], [] => simp [bind, Except.bind] at h
    | _ :: _ :: _, [], _ :: _ :: _ => simp [bind, Except.bind] at h
    | _ :: _ :: _, [_], [] => simp [bind, Except.bind] at h
    | _ :: _ :: _, [_], _ :: _ :: _ => simp [bind, Except.bind] at h
  · rintro ⟨a, b, la, c, d, lo, rfl, rfl, h1, h2, h3, ht, rfl⟩
    rcases ht with rfl | ⟨t0, t1, rfl, ht⟩
    · simp [bind, Except.bind, not_lt.mpr h1, not_lt.mpr h2, not_lt.mpr h3, pure, Except.pure]
    · simp [bind, Except.bind, not_lt.mpr h1, not_lt.mpr h2, not_lt.mpr h3, not_lt.mpr ht, pure, Except.pure]

example : Boundary.mk? [-80, -40] [170, -170] [3, 4] = .ok ⟨-80, -40, 170, -170, [3, 4]⟩ := by
  decide +kernel

/-- C03 fails: a boundary with longitudes outside -180:180 is accepted. -/
theorem C03_out_of_range_accepted :
    ∃ lat long time r, Boundary.mk? lat long time = .ok r ∧ ¬ DocumentedInput lat long time := by
  refine ⟨[0, 1], [500, -500], [], ⟨0, 1, 500, -500, []⟩, by decide +kernel, ?_⟩
  rintro ⟨a, b, c, d, h1, h2, h3, h4, h5, h6⟩
  simp only [List.cons.injEq, and_true] at h2
  rw [← h2.1] at h5
  norm_num at h5

/-- C03, what holds: for ranges of exactly two values whose western edge is not beyond 180 and
whose eastern edge is not beyond -180 (the two missing checks), construction succeeds exactly on
the documented inputs. -/
theorem C03_construction_partial (a b c d : ℚ) (time : List ℤ) (hc : c ≤ 180) (hd : -180 ≤ d) :
    (∃ r, Boundary.mk? [a, b] [c, d] time = .ok r) ↔ DocumentedInput [a, b] [c, d] time := by
  constructor
  · rintro ⟨r, h⟩
    obtain ⟨a', b', la, c', d', lo, h1, h2, h3, h4, h5, h6, -⟩ := (C03_construction_table _ _ _ _).1 h
    simp only [List.cons.injEq] at h1 h2
    obtain ⟨rfl, rfl, rfl⟩ := h1
    obtain ⟨rfl, rfl, rfl⟩ := h2
    exact ⟨a, b, c, d, rfl, rfl, h3, h4, hc, hd, h5, h6⟩
  · rintro ⟨a', b', c', d', h1, h2, h3, h4, h5, h6, h7, h8⟩
    simp only [List.cons.injEq, and_true] at h1 h2
    obtain ⟨rfl, rfl⟩ := h1
    obtain ⟨rfl, rfl⟩ := h2
    exact ⟨_, (C03_construction_table _ _ _ _).2 ⟨a, b, [], c, d, [], rfl, rfl, h3, h4, h7, h8, rfl⟩⟩

/-- C03, error class: for a time range that is not a single date, every rejection is a
`ValueError`. -/
theorem C03_rejection_error (lat long : List ℚ) (time : List ℤ) (e : Err) (ht : time.length ≠ 1)
    (h : Boundary.mk? lat long time = .error e) : e = .valueError := by
  unfold Boundary.mk? Boundary.validateBounds at h
  match lat, long, time with
  | a :: b :: la, c :: d :: lo, [] =>
    simp only [bind, Except.bind] at h
    split_ifs at h <;> simp_all [pure, Except.pure]
  | a :: b :: la, c :: d :: lo, [t0, t1] =>
    simp only [bind, Except.bind] at h
    split_ifs at h <;> simp_all [pure, Except.pure]
  | a :: b :: la, c :: d :: lo, t0 :: t1 :: t2 :: ts =>
    simp only [bind, Except.bind] at h
    split_ifs at h <;> simp_all
  | _, _, [_] => simp at ht
  | [], _, [] => simp_all [bind, Except.bind]
  | [], _, _ :: _ :: _ => simp_all [bind, Except.bind]
  | [_], _, [] => simp_all [bind, Except.bind]
  | [_], _, _ :: _ :: _ => simp_all [bind, Except.bind]
  | _ :: _ :: _, [], [] => simp_all [bind, Except.bind]
  | _ :: _ :: _, [], _ :: _ :: _ => simp_all [bind, Except.bind]
  | _ :: _ :: _, [_], [] => simp_all [bind, Except.bind]
  | _ :: _ :: _, [_], _ :: _ :: _ => simp_all [bind, Except.bind]

example : Boundary.mk? [1, 0] [0, 1] [] = .error .valueError := by decide +kernel

theorem Boundary.mk?_valid {b : Boundary} (h : Valid b) :
    Boundary.mk? [b.latMin, b.latMax] [b.longMin, b.longMax] b.time = .ok b := by
  obtain ⟨h1, h2, h3, h4, h5, h6⟩ := h
  exact (C03_construction_table _ _ _ _).2
    ⟨_, _, [], _, _, [], rfl, rfl, h1, h2, h5, h6, rfl⟩

/-! ## C04 -/

theorem Boundary.width_eq (b : Boundary) : b.width = eastEdge b - b.longMin := by
  unfold Boundary.width eastEdge
  by_cases h : b.longMin < b.longMax
  · rw [if_pos h, if_pos h]
  · rw [if_neg h, if_neg h]; ring

/-- C04 under the guard that the box is not the degenerate `[180, -180]`. -/
theorem C04_geometry_partial (b : Boundary) (hv : Valid b) (hd : ¬ (b.longMin = 180 ∧ b.longMax = -180)) :
    (0 < b.width ∧ b.width ≤ 360) ∧
    SameMeridian (b.longMin + b.width) b.longMax ∧
    (-180 ≤ b.cx ∧ b.cx ≤ 180) ∧ Covers b b.cx b.cy ∧
    SameMeridian b.cx (b.longMin + b.width / 2) ∧
    b.width = 2 * b.dcx ∧ b.height = 2 * b.dcy ∧ 0 ≤ b.height ∧
    b.cy - b.latMin = b.latMax - b.cy := by
  obtain ⟨h1, h2, h3, h4, h5, -⟩ := hv
  have hw := Boundary.width_eq b
  have hpos : 0 < b.width ∧ b.width ≤ 360 := by
    rw [hw]; unfold eastEdge
    split
    · constructor <;> linarith
    · rename_i h
      push Not at h
      constructor
      · by_contra hc
        push Not at hc
        exact hd ⟨by linarith, by linarith⟩
      · linarith
  have hmer : SameMeridian (b.longMin + b.width) b.longMax := by
    rw [hw]; unfold eastEdge
    split
    · exact ⟨0, by simp⟩
    · exact ⟨1, by push_cast; ring⟩
  have hw540 : b.longMin + b.width / 2 ≤ 540 := by linarith
  have hcx : ∃ n : ℤ, b.cx = b.longMin + b.width / 2 + 360 * n ∧ -180 ≤ b.cx ∧ b.cx ≤ 180 := by
    unfold Boundary.cx
    by_cases h : b.longMin + b.width / 2 > 180
    · simp only [if_pos h]
      exact ⟨-1, by push_cast; ring, by linarith, by linarith⟩
    · simp only [if_neg h]
      exact ⟨0, by simp, by linarith, by linarith⟩
  obtain ⟨n, hn, hc1, hc2⟩ := hcx
  refine ⟨hpos, hmer, ⟨hc1, hc2⟩, ?_, ⟨n, hn⟩, by unfold Boundary.dcx; ring, by unfold Boundary.dcy; ring,
    by unfold Boundary.height; linarith, by unfold Boundary.cy Boundary.height; ring⟩
  refine ⟨⟨-n, ?_, ?_⟩, ?_, ?_⟩
  · rw [hn]; push_cast; linarith [hpos.1]
  · rw [hn]; push_cast; linarith [hpos.1]
  · unfold Boundary.cy Boundary.height; linarith
  · unfold Boundary.cy Boundary.height; linarith

example : (⟨-60, -50, 170, -170, []⟩ : Boundary).cx = 180 ∧
    (⟨-60, -50, 170, -170, []⟩ : Boundary).width = 20 ∧ Valid ⟨-60, -50, 170, -170, []⟩ := by
  refine ⟨by decide +kernel, by decide +kernel, ?_⟩
  norm_num [Valid]

/-- C04 fails for `[180, -180]`: accepted, with width 0. -/
theorem C04_degenerate_width :
    ∃ b, Valid b ∧ Boundary.mk? [b.latMin, b.latMax] [b.longMin, b.longMax] b.time = .ok b ∧ b.width = 0 := by
  refine ⟨⟨0, 1, 180, -180, []⟩, ?_, by decide +kernel, by decide +kernel⟩
  norm_num [Valid]

/-! ## C05 -/

/-- C05 fails: boundaries with different time ranges compare equal. -/
theorem C05_time_ignored :
    ∃ a b : Boundary, Valid a ∧ Valid b ∧ a.time ≠ b.time ∧ a.pyEq b = true := by
  refine ⟨⟨0, 1, 0, 1, [1, 2]⟩, ⟨0, 1, 0, 1, [5, 6]⟩, ?_, ?_, by decide, by decide +kernel⟩
  · norm_num [Valid]; exact Or.inr ⟨1, 2, by decide⟩
  · norm_num [Valid]; exact Or.inr ⟨5, 6, by decide⟩

/-- C05, what holds: equality is exactly agreement of the two ranges; time is not compared. -/
theorem C05_equality_partial (a b : Boundary) :
    a.pyEq b = true ↔
      (a.latMin, a.latMax) = (b.latMin, b.latMax) ∧ (a.longMin, a.longMax) = (b.longMin, b.longMax) := by
  unfold Boundary.pyEq
  simp [and_assoc]

example : (⟨0, 1, 0, 1, []⟩ : Boundary).pyEq ⟨0, 1, 0, 2, []⟩ = false := by decide +kernel

/-! ## C06 -/

/-- C06: writing and reading a boundary gives a box that covers the same points of the globe, and
the identical box (without time) unless it crosses with an edge on the antimeridian.  Excluded is
only the box `[180, -180]` of width 0. -/
theorem C06_polygon_round_trip_partial (b : Boundary) (hv : Valid b)
    (hd : ¬ (b.longMin = 180 ∧ b.longMax = -180)) :
    ∃ b', Boundary.fromPoly b.toPolygon = .ok b' ∧ Boundary.loadBounds b.toPolygon = .ok b' ∧
      Valid b' ∧ b'.time = [] ∧ (∀ x y, Covers b' x y ↔ Covers b x y) ∧
      ((b.longMin < b.longMax ∨ (b.longMin ≠ 180 ∧ b.longMax ≠ -180)) →
        b' = { b with time := [] }) := by
  obtain ⟨h1, h2, h3, h4, h5, -⟩ := hv
  have mkOk : ∀ c d : ℚ, -180 ≤ c → d ≤ 180 →
      Boundary.mk? [b.latMin, b.latMax] [c, d] = .ok ⟨b.latMin, b.latMax, c, d, []⟩ := by
    intro c d hc hd
    exact (C03_construction_table _ _ _ _).2 ⟨_, _, [], _, _, [], rfl, rfl, h1, hc, hd, Or.inl rfl, rfl⟩
  have poly : ∀ c d : ℚ, c ≤ d → -180 ≤ c → d ≤ 180 →
      Boundary.fromPoly (.polygon (Boundary.rectRing c b.latMin d b.latMax)) = .ok ⟨b.latMin, b.latMax, c, d, []⟩ ∧
      Boundary.loadBounds (.polygon (Boundary.rectRing c b.latMin d b.latMax)) = .ok ⟨b.latMin, b.latMax, c, d, []⟩ := by
    intro c d h hc hd
    simp [Boundary.fromPoly, Boundary.loadBounds, Boundary.rectRing, Boundary.pyMin, Boundary.pyMax, bind,
      Except.bind, h, h1, mkOk c d hc hd]
  unfold Boundary.toPolygon
  by_cases hlt : b.longMin < b.longMax
  · rw [if_pos hlt]
    obtain ⟨p1, p2⟩ := poly b.longMin b.longMax hlt.le h2 h5
    refine ⟨_, p1, p2, ⟨h1, h2, h3, h4, h5, Or.inl rfl⟩, rfl, ?_, fun _ => rfl⟩
    intro x y
    simp [Covers, eastEdge]
  · rw [if_neg hlt]
    push Not at hlt
    by_cases h180 : b.longMin = 180
    · rw [if_pos h180]
      obtain ⟨p1, p2⟩ := poly (-180) b.longMax h4 (le_refl _) h5
      refine ⟨_, p1, p2, ⟨h1, by norm_num, by norm_num, h4, h5, Or.inl rfl⟩, rfl, ?_, ?_⟩
      · intro x y
        have hgt : -180 < b.longMax := lt_of_le_of_ne h4 (fun e => hd ⟨h180, e.symm⟩)
        have hn : ¬ (b.longMin < b.longMax) := not_lt.mpr hlt
        simp only [Covers, eastEdge, if_pos hgt, if_neg hn]
        constructor
        · rintro ⟨⟨n, a1, a2⟩, a3⟩
          exact ⟨⟨n + 1, by push_cast; linarith, by push_cast; linarith⟩, a3⟩
        · rintro ⟨⟨n, a1, a2⟩, a3⟩
          exact ⟨⟨n - 1, by push_cast; linarith, by push_cast; linarith⟩, a3⟩
      · rintro (h | h)
        · exact absurd h (not_lt.mpr hlt)
        · exact absurd h180 h.1
    · rw [if_neg h180]
      by_cases hm : b.longMax = -180
      · rw [if_pos hm]
        obtain ⟨p1, p2⟩ := poly b.longMin 180 h3 h2 (le_refl _)
        refine ⟨_, p1, p2, ⟨h1, h2, h3, by norm_num, by norm_num, Or.inl rfl⟩, rfl, ?_, ?_⟩
        · intro x y
          have hgt : b.longMin < 180 := lt_of_le_of_ne h3 h180
          have hn : ¬ (b.longMin < b.longMax) := not_lt.mpr hlt
          have e : b.longMax + 360 = 180 := by rw [hm]; norm_num
          simp only [Covers, eastEdge, if_pos hgt, if_neg hn, e]
        · rintro (h | h)
          · exact absurd h (not_lt.mpr hlt)
          · exact absurd hm h.2
      · rw [if_neg hm]
        have hb : (⟨b.latMin, b.latMax, b.longMin, b.longMax, []⟩ : Boundary) = { b with time := [] } := rfl
        refine ⟨{ b with time := [] }, ?_, ?_, ⟨h1, h2, h3, h4, h5, Or.inl rfl⟩, rfl, ?_, fun _ => rfl⟩
        · simp [Boundary.fromPoly, Boundary.rectRing, Boundary.pyMin, Boundary.pyMax, bind,
            Except.bind, h1, h3, h4, mkOk b.longMin b.longMax h2 h5]
        · simp [Boundary.loadBounds, Boundary.rectRing, Boundary.pyMin, Boundary.pyMax, bind,
            Except.bind, h1, h3, h4, mkOk b.longMin b.longMax h2 h5]
        · intro x y; rfl

example : Boundary.fromPoly (Boundary.toPolygon ⟨-60, -50, 170, -170, [1, 2]⟩) = .ok ⟨-60, -50, 170, -170, []⟩ ∧
    Boundary.fromPoly (Boundary.toPolygon ⟨-60, -50, 180, -170, []⟩) = .ok ⟨-60, -50, -180, -170, []⟩ := by
  decide +kernel

/-- C06 fails for the zero-width box `[180, -180]`: it comes back as the whole circle. -/
theorem C06_degenerate_changes : ∃ b b', Valid b ∧ Boundary.fromPoly b.toPolygon = .ok b' ∧
    Covers b' 0 0 ∧ ¬ Covers b 0 0 := by
  refine ⟨⟨0, 1, 180, -180, []⟩, ⟨0, 1, -180, -180, []⟩, ?_, by decide +kernel, ?_, ?_⟩
  · norm_num [Valid]
  · refine ⟨⟨0, ?_, ?_⟩, by norm_num, by norm_num⟩ <;> norm_num [eastEdge]
  · rintro ⟨⟨n, h1, h2⟩, -⟩
    norm_num [eastEdge] at h1 h2
    have h3 : (n : ℚ) * 2 = 1 := by linarith
    have h4 : n * 2 = 1 := by exact_mod_cast h3
    omega

/-! ## C07 -/

theorem tiles_of_cut (b : Boundary) (e m y0 : ℚ) (hm0 : b.longMin ≤ m)
    (hm1 : m ≤ e) (hy0 : b.latMin ≤ y0) (hy1 : y0 ≤ b.latMax) (he : eastEdge b = e)
    (hfull : e ≤ b.longMin + 360) (sw nw se ne : Boundary)
    (hsw : sw.latMin = b.latMin ∧ sw.latMax = y0) (hnw : nw.latMin = y0 ∧ nw.latMax = b.latMax)
    (hse : se.latMin = b.latMin ∧ se.latMax = y0) (hne : ne.latMin = y0 ∧ ne.latMax = b.latMax)
    (kw ke : ℤ)
    (hswx : sw.longMin = b.longMin + 360 * kw ∧ eastEdge sw = m + 360 * kw)
    (hnwx : nw.longMin = b.longMin + 360 * kw ∧ eastEdge nw = m + 360 * kw)
    (hsex : se.longMin = m + 360 * ke ∧ eastEdge se = e + 360 * ke)
    (hnex : ne.longMin = m + 360 * ke ∧ eastEdge ne = e + 360 * ke) (l : List Boundary)
    (hl : l.Perm [sw, nw, se, ne]) : Tiles l b := by
  -- the two columns as predicates on the meridian
  have W : ∀ x, (∃ n : ℤ, b.longMin + 360 * (kw : ℚ) < x + 360 * n ∧ x + 360 * n ≤ m + 360 * kw) ↔
      (∃ n : ℤ, b.longMin < x + 360 * n ∧ x + 360 * n ≤ m) := by
    intro x
    constructor
    · rintro ⟨n, a, c⟩; exact ⟨n - kw, by push_cast; linarith, by push_cast; linarith⟩
    · rintro ⟨n, a, c⟩; exact ⟨n + kw, by push_cast; linarith, by push_cast; linarith⟩
  have E : ∀ x, (∃ n : ℤ, m + 360 * (ke : ℚ) < x + 360 * n ∧ x + 360 * n ≤ e + 360 * ke) ↔
      (∃ n : ℤ, m < x + 360 * n ∧ x + 360 * n ≤ e) := by
    intro x
    constructor
    · rintro ⟨n, a, c⟩; exact ⟨n - ke, by push_cast; linarith, by push_cast; linarith⟩
    · rintro ⟨n, a, c⟩; exact ⟨n + ke, by push_cast; linarith, by push_cast; linarith⟩
  have WE : ∀ x, ¬ ((∃ n : ℤ, b.longMin < x + 360 * n ∧ x + 360 * n ≤ m) ∧
      (∃ n : ℤ, m < x + 360 * n ∧ x + 360 * n ≤ e)) := by
    rintro x ⟨⟨n, a, c⟩, ⟨n', a', c'⟩⟩
    have l1 : (n : ℚ) < n' := by linarith
    have l2 : (n' : ℚ) < n + 1 := by linarith
    have l1' : n < n' := by exact_mod_cast l1
    have l2' : n' < n + 1 := by exact_mod_cast l2
    omega
  have WEu : ∀ x, (∃ n : ℤ, b.longMin < x + 360 * n ∧ x + 360 * n ≤ e) ↔
      ((∃ n : ℤ, b.longMin < x + 360 * n ∧ x + 360 * n ≤ m) ∨
       (∃ n : ℤ, m < x + 360 * n ∧ x + 360 * n ≤ e)) := by
    intro x
    constructor
    · rintro ⟨n, a, c⟩
      by_cases h : x + 360 * (n : ℚ) ≤ m
      · exact Or.inl ⟨n, a, h⟩
      · exact Or.inr ⟨n, not_le.mp h, c⟩
    · rintro (⟨n, a, c⟩ | ⟨n, a, c⟩)
      · exact ⟨n, a, by linarith⟩
      · exact ⟨n, by linarith, c⟩
  constructor
  · intro x y
    have : (∃ c ∈ l, HCovers c x y) ↔ (HCovers sw x y ∨ HCovers nw x y ∨ HCovers se x y ∨ HCovers ne x y) := by
      constructor
      · rintro ⟨c, hc, h⟩
        have := (hl.mem_iff).1 hc
        simp only [List.mem_cons, List.not_mem_nil, or_false] at this
        rcases this with rfl | rfl | rfl | rfl <;> tauto
      · rintro (h | h | h | h)
        · exact ⟨sw, hl.mem_iff.2 (by simp), h⟩
        · exact ⟨nw, hl.mem_iff.2 (by simp), h⟩
        · exact ⟨se, hl.mem_iff.2 (by simp), h⟩
        · exact ⟨ne, hl.mem_iff.2 (by simp), h⟩
    rw [this]
    simp only [HCovers, he, hsw, hnw, hse, hne, hswx, hnwx, hsex, hnex]
    rw [WEu x, W x, E x]
    constructor
    · rintro ⟨h, h1, h2⟩
      by_cases hy : y ≤ y0
      · rcases h with h | h
        · left; exact ⟨h, h1, hy⟩
        · right; right; left; exact ⟨h, h1, hy⟩
      · push Not at hy
        rcases h with h | h
        · right; left; exact ⟨h, hy, h2⟩
        · right; right; right; exact ⟨h, hy, h2⟩
    · rintro (⟨h, h1, h2⟩ | ⟨h, h1, h2⟩ | ⟨h, h1, h2⟩ | ⟨h, h1, h2⟩)
      · exact ⟨Or.inl h, h1, by linarith⟩
      · exact ⟨Or.inl h, by linarith, h2⟩
      · exact ⟨Or.inr h, h1, by linarith⟩
      · exact ⟨Or.inr h, by linarith, h2⟩
  · have base : List.Pairwise (fun c c' => ∀ x y, ¬ (HCovers c x y ∧ HCovers c' x y)) [sw, nw, se, ne] := by
      have ns : ∀ c c' : Boundary, c.latMax ≤ c'.latMin → ∀ x y, ¬ (HCovers c x y ∧ HCovers c' x y) := by
        rintro c c' h x y ⟨⟨-, -, h1⟩, ⟨-, h2, -⟩⟩
        linarith
      have sn : ∀ c c' : Boundary, c'.latMax ≤ c.latMin → ∀ x y, ¬ (HCovers c x y ∧ HCovers c' x y) := by
        rintro c c' h x y ⟨⟨-, h2, -⟩, ⟨-, -, h1⟩⟩
        linarith
      have we : ∀ c c' : Boundary, c.longMin = b.longMin + 360 * kw ∧ eastEdge c = m + 360 * kw →
          c'.longMin = m + 360 * ke ∧ eastEdge c' = e + 360 * ke →
          ∀ x y, ¬ (HCovers c x y ∧ HCovers c' x y) := by
        rintro c c' h h' x y ⟨⟨h1, -, -⟩, ⟨h2, -, -⟩⟩
        simp only [h.1, h.2] at h1
        simp only [h'.1, h'.2] at h2
        exact WE x ⟨(W x).1 h1, (E x).1 h2⟩
      simp only [List.pairwise_cons, List.mem_cons, List.not_mem_nil, or_false, forall_eq_or_imp,
        forall_eq, List.Pairwise.nil, and_true]
      refine ⟨⟨ns _ _ (by rw [hsw.2, hnw.1]), we _ _ hswx hsex, we _ _ hswx hnex⟩,
        ⟨we _ _ hnwx hsex, we _ _ hnwx hnex⟩, ns _ _ (by rw [hse.2, hne.1]), fun _ h => h.elim⟩
    exact (hl.pairwise_iff (fun {a c} h x y hh => h x y ⟨hh.2, hh.1⟩)).2 base

/-- C07 for boxes whose middle meridian is not beyond 180 (all boxes that do not cross the
antimeridian, and the crossing ones whose western part is the bigger one). -/
theorem C07_split_partial (b : Boundary) (hv : Valid b) (hd : ¬ (b.longMin = 180 ∧ b.longMax = -180))
    (hmid : b.longMin + (eastEdge b - b.longMin) / 2 ≤ 180) :
    ∃ l, b.split = .ok l ∧ l.length = 4 ∧ Tiles l b ∧
      ∀ c ∈ l, Valid c ∧ c.time = b.time ∧ c.width = b.width / 2 ∧ c.height = b.height / 2 := by
  have hw := Boundary.width_eq b
  have hpos := (C04_geometry_partial b hv hd).1
  obtain ⟨h1, h2, h3, h4, h5, h6⟩ := hv
  rw [← hw] at hmid
  set m := b.longMin + b.width / 2 with hm
  set y0 := b.latMin + b.height / 2 with hy0
  have hyl : b.latMin ≤ y0 := by rw [hy0]; unfold Boundary.height; linarith
  have hyu : y0 ≤ b.latMax := by rw [hy0]; unfold Boundary.height; linarith
  have mkOk : ∀ a a' c d : ℚ, a ≤ a' → -180 ≤ c → d ≤ 180 →
      Boundary.mk? [a, a'] [c, d] b.time = .ok ⟨a, a', c, d, b.time⟩ := by
    intro a a' c d ha hc hd
    exact (C03_construction_table _ _ _ _).2 ⟨_, _, [], _, _, [], rfl, rfl, ha, hc, hd, h6, rfl⟩
  have hm0 : -180 ≤ m := by linarith [hpos.1]
  have eW : b.longMin < m := by linarith [hpos.1]
  have hE : eastEdge b = m + b.width / 2 := by rw [hm]; linarith
  have eE : ∀ a a' : ℚ, eastEdge ⟨a, a', m, b.longMax, b.time⟩ = eastEdge b := by
    intro a a'
    unfold eastEdge
    by_cases hlt : b.longMin < b.longMax
    · have : m < b.longMax := by
        unfold eastEdge at hE; rw [if_pos hlt] at hE; linarith [hpos.1]
      simp [hlt, this]
    · have : ¬ m < b.longMax := by push Not at hlt ⊢; linarith
      simp [hlt, this]
  refine ⟨[⟨b.latMin, y0, b.longMin, m, b.time⟩, ⟨y0, b.latMax, b.longMin, m, b.time⟩,
    ⟨b.latMin, y0, m, b.longMax, b.time⟩, ⟨y0, b.latMax, m, b.longMax, b.time⟩], ?_, rfl, ?_, ?_⟩
  · unfold Boundary.split
    simp only [← hm, ← hy0]
    rw [mkOk _ _ _ _ hyl h2 hmid, mkOk _ _ _ _ hyu h2 hmid, mkOk _ _ _ _ hyl hm0 h5, mkOk _ _ _ _ hyu hm0 h5]
    rfl
  · refine tiles_of_cut b (eastEdge b) m y0 eW.le (by rw [hE]; linarith [hpos.1]) hyl hyu rfl (by linarith [hpos.2])
      ⟨b.latMin, y0, b.longMin, m, b.time⟩ ⟨y0, b.latMax, b.longMin, m, b.time⟩
      ⟨b.latMin, y0, m, b.longMax, b.time⟩ ⟨y0, b.latMax, m, b.longMax, b.time⟩
      ⟨rfl, rfl⟩ ⟨rfl, rfl⟩ ⟨rfl, rfl⟩ ⟨rfl, rfl⟩ 0 0 ?_ ?_ ?_ ?_ _ (List.Perm.refl _)
    · exact ⟨by simp, by simp [eastEdge, eW]⟩
    · exact ⟨by simp, by simp [eastEdge, eW]⟩
    · exact ⟨by simp, by rw [eE]; simp⟩
    · exact ⟨by simp, by rw [eE]; simp⟩
  · have vw : ∀ a a' : ℚ, a ≤ a' → Valid ⟨a, a', b.longMin, m, b.time⟩ :=
      fun a a' ha => ⟨ha, h2, h3, hm0, hmid, h6⟩
    have ve : ∀ a a' : ℚ, a ≤ a' → Valid ⟨a, a', m, b.longMax, b.time⟩ :=
      fun a a' ha => ⟨ha, hm0, hmid, h4, h5, h6⟩
    have ww : ∀ a a' : ℚ, Boundary.width ⟨a, a', b.longMin, m, b.time⟩ = b.width / 2 := by
      intro a a'; rw [Boundary.width_eq]; simp only [eastEdge, if_pos eW]; rw [hm]; ring
    have we : ∀ a a' : ℚ, Boundary.width ⟨a, a', m, b.longMax, b.time⟩ = b.width / 2 := by
      intro a a'; rw [Boundary.width_eq, eE, hE]; ring
    have hl : y0 - b.latMin = b.height / 2 := by rw [hy0]; ring
    have hh : b.latMax - y0 = b.height / 2 := by rw [hy0]; unfold Boundary.height; ring
    intro c hc
    simp only [List.mem_cons, List.not_mem_nil, or_false] at hc
    rcases hc with rfl | rfl | rfl | rfl
    · exact ⟨vw _ _ hyl, rfl, ww _ _, hl⟩
    · exact ⟨vw _ _ hyu, rfl, ww _ _, hh⟩
    · exact ⟨ve _ _ hyl, rfl, we _ _, hl⟩
    · exact ⟨ve _ _ hyu, rfl, we _ _, hh⟩

example : (⟨-60, -50, 160, -170, []⟩ : Boundary).split =
    .ok [⟨-60, -55, 160, 175, []⟩, ⟨-55, -50, 160, 175, []⟩, ⟨-60, -55, 175, -170, []⟩, ⟨-55, -50, 175, -170, []⟩] := by
  decide +kernel

/-- C07 fails exactly for the other boxes: splitting a valid boundary raises. -/
theorem C07_split_raises (b : Boundary) (hv : Valid b)
    (hmid : 180 < b.longMin + (eastEdge b - b.longMin) / 2) : b.split = .error .valueError := by
  have hw := Boundary.width_eq b
  rw [← hw] at hmid
  obtain ⟨h1, h2, h3, h4, h5, h6⟩ := hv
  unfold Boundary.split
  have : Boundary.mk? [b.latMin, b.latMin + b.height / 2] [b.longMin, b.longMin + b.width / 2] b.time =
      .error .valueError := by
    cases hr : Boundary.mk? [b.latMin, b.latMin + b.height / 2] [b.longMin, b.longMin + b.width / 2] b.time with
    | ok r =>
      obtain ⟨a, a', la, c, d, lo, e1, e2, -, -, h, -⟩ := (C03_construction_table _ _ _ _).1 hr
      simp only [List.cons.injEq] at e2
      rw [← e2.2.1] at h
      linarith
    | error e =>
      rw [C03_rejection_error _ _ _ e ?_ hr]
      rcases h6 with h | ⟨t0, t1, h, -⟩ <;> simp [h]
  simp [this, bind, Except.bind]

example : Valid ⟨-60, -50, 175, -165, []⟩ ∧ (⟨-60, -50, 175, -165, []⟩ : Boundary).split = .error .valueError := by
  refine ⟨?_, by decide +kernel⟩
  norm_num [Valid]

end Verif
