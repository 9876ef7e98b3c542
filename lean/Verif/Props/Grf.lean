import Verif.Model.Grf
import Verif.Props.Shape
import Verif.Props.Values
import Mathlib.Tactic.Linarith
import Mathlib.Data.Int.ModEq

/-!
# C70, C71, C72: Gaussian random fields
-/

namespace Verif
open Grf Spec

/-! ## Specification -/

/-- The entry of a field scaled to `[0, 1]`, where `m` and `M` are the least and greatest entries. -/
def Spec.scaled (m M x : ℚ) : ℚ := (x - m) / (M - m)

/-- The nearest point of the interval `[t0, t1]`. -/
def Spec.nearest (t0 t1 x : ℚ) : ℚ := max t0 (min t1 x)

/-- The datapoint at row `i` and column `j` of the `n` by `n` lattice that spans the box. -/
def Spec.AtSite {V : Type} (b : Boundary) (n i j : ℕ) (r : Row V) : Prop :=
  (r.lat - b.latMin) * ((n : ℚ) - 1) = i * (b.latMax - b.latMin) ∧
  (r.long - b.longMin) * ((n : ℚ) - 1) = j * (b.longMax - b.longMin)

/-! ## Lemmas -/

theorem present_map_some (l : List ℚ) : present (l.map some) = l := by
  induction l with
  | nil => rfl
  | cons a l ih => simp [present]

theorem isMinOf_map {l : List ℚ} {m : ℚ} {f : ℚ → ℚ} (hf : Monotone f) (h : IsMinOf l m) : IsMinOf (l.map f) (f m) := by
  refine ⟨List.mem_map_of_mem h.1, ?_⟩
  intro x hx
  obtain ⟨y, hy, rfl⟩ := List.mem_map.1 hx
  exact hf (h.2 y hy)

theorem isMaxOf_map {l : List ℚ} {m : ℚ} {f : ℚ → ℚ} (hf : Monotone f) (h : IsMaxOf l m) : IsMaxOf (l.map f) (f m) := by
  refine ⟨List.mem_map_of_mem h.1, ?_⟩
  intro x hx
  obtain ⟨y, hy, rfl⟩ := List.mem_map.1 hx
  exact hf (h.2 y hy)

theorem normalise_eq {l : List ℚ} {m M : ℚ} (hm : IsMinOf l m) (hM : IsMaxOf l M) :
    normalise (l.map some) = .ok (l.map (fun x => if M - m = 0 then none else some ((x - m) / (M - m)))) := by
  have hne : l ≠ [] := by rintro rfl; exact absurd hm.1 (by simp)
  unfold normalise
  rw [if_neg (by simpa using hne), if_neg (by simp), present_map_some, ((listMin_spec l).2 m).2 hm]
  have hmono : Monotone (fun x : ℚ => x - m) := fun a c h => by simpa using h
  have h1 := ((listMin_spec _).2 _).2 (isMinOf_map hmono hm)
  have h2 := ((listMax_spec _).2 _).2 (isMaxOf_map hmono hM)
  simp only [h1, h2, List.map_map]
  congr 1
  apply List.map_congr_left
  intro x _
  simp only [Function.comp]
  have e : M - m - (m - m) = M - m := by ring
  rw [e]

theorem normalise_ok {l : List ℚ} {m M : ℚ} (hm : IsMinOf l m) (hM : IsMaxOf l M) (h : m < M) :
    normalise (l.map some) = .ok (l.map (fun x => some (scaled m M x))) := by
  rw [normalise_eq hm hM]
  have : M - m ≠ 0 := by linarith [sub_pos.2 h] |> fun (h : 0 < M - m) => h.ne'
  simp only [if_neg this, scaled]

theorem normalise_flat {l : List ℚ} {c : ℚ} (hl : l ≠ []) (hc : ∀ x ∈ l, x = c) :
    normalise (l.map some) = .ok (l.map (fun _ => none)) := by
  obtain ⟨a, ha⟩ := List.exists_mem_of_ne_nil l hl
  have hca : c ∈ l := hc a ha ▸ ha
  have hm : IsMinOf l c := ⟨hca, fun x hx => (hc x hx).ge⟩
  have hM : IsMaxOf l c := ⟨hca, fun x hx => (hc x hx).le⟩
  rw [normalise_eq hm hM]
  simp

theorem normalise_nan {l : List (Option ℚ)} (hl : l ≠ []) (h : none ∈ l) : normalise l = .ok (l.map (fun _ => none)) := by
  unfold normalise
  rw [if_neg hl, if_pos h]

theorem scaled_range {m M x : ℚ} (h : m < M) (h1 : m ≤ x) (h2 : x ≤ M) : 0 ≤ scaled m M x ∧ scaled m M x ≤ 1 := by
  unfold scaled
  have : 0 < M - m := by linarith
  exact ⟨div_nonneg (by linarith) this.le, (div_le_one this).2 (by linarith)⟩

theorem scaled_mono {m M : ℚ} (h : m < M) : Monotone (scaled m M) := by
  intro x y hxy
  unfold scaled
  exact div_le_div_of_nonneg_right (by linarith) (by linarith)

theorem scaled_min {m M : ℚ} : scaled m M m = 0 := by simp [scaled]

theorem scaled_max {m M : ℚ} (h : m < M) : scaled m M M = 1 := by
  unfold scaled
  exact div_self (by linarith [sub_pos.2 h] |> fun (h : 0 < M - m) => h.ne')

theorem toBinary_some {t x : ℚ} (hx : x ≤ 1) : toBinary t (some x) = decide (t ≤ x) := by
  unfold toBinary
  simp only [Option.map_some]
  by_cases h : x ≥ t
  · have h1 : ¬ (1 : ℚ) < t := by linarith
    simp only [h, if_true, h1, if_false]
    simp
  · have h' : x < t := lt_of_not_ge h
    simp only [h, if_false, h', if_true]
    simp

theorem clip_some {t : ℚ × ℚ} (h : t.1 < t.2) (x : ℚ) : clip t (some x) = some (nearest t.1 t.2 x) := by
  unfold clip nearest
  simp only [Option.map_some, Option.some.injEq]
  by_cases h1 : x < t.1
  · have h2 : ¬ t.1 ≥ t.2 := not_le.2 h
    simp only [h1, if_true, h2, if_false]
    rw [min_eq_right (by linarith), max_eq_left h1.le]
  · simp only [h1, if_false]
    have h1' := not_lt.1 h1
    by_cases h2 : x ≥ t.2
    · rw [if_pos h2, min_eq_left h2, max_eq_right h.le]
    · rw [if_neg h2, min_eq_right (le_of_not_ge h2), max_eq_right h1']

theorem nearest_mono (t0 t1 : ℚ) : Monotone (nearest t0 t1) := by
  intro x y h
  exact max_le_max le_rfl (min_le_min le_rfl h)

theorem nearest_zero {t0 t1 : ℚ} (h : 0 < t1) : nearest t0 t1 0 = max t0 0 := by
  unfold nearest
  rw [min_eq_right h.le]

theorem nearest_one {t0 t1 : ℚ} (h : t0 < t1) (h' : t0 < 1) : nearest t0 t1 1 = min t1 1 :=
  max_eq_right (le_min h.le h'.le)

theorem entry_map {V W : Type} [Inhabited V] [Inhabited W] {n i j : ℕ} {l : List V} {f : V → W} (hl : l.length = n * n)
    (hi : i < n) (hj : j < n) : entry n (l.map f) i j = f (entry n l i j) := by
  have h : i * n + j < l.length := by
    rw [hl]
    calc i * n + j < i * n + n := by omega
      _ = (i + 1) * n := by ring
      _ ≤ n * n := Nat.mul_le_mul_right _ hi
  unfold entry
  simp [List.getD_eq_getElem?_getD, h]

theorem entry_mem {V : Type} [Inhabited V] {n i j : ℕ} {l : List V} (hl : l.length = n * n)
    (hi : i < n) (hj : j < n) : entry n l i j ∈ l := by
  have h : i * n + j < l.length := by
    rw [hl]
    calc i * n + j < i * n + n := by omega
      _ = (i + 1) * n := by ring
      _ ≤ n * n := Nat.mul_le_mul_right _ hi
  unfold entry
  rw [List.getD_eq_getElem?_getD, List.getElem?_eq_getElem h]
  exact List.getElem_mem h

theorem mem_entry {V : Type} [Inhabited V] {n : ℕ} {l : List V} (hl : l.length = n * n) {x : V} (hx : x ∈ l) :
    ∃ i < n, ∃ j < n, entry n l i j = x := by
  obtain ⟨k, hk, rfl⟩ := List.getElem_of_mem hx
  rw [hl] at hk
  have hn : 0 < n := by
    rcases Nat.eq_zero_or_pos n with rfl | h
    · simp at hk
    · exact h
  refine ⟨k / n, Nat.div_lt_of_lt_mul hk, k % n, Nat.mod_lt _ hn, ?_⟩
  unfold entry
  have e : k / n * n + k % n = k := Nat.div_add_mod' k n
  rw [e, List.getD_eq_getElem?_getD, List.getElem?_eq_getElem]
  rfl

/-- Every field put on the grid arrives whole: one row per site, at its place. -/
theorem grid_sites {V : Type} {b : Boundary} {n : ℕ} (d : ℕ → ℕ → V) (hla : b.latMin < b.latMax)
    (hlo : b.longMin < b.longMax) (hn : 2 ≤ n) :
    ∃ l, Shape.toXarray (Shape.rows n n (Shape.linspace b.latMin b.latMax n) (Shape.linspace b.longMin b.longMax n) d) = .ok l ∧
      OnLattice b n n ((n : ℚ) - 1) ((n : ℚ) - 1) l ∧ InBox b l ∧
      (∀ i < n, ∀ j < n, ∃ r ∈ l, AtSite b n i j r ∧ r.val = d i j) ∧
      (∀ r ∈ l, ∃ i < n, ∃ j < n, AtSite b n i j r ∧ r.val = d i j) := by
  obtain ⟨h1, h2, h3⟩ := shape_lattice d hla hlo hn hn
  refine ⟨_, h1, h2, h3, ?_, ?_⟩
  · intro i hi j hj
    exact ⟨_, mem_shape_rows.2 ⟨i, hi, j, hj, rfl⟩, ⟨Verif.linspace_step hn i, Verif.linspace_step hn j⟩, rfl⟩
  · intro r hr
    obtain ⟨i, hi, j, hj, rfl⟩ := mem_shape_rows.1 hr
    exact ⟨i, hi, j, hj, ⟨Verif.linspace_step hn i, Verif.linspace_step hn j⟩, rfl⟩

/-! ## C70 -/

/-- The value of a smooth field from the entry `x` (`m`, `M` the extremes of the field, `c0`, `c1` those
of the scaled and clipped field). -/
def Spec.smooth (m M t0 t1 c0 c1 lo hi k o x : ℚ) : ℚ :=
  k * (lo + (hi - lo) * ((nearest t0 t1 (scaled m M x) - c0) / (c1 - c0))) + o

/-- **C70.**  A smooth field is put on the lattice spanning the box; the value at a site is the entry of the
raw field scaled to `[0, 1]`, clipped to the thresholds, scaled again, and mapped to `[min, max]`, then
multiplied and offset.  (Partial: missing are fields of one value, thresholds off the range and regions over the antimeridian; see below.) -/
theorem C70_scalar_partial {p : Params} {raw : List ℚ} {b : Boundary} {m M : ℚ} {t : ℚ × ℚ}
    (hp : p.binary = some false) (hn : 2 ≤ p.size.getD 512) (hraw : raw.length = p.size.getD 512 * p.size.getD 512)
    (hla : b.latMin < b.latMax) (hlo : b.longMin < b.longMax) (hm : IsMinOf raw m) (hM : IsMaxOf raw M) (hmM : m < M)
    (ht : t = p.thresholds.getD (0, 1)) (ht' : t.1 < t.2)
    (ht0 : t.1 < 1) (ht1 : 0 < t.2) :
    ∃ l, loadScalar p raw b = .ok l ∧
      OnLattice b (p.size.getD 512) (p.size.getD 512) ((p.size.getD 512 : ℕ) - 1) ((p.size.getD 512 : ℕ) - 1) l ∧ InBox b l ∧
      ∀ i < p.size.getD 512, ∀ j < p.size.getD 512, ∃ r ∈ l, AtSite b (p.size.getD 512) i j r ∧
        r.val = .num (some (smooth m M t.1 t.2 (max t.1 0) (min t.2 1) (p.min.getD (-10)) (p.max.getD 10)
          (p.multiplier.getD 1) (p.offset.getD 0) (raw.getD (i * p.size.getD 512 + j) 0))) := by
  set n := p.size.getD 512 with hndef
  have hN := normalise_ok hm hM hmM
  have hmono : Monotone (fun x => nearest t.1 t.2 (scaled m M x)) := fun x y h => nearest_mono _ _ (scaled_mono hmM h)
  have h1 := isMinOf_map hmono hm
  have h2 := isMaxOf_map hmono hM
  simp only [scaled_min, scaled_max hmM, nearest_zero ht1, nearest_one ht' ht0] at h1 h2
  have hcl : max t.1 0 < min t.2 1 := max_lt (lt_min ht' ht0) (lt_min ht1 one_pos)
  have hN2 := normalise_ok h1 h2 hcl
  have hfield : scalarField { p with
      size := some n, min := some (p.min.getD (-10)), max := some (p.max.getD 10),
      thresholds := some t, multiplier := some (p.multiplier.getD 1), offset := some (p.offset.getD 0) } raw
      = .ok (raw.map (fun x => Datum.num (some (smooth m M t.1 t.2 (max t.1 0) (min t.2 1) (p.min.getD (-10))
        (p.max.getD 10) (p.multiplier.getD 1) (p.offset.getD 0) x)))) := by
    have e1 : (raw.map (fun x => some (scaled m M x))).map (clip t)
        = (raw.map (fun x => nearest t.1 t.2 (scaled m M x))).map some := by
      simp only [List.map_map]
      apply List.map_congr_left
      intro x _
      simp only [Function.comp, clip_some ht']
    simp only [scalarField, hN, hp, Shape.attr, toScalar, e1, hN2, bind, Except.bind, pure, Except.pure,
      Bool.false_eq_true, if_false]
    simp only [List.map_map]
    congr 1
    apply List.map_congr_left
    intro x _
    simp only [Function.comp, Option.map_some, smooth, scaled, Datum.num.injEq, Option.some.injEq]
    ring
  have hld : loadScalar p raw b = Shape.toXarray (Shape.rows n n (Shape.linspace b.latMin b.latMax n)
      (Shape.linspace b.longMin b.longMax n) (entry n (raw.map (fun x => Datum.num (some (smooth m M t.1 t.2 (max t.1 0)
        (min t.2 1) (p.min.getD (-10)) (p.max.getD 10) (p.multiplier.getD 1) (p.offset.getD 0) x)))))) := by
    have e0 : addDefaults p = .ok { p with
        size := some n, min := some (p.min.getD (-10)), max := some (p.max.getD 10),
        thresholds := some t, multiplier := some (p.multiplier.getD 1), offset := some (p.offset.getD 0) } := by
      simp [addDefaults, hp, ht, hndef]
    simp only [loadScalar, e0, bind, Except.bind, importScalar, hfield, Shape.attr]
  obtain ⟨l, g1, g2, g3, g4, _⟩ := grid_sites (b := b) (n := n) (entry n (raw.map (fun x => Datum.num (some (smooth m M t.1 t.2
    (max t.1 0) (min t.2 1) (p.min.getD (-10)) (p.max.getD 10) (p.multiplier.getD 1) (p.offset.getD 0) x))))) hla hlo hn
  refine ⟨l, hld.trans g1, g2, g3, ?_⟩
  intro i hi j hj
  obtain ⟨r, hr, hs, hv⟩ := g4 i hi j hj
  refine ⟨r, hr, hs, ?_⟩
  rw [hv, entry_map hraw hi hj]
  rfl

/-- **C70.**  All values of a smooth field lie between `min` and `max` (multiplied and offset), and both ends
are attained.  (Partial, as before.) -/
theorem C70_range_partial {p : Params} {raw : List ℚ} {b : Boundary} {m M : ℚ} {t : ℚ × ℚ}
    (hp : p.binary = some false) (hn : 2 ≤ p.size.getD 512) (hraw : raw.length = p.size.getD 512 * p.size.getD 512)
    (hla : b.latMin < b.latMax) (hlo : b.longMin < b.longMax) (hm : IsMinOf raw m) (hM : IsMaxOf raw M) (hmM : m < M)
    (ht : t = p.thresholds.getD (0, 1)) (ht' : t.1 < t.2) (ht0 : t.1 < 1) (ht1 : 0 < t.2) :
    ∃ l, loadScalar p raw b = .ok l ∧
      (∀ r ∈ l, ∃ u : ℚ, 0 ≤ u ∧ u ≤ 1 ∧ r.val = .num (some (p.multiplier.getD 1 *
        (p.min.getD (-10) + (p.max.getD 10 - p.min.getD (-10)) * u) + p.offset.getD 0))) ∧
      (∃ r ∈ l, r.val = .num (some (p.multiplier.getD 1 * p.min.getD (-10) + p.offset.getD 0))) ∧
      (∃ r ∈ l, r.val = .num (some (p.multiplier.getD 1 * p.max.getD 10 + p.offset.getD 0))) := by
  obtain ⟨l, h1, ⟨h2, h2'⟩, h3, h4⟩ := C70_scalar_partial hp hn hraw hla hlo hm hM hmM ht ht' ht0 ht1
  have hcl : max t.1 0 < min t.2 1 := max_lt (lt_min ht' ht0) (lt_min ht1 one_pos)
  have hz := nearest_zero (t0 := t.1) ht1
  have ho := nearest_one ht' ht0
  have hdiv : 0 < min t.2 1 - max t.1 0 := by linarith
  refine ⟨l, h1, ?_, ?_, ?_⟩
  · intro r hr
    obtain ⟨i, hi, j, hj, e1, e2⟩ := h2 r hr
    obtain ⟨r', hr', ⟨s1, s2⟩, hv⟩ := h4 i hi j hj
    have hc := h2' i hi j hj
    have hrr : r = r' := by
      obtain ⟨a, ha⟩ := List.length_eq_one_iff.1 ((List.countP_eq_length_filter ..).symm.trans hc)
      have ma : r ∈ [a] := by rw [← ha]; exact List.mem_filter.2 ⟨hr, by simp [e1, e2]⟩
      have mb : r' ∈ [a] := by rw [← ha]; exact List.mem_filter.2 ⟨hr', by simp [s1, s2]⟩
      rw [List.mem_singleton.1 ma, List.mem_singleton.1 mb]
    subst hrr
    have hx : raw.getD (i * p.size.getD 512 + j) 0 ∈ raw := entry_mem (l := raw) hraw hi hj
    obtain ⟨q1, q2⟩ := scaled_range hmM (hm.2 _ hx) (hM.2 _ hx)
    have g1 := nearest_mono t.1 t.2 q1
    have g2 := nearest_mono t.1 t.2 q2
    rw [hz] at g1
    rw [ho] at g2
    refine ⟨_, div_nonneg (sub_nonneg.2 g1) hdiv.le, (div_le_one hdiv).2 (by linarith), ?_⟩
    rw [hv]
    rfl
  · obtain ⟨i, hi, j, hj, e⟩ := mem_entry hraw hm.1
    obtain ⟨r, hr, _, hv⟩ := h4 i hi j hj
    have e' : raw.getD (i * p.size.getD 512 + j) 0 = m := e
    refine ⟨r, hr, ?_⟩
    rw [hv, e', smooth, scaled_min, hz]
    simp
  · obtain ⟨i, hi, j, hj, e⟩ := mem_entry hraw hM.1
    obtain ⟨r, hr, _, hv⟩ := h4 i hi j hj
    have e' : raw.getD (i * p.size.getD 512 + j) 0 = M := e
    refine ⟨r, hr, ?_⟩
    rw [hv, e', smooth, scaled_max hmM, ho, div_self hdiv.ne']
    simp

/-- **C70.**  A binary field is true exactly where the scaled entry reaches the threshold (by default where
the entry is in the upper half of the range); `min` and `max` play no part.  (Partial, as before.) -/
theorem C70_binary_partial {p : Params} {raw : List ℚ} {b : Boundary} {m M : ℚ}
    (hp : p.binary = some true) (hn : 2 ≤ p.size.getD 512) (hraw : raw.length = p.size.getD 512 * p.size.getD 512)
    (hla : b.latMin < b.latMax) (hlo : b.longMin < b.longMax) (hm : IsMinOf raw m) (hM : IsMaxOf raw M) (hmM : m < M) :
    ∃ l, loadScalar p raw b = .ok l ∧
      OnLattice b (p.size.getD 512) (p.size.getD 512) ((p.size.getD 512 : ℕ) - 1) ((p.size.getD 512 : ℕ) - 1) l ∧ InBox b l ∧
      ∀ i < p.size.getD 512, ∀ j < p.size.getD 512, ∃ r ∈ l, AtSite b (p.size.getD 512) i j r ∧
        ∃ v, r.val = .bool v ∧ (v = true ↔ m + p.threshold.getD (1 / 2) * (M - m) ≤ raw.getD (i * p.size.getD 512 + j) 0) := by
  set n := p.size.getD 512 with hndef
  have hN := normalise_ok hm hM hmM
  set t := p.threshold.getD (1 / 2) with htdef
  have hfield : scalarField { p with
      size := some n, min := some (p.min.getD 0), max := some (p.max.getD 1), threshold := some t } raw
      = .ok (raw.map (fun x => Datum.bool (toBinary t (some (scaled m M x))))) := by
    simp only [scalarField, hN, hp, Shape.attr, bind, Except.bind, pure, Except.pure, if_true, List.map_map]
    rfl
  have hld : loadScalar p raw b = Shape.toXarray (Shape.rows n n (Shape.linspace b.latMin b.latMax n)
      (Shape.linspace b.longMin b.longMax n) (entry n (raw.map (fun x => Datum.bool (toBinary t (some (scaled m M x))))))) := by
    have e0 : addDefaults p = .ok { p with
        size := some n, min := some (p.min.getD 0), max := some (p.max.getD 1), threshold := some t } := by
      simp [addDefaults, hp, htdef, hndef]
    simp only [loadScalar, e0, bind, Except.bind, importScalar, hfield, Shape.attr]
  obtain ⟨l, g1, g2, g3, g4, _⟩ := grid_sites (b := b) (n := n)
    (entry n (raw.map (fun x => Datum.bool (toBinary t (some (scaled m M x)))))) hla hlo hn
  refine ⟨l, hld.trans g1, g2, g3, ?_⟩
  intro i hi j hj
  obtain ⟨r, hr, hs, hv⟩ := g4 i hi j hj
  have hx : raw.getD (i * n + j) 0 ∈ raw := entry_mem (l := raw) hraw hi hj
  refine ⟨r, hr, hs, toBinary t (some (scaled m M (raw.getD (i * n + j) 0))), ?_, ?_⟩
  · rw [hv, entry_map hraw hi hj]
    rfl
  · rw [toBinary_some (scaled_range hmM (hm.2 _ hx) (hM.2 _ hx)).2, decide_eq_true_iff, scaled,
      le_div_iff₀ (by linarith)]
    constructor <;> intro h <;> linarith

/-- **C70.**  Where the thresholds cut off the whole range the smooth field is NaN everywhere. -/
theorem C70_cut_off_false {p : Params} {raw : List ℚ} {b : Boundary} {m M : ℚ} {t : ℚ × ℚ}
    (hp : p.binary = some false) (hraw : raw.length = p.size.getD 512 * p.size.getD 512)
    (hm : IsMinOf raw m) (hM : IsMaxOf raw M) (hmM : m < M)
    (ht : t = p.thresholds.getD (0, 1)) (ht' : t.1 < t.2) (hcut : 1 ≤ t.1 ∨ t.2 ≤ 0) {l : List (Row Datum)}
    (hl : loadScalar p raw b = .ok l) : ∀ r ∈ l, r.val = .num none := by
  set n := p.size.getD 512 with hndef
  have hN := normalise_ok hm hM hmM
  have hne : raw ≠ [] := by rintro rfl; exact absurd hm.1 (by simp)
  have hflat : normalise ((raw.map (fun x => nearest t.1 t.2 (scaled m M x))).map some)
      = .ok ((raw.map (fun x => nearest t.1 t.2 (scaled m M x))).map (fun _ => none)) := by
    refine normalise_flat (c := if 1 ≤ t.1 then t.1 else t.2) (by simpa using hne) ?_
    intro y hy
    obtain ⟨x, hx, rfl⟩ := List.mem_map.1 hy
    obtain ⟨q1, q2⟩ := scaled_range hmM (hm.2 _ hx) (hM.2 _ hx)
    unfold nearest
    by_cases h : 1 ≤ t.1
    · rw [if_pos h, max_eq_left ((min_le_right _ _).trans (q2.trans h))]
    · rw [if_neg h]
      have h2 := hcut.resolve_left h
      rw [min_eq_left (h2.trans q1), max_eq_right ht'.le]
  have e1 : (raw.map (fun x => some (scaled m M x))).map (clip t)
      = (raw.map (fun x => nearest t.1 t.2 (scaled m M x))).map some := by
    simp only [List.map_map]
    apply List.map_congr_left
    intro x _
    simp only [Function.comp, clip_some ht']
  have e0 : addDefaults p = .ok { p with
      size := some n, min := some (p.min.getD (-10)), max := some (p.max.getD 10),
      thresholds := some t, multiplier := some (p.multiplier.getD 1), offset := some (p.offset.getD 0) } := by
    simp [addDefaults, hp, ht, hndef]
  simp only [loadScalar, e0, bind, Except.bind, importScalar, scalarField, hN, hp, Shape.attr, toScalar, e1, hflat,
    pure, Except.pure, Bool.false_eq_true, if_false] at hl
  simp only [List.map_map] at hl
  have hl' := hl
  unfold Shape.toXarray at hl'
  split at hl' <;> simp only [Except.ok.injEq, reduceCtorEq] at hl'
  subst hl'
  intro r hr
  obtain ⟨i, hi, j, hj, rfl⟩ := mem_shape_rows.1 hr
  simp only []
  rw [entry_map hraw hi hj]
  rfl

/-- **C70.**  A field of one value (so every field of size 1) gives NaN everywhere, or `False` when binary. -/
theorem C70_flat_false {p : Params} {raw : List ℚ} {b : Boundary} {c : ℚ}
    (hraw : raw.length = p.size.getD 512 * p.size.getD 512) (hne : raw ≠ []) (hc : ∀ x ∈ raw, x = c)
    {l : List (Row Datum)} (hl : loadScalar p raw b = .ok l) :
    ∀ r ∈ l, r.val = if p.binary = some true then .bool false else .num none := by
  have hN := normalise_flat hne hc
  intro r hr
  rcases hp : p.binary with _ | (_ | _)
  · simp [loadScalar, addDefaults, hp, bind, Except.bind] at hl
  · have e1 : normalise ((raw.map (fun _ => (none : Option ℚ))).map (clip (p.thresholds.getD (0, 1))))
        = .ok (((raw.map (fun _ => (none : Option ℚ))).map (clip (p.thresholds.getD (0, 1)))).map (fun _ => none)) := by
      apply normalise_nan
      · simpa using hne
      · obtain ⟨a, ha⟩ := List.exists_mem_of_ne_nil raw hne
        simp only [List.map_map, List.mem_map]
        exact ⟨a, ha, rfl⟩
    simp only [loadScalar, addDefaults, hp, bind, Except.bind, importScalar, scalarField, hN, Shape.attr, toScalar, e1,
      pure, Except.pure, Bool.false_eq_true, if_false] at hl
    simp only [List.map_map] at hl
    unfold Shape.toXarray at hl
    split at hl <;> simp only [Except.ok.injEq, reduceCtorEq] at hl
    subst hl
    obtain ⟨i, hi, j, hj, rfl⟩ := mem_shape_rows.1 hr
    simp only []
    rw [entry_map hraw hi hj]
    rfl
  · simp only [loadScalar, addDefaults, hp, bind, Except.bind, importScalar, scalarField, hN, Shape.attr,
      pure, Except.pure, if_true] at hl
    simp only [List.map_map] at hl
    unfold Shape.toXarray at hl
    split at hl <;> simp only [Except.ok.injEq, reduceCtorEq] at hl
    subst hl
    obtain ⟨i, hi, j, hj, rfl⟩ := mem_shape_rows.1 hr
    simp only []
    rw [entry_map hraw hi hj]
    rfl

/-- **C70.**  Without the key `binary` the loader cannot be built. -/
theorem C70_binary_raises {p : Params} {raw : List ℚ} {b : Boundary} (hp : p.binary = none) :
    loadScalar p raw b = .error .keyError := by
  simp [loadScalar, addDefaults, hp, bind, Except.bind]

theorem grid_circle {V : Type} {b : Boundary} {n : ℕ} (d : ℕ → ℕ → V) (hlo : b.longMin = b.longMax) (hn : 2 ≤ n) :
    Shape.toXarray (Shape.rows n n (Shape.linspace b.latMin b.latMax n) (Shape.linspace b.longMin b.longMax n) d)
      = .error .valueError := by
  unfold Shape.toXarray
  rw [if_neg]
  intro h
  obtain ⟨k, rfl⟩ : ∃ k, n = k + 2 := ⟨n - 2, by omega⟩
  have e : ∀ j, Shape.linspace b.longMin b.longMax (k + 2) j = b.longMax := by
    intro j; simp [Shape.linspace, hlo]
  simp only [Shape.rows, e] at h
  rw [List.map_flatMap, List.nodup_flatMap] at h
  have h1 := h.1 0 (List.mem_range.2 (by omega))
  rw [List.map_map] at h1
  have : (0 : ℕ) = 1 := by
    have h0 : (0 : ℕ) ∈ List.range (k + 2) := List.mem_range.2 (by omega)
    have h1' : (1 : ℕ) ∈ List.range (k + 2) := List.mem_range.2 (by omega)
    exact List.inj_on_of_nodup_map h1 h0 h1' rfl
  omega

theorem normalise_total {l : List (Option ℚ)} (h : l ≠ []) : ∃ f : Option ℚ → Option ℚ, normalise l = .ok (l.map f) := by
  by_cases hn : none ∈ l
  · exact ⟨fun _ => none, normalise_nan h hn⟩
  · have hl : l = (present l).map some := by
      unfold present
      induction l with
      | nil => rfl
      | cons a t ih =>
        rcases a with _ | a
        · exact absurd (List.mem_cons_self ..) hn
        · have hn' : none ∉ t := fun h => hn (List.mem_cons_of_mem _ h)
          by_cases ht : t = []
          · subst ht; rfl
          · have := ih ht hn'
            rw [List.filterMap_cons_some (f := id) (b := a) rfl, List.map_cons, ← this]
    have hp : present l ≠ [] := by
      intro e
      rw [e] at hl
      exact h hl
    rcases h1 : listMin (present l) with _ | m
    · exact absurd ((listMin_spec _).1.1 h1) hp
    rcases h2 : listMax (present l) with _ | M
    · exact absurd ((listMax_spec _).1.1 h2) hp
    have hm := ((listMin_spec _).2 m).1 h1
    have hM := ((listMax_spec _).2 M).1 h2
    refine ⟨fun x => x.bind (fun x => if M - m = 0 then none else some ((x - m) / (M - m))), ?_⟩
    rw [hl, normalise_eq hm hM]
    simp

/-- Whatever the parameters, the loader puts some function of the raw entries on the grid. -/
theorem loadScalar_form {p : Params} {raw : List ℚ} {b : Boundary} (hp : p.binary ≠ none) (hne : raw ≠ []) :
    ∃ f : ℚ → Datum, loadScalar p raw b = Shape.toXarray (Shape.rows (p.size.getD 512) (p.size.getD 512)
      (Shape.linspace b.latMin b.latMax (p.size.getD 512)) (Shape.linspace b.longMin b.longMax (p.size.getD 512))
      (entry (p.size.getD 512) (raw.map f))) := by
  obtain ⟨f, hf⟩ := normalise_total (l := raw.map some) (by simpa using hne)
  rcases h : p.binary with _ | (_ | _)
  · exact absurd h hp
  · obtain ⟨g, hg⟩ := normalise_total (l := ((raw.map some).map f).map (clip (p.thresholds.getD (0, 1)))) (by simpa using hne)
    refine ⟨fun x => .num (((g (clip (p.thresholds.getD (0, 1)) (f (some x)))).map (fun x => x * (p.max.getD 10 - p.min.getD (-10)) +
      p.min.getD (-10))).map (fun x => p.multiplier.getD 1 * x + p.offset.getD 0)), ?_⟩
    simp only [loadScalar, addDefaults, h, bind, Except.bind, importScalar, scalarField, hf, hg, Shape.attr, toScalar,
      pure, Except.pure, Bool.false_eq_true, if_false]
    simp only [List.map_map]
    rfl
  · refine ⟨fun x => .bool (toBinary (p.threshold.getD (1 / 2)) (f (some x))), ?_⟩
    simp only [loadScalar, addDefaults, h, bind, Except.bind, importScalar, scalarField, hf, Shape.attr,
      pure, Except.pure, if_true]
    simp only [List.map_map]
    rfl

/-- **C70.**  For the full circle (`long_min = long_max`) the field cannot be put on a grid. -/
theorem C70_circle_raises {p : Params} {raw : List ℚ} {b : Boundary} (hp : p.binary ≠ none) (hn : 2 ≤ p.size.getD 512)
    (hne : raw ≠ []) (hlo : b.longMin = b.longMax) : loadScalar p raw b = .error .valueError := by
  obtain ⟨f, hf⟩ := loadScalar_form (b := b) hp hne
  rw [hf]
  exact grid_circle _ hlo hn

/-- **C70.**  For a region crossing the antimeridian all inner columns of the field lie outside the region. -/
theorem C70_crossing_false {p : Params} {raw : List ℚ} {b : Boundary} {l : List (Row Datum)} (hp : p.binary ≠ none)
    (hn : 2 ≤ p.size.getD 512) (hne : raw ≠ []) (hlo : b.longMax < b.longMin) (h : loadScalar p raw b = .ok l) :
    ∀ i < p.size.getD 512, ∀ j, 0 < j → j + 1 < p.size.getD 512 →
      ∃ r ∈ l, AtSite b (p.size.getD 512) i j r ∧ b.longMax < r.long ∧ r.long < b.longMin := by
  set n := p.size.getD 512 with hndef
  obtain ⟨f, hf⟩ := loadScalar_form (b := b) hp hne
  rw [hf] at h
  unfold Shape.toXarray at h
  split at h <;> simp only [Except.ok.injEq, reduceCtorEq] at h
  subst h
  intro i hi j hj0 hj
  refine ⟨_, mem_shape_rows.2 ⟨i, hi, j, by omega, rfl⟩, ⟨Verif.linspace_step hn i, Verif.linspace_step hn j⟩, ?_⟩
  have hn' : (0 : ℚ) < (n : ℚ) - 1 := by
    have : (2 : ℚ) ≤ n := by exact_mod_cast hn
    linarith
  have hs := linspace_step (lo := b.longMin) (hi := b.longMax) hn j
  have hj0' : (0 : ℚ) < j := by exact_mod_cast hj0
  have hj1 : (j : ℚ) < (n : ℚ) - 1 := by
    have : (j : ℚ) + 1 < n := by exact_mod_cast hj
    linarith
  simp only []
  constructor
  · by_contra hc
    have hc := not_lt.1 hc
    have h1 : (Shape.linspace b.longMin b.longMax n j - b.longMin) * ((n : ℚ) - 1) ≤ (b.longMax - b.longMin) * ((n : ℚ) - 1) :=
      mul_le_mul_of_nonneg_right (by linarith) hn'.le
    rw [hs] at h1
    nlinarith
  · by_contra hc
    have hc := not_lt.1 hc
    have h1 : 0 ≤ (Shape.linspace b.longMin b.longMax n j - b.longMin) * ((n : ℚ) - 1) :=
      mul_nonneg (by linarith) hn'.le
    rw [hs] at h1
    nlinarith

/-- A box. -/
def exGrfBox : Boundary where
  latMin := -70
  latMax := -60
  longMin := 0
  longMax := 10
  time := []

/-- A box crossing the antimeridian. -/
def exGrfCross : Boundary where
  latMin := -70
  latMax := -60
  longMin := 170
  longMax := -170
  time := []

/-- A raw field of size 2 meets the hypotheses; its smooth and binary fields. -/
example : IsMinOf [1, 5, 3, 2] 1 ∧ IsMaxOf [1, 5, 3, 2] 5 ∧ (1 : ℚ) < 5 ∧
    loadScalar { binary := some false, size := some 2 } [1, 5, 3, 2] exGrfBox
      = .ok [⟨-70, 0, 0, .num (some (-10))⟩, ⟨-70, 10, 0, .num (some 10)⟩, ⟨-60, 0, 0, .num (some 0)⟩, ⟨-60, 10, 0, .num (some (-5))⟩] ∧
    loadScalar { binary := some false, size := some 2, thresholds := some (1/2, 3), min := some 0, max := some 8, offset := some 1 }
        [1, 5, 3, 2] exGrfBox
      = .ok [⟨-70, 0, 0, .num (some 1)⟩, ⟨-70, 10, 0, .num (some 9)⟩, ⟨-60, 0, 0, .num (some 1)⟩, ⟨-60, 10, 0, .num (some 1)⟩] ∧
    loadScalar { binary := some true, size := some 2 } [1, 5, 3, 2] exGrfBox
      = .ok [⟨-70, 0, 0, .bool false⟩, ⟨-70, 10, 0, .bool true⟩, ⟨-60, 0, 0, .bool true⟩, ⟨-60, 10, 0, .bool false⟩] := by
  refine ⟨by simp [IsMinOf], ⟨by simp, by simp; norm_num⟩, by norm_num, by decide +kernel, by decide +kernel, by decide +kernel⟩

/-- The cases that go wrong happen: thresholds above the range, one value only, and the wrong side of the globe. -/
example :
    loadScalar { binary := some false, size := some 2, thresholds := some (2, 3) } [1, 5, 3, 2] exGrfBox
      = .ok [⟨-70, 0, 0, .num none⟩, ⟨-70, 10, 0, .num none⟩, ⟨-60, 0, 0, .num none⟩, ⟨-60, 10, 0, .num none⟩] ∧
    loadScalar { binary := some false, size := some 1 } [1] exGrfBox = .ok [⟨-70, 0, 0, .num none⟩] ∧
    (loadScalar { binary := some true, size := some 3 } [1, 5, 3, 2, 1, 4, 1, 1, 2] exGrfCross).toOption.map
      (List.map Row.long) = some [170, 0, -170, 170, 0, -170, 170, 0, -170] := by
  refine ⟨by decide +kernel, by decide +kernel, by decide +kernel⟩

/-! ## C71 -/

/-- **C71.**  A random vector field: every site of the lattice spanning the box holds a vector whose bearing
(clockwise from north) is the scaled entry of the second field times the full turn, and whose length is the scaled
entry of the first mapped to `[min, max]`.  (Partial: missing are fields of one value and regions over the antimeridian,
`C71_flat_false` and `C71_crossing_false`.) -/
theorem C71_vector_partial {size : Option ℕ} {lo? hi? : Option ℚ} {rawM rawD : List ℚ} {b : Boundary} {m M m' M' : ℚ}
    (hn : 2 ≤ size.getD 512) (hrawM : rawM.length = size.getD 512 * size.getD 512)
    (hrawD : rawD.length = size.getD 512 * size.getD 512)
    (hla : b.latMin < b.latMax) (hlo : b.longMin < b.longMax) (hm : IsMinOf rawM m) (hM : IsMaxOf rawM M) (hmM : m < M)
    (hm' : IsMinOf rawD m') (hM' : IsMaxOf rawD M') (hmM' : m' < M') :
    ∃ l, loadVector size lo? hi? rawM rawD b = .ok l ∧
      OnLattice b (size.getD 512) (size.getD 512) ((size.getD 512 : ℕ) - 1) ((size.getD 512 : ℕ) - 1) l ∧ InBox b l ∧
      ∀ i < size.getD 512, ∀ j < size.getD 512, ∃ r ∈ l, AtSite b (size.getD 512) i j r ∧
        ∃ x y : ℝ, r.val = some (x, y) ∧
          ∃ μ : ℚ, μ * (M - m) = lo?.getD 0 * (M - m) + (rawM.getD (i * size.getD 512 + j) 0 - m) * (hi?.getD 10 - lo?.getD 0) ∧
          ∃ θ : ℝ, θ * (M' - m') = 2 * Real.pi * (rawD.getD (i * size.getD 512 + j) 0 - m') ∧
            x = μ * Real.sin θ ∧ y = μ * Real.cos θ := by
  set n := size.getD 512 with hndef
  obtain ⟨l, g1, g2, g3, g4, _⟩ := grid_sites (b := b) (n := n)
    (fun i j => vectorEntry (lo?.getD 0) (hi?.getD 10) (entry n (rawM.map (fun x => some (scaled m M x))) i j)
      (entry n (rawD.map (fun x => some (scaled m' M' x))) i j)) hla hlo hn
  refine ⟨l, ?_, g2, g3, ?_⟩
  · simp only [loadVector, normalise_ok hm hM hmM, normalise_ok hm' hM' hmM', bind, Except.bind]
    exact g1
  · intro i hi j hj
    obtain ⟨r, hr, hs, hv⟩ := g4 i hi j hj
    have h1 : 0 < M - m := by linarith
    have h2 : (0 : ℝ) < (M' : ℝ) - m' := by
      have : (m' : ℝ) < M' := by exact_mod_cast hmM'
      linarith
    refine ⟨r, hr, hs, _, _, ?_, scaled m M (rawM.getD (i * n + j) 0) * (hi?.getD 10 - lo?.getD 0) + lo?.getD 0, ?_,
      direction (scaled m' M' (rawD.getD (i * n + j) 0)), ?_, rfl, rfl⟩
    · rw [hv, entry_map hrawM hi hj, entry_map hrawD hi hj]
      simp only [vectorEntry, toVector, Option.some.injEq, Prod.mk.injEq]
      push_cast
      constructor
      · rw [mul_comm]; rfl
      · rw [mul_comm]; rfl
    · unfold scaled
      field_simp
      ring
    · unfold direction scaled
      push_cast
      field_simp
      ring

/-- **C71.**  If one of the fields has one value only, all vectors are missing. -/
theorem C71_flat_false {size : Option ℕ} {lo? hi? : Option ℚ} {rawM rawD : List ℚ} {b : Boundary} {c : ℚ}
    (hrawM : rawM.length = size.getD 512 * size.getD 512) (hrawD : rawD.length = size.getD 512 * size.getD 512)
    (hne : rawM ≠ []) (hc : (∀ x ∈ rawM, x = c) ∨ ∀ x ∈ rawD, x = c) {l : List (Row (Option (ℝ × ℝ)))}
    (hl : loadVector size lo? hi? rawM rawD b = .ok l) : ∀ r ∈ l, r.val = none := by
  have hne' : rawD ≠ [] := by
    intro e
    rw [e] at hrawD
    exact hne (List.length_eq_zero_iff.1 (hrawM.trans hrawD.symm))
  obtain ⟨f, hf⟩ := normalise_total (l := rawM.map some) (by simpa using hne)
  obtain ⟨g, hg⟩ := normalise_total (l := rawD.map some) (by simpa using hne')
  intro r hr
  have key : ∀ i < size.getD 512, ∀ j < size.getD 512, ∀ M D, normalise (rawM.map some) = .ok M →
      normalise (rawD.map some) = .ok D →
      vectorEntry (lo?.getD 0) (hi?.getD 10) (entry (size.getD 512) M i j) (entry (size.getD 512) D i j) = none := by
    intro i hi j hj M D hM hD
    rcases hc with hc | hc
    · rw [normalise_flat hne hc, Except.ok.injEq] at hM
      subst hM
      rw [entry_map hrawM hi hj]
      rfl
    · rw [normalise_flat hne' hc, Except.ok.injEq] at hD
      subst hD
      rw [entry_map hrawD hi hj]
      cases entry (size.getD 512) M i j <;> rfl
  simp only [loadVector, hf, hg, bind, Except.bind] at hl
  unfold Shape.toXarray at hl
  split at hl <;> simp only [Except.ok.injEq, reduceCtorEq] at hl
  subst hl
  obtain ⟨i, hi, j, hj, rfl⟩ := mem_shape_rows.1 hr
  exact key i hi j hj _ _ hf hg

/-- **C71.**  For the full circle (`long_min = long_max`) the vectors cannot be put on a grid. -/
theorem C71_circle_raises {size : Option ℕ} {lo? hi? : Option ℚ} {rawM rawD : List ℚ} {b : Boundary}
    (hn : 2 ≤ size.getD 512) (hneM : rawM ≠ []) (hneD : rawD ≠ []) (hlo : b.longMin = b.longMax) :
    loadVector size lo? hi? rawM rawD b = .error .valueError := by
  obtain ⟨f, hf⟩ := normalise_total (l := rawM.map some) (by simpa using hneM)
  obtain ⟨g, hg⟩ := normalise_total (l := rawD.map some) (by simpa using hneD)
  simp only [loadVector, hf, hg, bind, Except.bind]
  exact grid_circle _ hlo hn

/-- **C71.**  For a region crossing the antimeridian all inner columns of the vectors lie outside the region. -/
theorem C71_crossing_false {size : Option ℕ} {lo? hi? : Option ℚ} {rawM rawD : List ℚ} {b : Boundary}
    (hn : 2 ≤ size.getD 512) (hneM : rawM ≠ []) (hneD : rawD ≠ []) (hlo : b.longMax < b.longMin)
    {l : List (Row (Option (ℝ × ℝ)))} (h : loadVector size lo? hi? rawM rawD b = .ok l) :
    ∀ i < size.getD 512, ∀ j, 0 < j → j + 1 < size.getD 512 →
      ∃ r ∈ l, AtSite b (size.getD 512) i j r ∧ b.longMax < r.long ∧ r.long < b.longMin := by
  set n := size.getD 512 with hndef
  obtain ⟨f, hf⟩ := normalise_total (l := rawM.map some) (by simpa using hneM)
  obtain ⟨g, hg⟩ := normalise_total (l := rawD.map some) (by simpa using hneD)
  simp only [loadVector, hf, hg, bind, Except.bind] at h
  unfold Shape.toXarray at h
  split at h <;> simp only [Except.ok.injEq, reduceCtorEq] at h
  subst h
  intro i hi j hj0 hj
  refine ⟨_, mem_shape_rows.2 ⟨i, hi, j, by omega, rfl⟩, ⟨Verif.linspace_step hn i, Verif.linspace_step hn j⟩, ?_⟩
  have hn' : (0 : ℚ) < (n : ℚ) - 1 := by
    have : (2 : ℚ) ≤ n := by exact_mod_cast hn
    linarith
  have hs := linspace_step (lo := b.longMin) (hi := b.longMax) hn j
  have hj0' : (0 : ℚ) < j := by exact_mod_cast hj0
  have hj1 : (j : ℚ) < (n : ℚ) - 1 := by
    have : (j : ℚ) + 1 < n := by exact_mod_cast hj
    linarith
  simp only []
  constructor
  · by_contra hc
    have hc := not_lt.1 hc
    have h1 : (Shape.linspace b.longMin b.longMax n j - b.longMin) * ((n : ℚ) - 1) ≤ (b.longMax - b.longMin) * ((n : ℚ) - 1) :=
      mul_le_mul_of_nonneg_right (by linarith) hn'.le
    rw [hs] at h1
    nlinarith
  · by_contra hc
    have hc := not_lt.1 hc
    have h1 : 0 ≤ (Shape.linspace b.longMin b.longMax n j - b.longMin) * ((n : ℚ) - 1) :=
      mul_nonneg (by linarith) hn'.le
    rw [hs] at h1
    nlinarith

/-- Two fields of size 2, one of them with one value, a full circle, and two fields of size 3 with a region over the antimeridian
meet the hypotheses. -/
example : ([1, 5, 3, 2] : List ℚ).length = (some 2).getD 512 * (some 2).getD 512 ∧ (∀ x ∈ ([4, 4, 4, 4] : List ℚ), x = 4) ∧
    2 ≤ (some 3).getD 512 ∧ exGrfCross.longMax < exGrfCross.longMin ∧ (0 < 1 ∧ 1 + 1 < (some 3).getD 512) := by decide +kernel
example : ∃ l, loadVector (some 2) none none [4, 4, 4, 4] [1, 5, 3, 2] exGrfBox = .ok l ∧ ∀ r ∈ l, r.val = none := by
  obtain ⟨f, hf⟩ := normalise_total (l := ([4, 4, 4, 4] : List ℚ).map some) (by simp)
  obtain ⟨g, hg⟩ := normalise_total (l := ([1, 5, 3, 2] : List ℚ).map some) (by simp)
  obtain ⟨l, hl, _⟩ := grid_sites (b := exGrfBox) (n := 2) (fun i j => vectorEntry 0 10
    (entry 2 ((([4, 4, 4, 4] : List ℚ).map some).map f) i j) (entry 2 ((([1, 5, 3, 2] : List ℚ).map some).map g) i j))
    (by decide +kernel) (by decide +kernel) (le_refl 2)
  have h : loadVector (some 2) none none [4, 4, 4, 4] [1, 5, 3, 2] exGrfBox = .ok l := by
    simp only [loadVector, hf, hg, bind, Except.bind]
    exact hl
  exact ⟨l, h, C71_flat_false (c := 4) rfl rfl (by simp) (Or.inl (by simp)) h⟩

/-- **C71.**  With `0 ≤ min ≤ max` all lengths lie in `[min, max]`, and both ends are attained.  (Partial, as before.) -/
theorem C71_lengths_partial {size : Option ℕ} {lo? hi? : Option ℚ} {rawM rawD : List ℚ} {b : Boundary} {m M m' M' : ℚ}
    (hn : 2 ≤ size.getD 512) (hrawM : rawM.length = size.getD 512 * size.getD 512)
    (hrawD : rawD.length = size.getD 512 * size.getD 512)
    (hla : b.latMin < b.latMax) (hlo : b.longMin < b.longMax) (hm : IsMinOf rawM m) (hM : IsMaxOf rawM M) (hmM : m < M)
    (hm' : IsMinOf rawD m') (hM' : IsMaxOf rawD M') (hmM' : m' < M') (h0 : 0 ≤ lo?.getD 0) (h1 : lo?.getD 0 ≤ hi?.getD 10) :
    ∃ l, loadVector size lo? hi? rawM rawD b = .ok l ∧
      (∀ r ∈ l, ∃ x y : ℝ, r.val = some (x, y) ∧
        ((lo?.getD 0 : ℚ) : ℝ) ≤ Real.sqrt (x ^ 2 + y ^ 2) ∧ Real.sqrt (x ^ 2 + y ^ 2) ≤ ((hi?.getD 10 : ℚ) : ℝ)) ∧
      (∃ r ∈ l, ∃ x y : ℝ, r.val = some (x, y) ∧ Real.sqrt (x ^ 2 + y ^ 2) = ((lo?.getD 0 : ℚ) : ℝ)) ∧
      (∃ r ∈ l, ∃ x y : ℝ, r.val = some (x, y) ∧ Real.sqrt (x ^ 2 + y ^ 2) = ((hi?.getD 10 : ℚ) : ℝ)) := by
  obtain ⟨l, e, ⟨h2, h2'⟩, _, h4⟩ := C71_vector_partial (lo? := lo?) (hi? := hi?) hn hrawM hrawD hla hlo hm hM hmM hm' hM' hmM'
  have hd : 0 < M - m := by linarith
  have hlen : ∀ (μ : ℚ) (θ : ℝ), 0 ≤ μ → Real.sqrt (((μ : ℝ) * Real.sin θ) ^ 2 + ((μ : ℝ) * Real.cos θ) ^ 2) = μ := by
    intro μ θ hμ
    have : ((μ : ℝ) * Real.sin θ) ^ 2 + ((μ : ℝ) * Real.cos θ) ^ 2 = (μ : ℝ) ^ 2 := by
      have := Real.sin_sq_add_cos_sq θ
      linear_combination (μ : ℝ) ^ 2 * this
    rw [this]
    exact Real.sqrt_sq (by exact_mod_cast hμ)
  refine ⟨l, e, ?_, ?_, ?_⟩
  · intro r hr
    obtain ⟨i, hi, j, hj, e1, e2⟩ := h2 r hr
    obtain ⟨r', hr', ⟨s1, s2⟩, x, y, hv, μ, hμ, θ, _, rfl, rfl⟩ := h4 i hi j hj
    have hc := h2' i hi j hj
    have hrr : r = r' := by
      obtain ⟨a, ha⟩ := List.length_eq_one_iff.1 ((List.countP_eq_length_filter ..).symm.trans hc)
      have ma : r ∈ [a] := by rw [← ha]; exact List.mem_filter.2 ⟨hr, by simp [e1, e2]⟩
      have mb : r' ∈ [a] := by rw [← ha]; exact List.mem_filter.2 ⟨hr', by simp [s1, s2]⟩
      rw [List.mem_singleton.1 ma, List.mem_singleton.1 mb]
    subst hrr
    have hx : rawM.getD (i * size.getD 512 + j) 0 ∈ rawM := entry_mem (l := rawM) hrawM hi hj
    have b1 := hm.2 _ hx
    have b2 := hM.2 _ hx
    have c1 : lo?.getD 0 ≤ μ := by
      by_contra hcon
      have := mul_lt_mul_of_pos_right (not_le.1 hcon) hd
      nlinarith
    have c2 : μ ≤ hi?.getD 10 := by
      by_contra hcon
      have := mul_lt_mul_of_pos_right (not_le.1 hcon) hd
      nlinarith
    refine ⟨_, _, hv, ?_⟩
    rw [hlen μ θ (h0.trans c1)]
    exact ⟨by exact_mod_cast c1, by exact_mod_cast c2⟩
  · obtain ⟨i, hi, j, hj, e⟩ := mem_entry hrawM hm.1
    have e' : rawM.getD (i * size.getD 512 + j) 0 = m := e
    obtain ⟨r, hr, _, x, y, hv, μ, hμ, θ, _, rfl, rfl⟩ := h4 i hi j hj
    rw [e'] at hμ
    have : μ = lo?.getD 0 := by
      apply mul_right_cancel₀ hd.ne'
      linarith
    refine ⟨r, hr, _, _, hv, ?_⟩
    rw [hlen μ θ (this ▸ h0), this]
  · obtain ⟨i, hi, j, hj, e⟩ := mem_entry hrawM hM.1
    have e' : rawM.getD (i * size.getD 512 + j) 0 = M := e
    obtain ⟨r, hr, _, x, y, hv, μ, hμ, θ, _, rfl, rfl⟩ := h4 i hi j hj
    rw [e'] at hμ
    have : μ = hi?.getD 10 := by
      apply mul_right_cancel₀ hd.ne'
      linarith
    refine ⟨r, hr, _, _, hv, ?_⟩
    rw [hlen μ θ (this ▸ (h0.trans h1)), this]

/-- The hypotheses of `C71_vector_partial` and `C71_lengths_partial` are met by the fields `[1, 5, 3, 2]` and `[0, 1, 2, 4]`. -/
example : ∃ l, loadVector (some 2) none none [1, 5, 3, 2] [0, 1, 2, 4] exGrfBox = .ok l ∧
    ∃ r ∈ l, ∃ x y : ℝ, r.val = some (x, y) ∧ Real.sqrt (x ^ 2 + y ^ 2) = ((10 : ℚ) : ℝ) := by
  obtain ⟨l, h, _, _, h'⟩ := C71_lengths_partial (size := some 2) (lo? := none) (hi? := none) (rawM := [1, 5, 3, 2]) (rawD := [0, 1, 2, 4])
    (b := exGrfBox) (m := 1) (M := 5) (m' := 0) (M' := 4) (by simp) (by simp) (by simp) (by norm_num [exGrfBox])
    (by norm_num [exGrfBox]) (by simp [IsMinOf]) ⟨by simp, by simp; norm_num⟩ (by norm_num) (by simp [IsMinOf])
    ⟨by simp, by simp; norm_num⟩ (by norm_num) (by simp) (by simp)
  exact ⟨l, h, h'⟩

/-! ## C72 -/

theorem fftind_eq {n i j : ℕ} (hi : i < n) (hj : j < n) :
    fftind n 0 i j = (if j < n / 2 then (j : ℤ) else (j : ℤ) - n) ∧ fftind n 1 i j = (if i < n / 2 then (i : ℤ) else (i : ℤ) - n) := by
  have key : ∀ k < n, (((k + (n - n / 2)) % n : ℕ) : ℤ) - ((n + 1) / 2 : ℕ) = if k < n / 2 then (k : ℤ) else (k : ℤ) - n := by
    intro k hk
    have e : n - n / 2 = (n + 1) / 2 := by omega
    rw [e]
    by_cases h : k < n / 2
    · rw [if_pos h, Nat.mod_eq_of_lt (by omega)]
      omega
    · rw [if_neg h]
      have : (k + (n + 1) / 2) % n = k + (n + 1) / 2 - n := by
        rw [Nat.mod_eq_sub_mod (by omega), Nat.mod_eq_of_lt (by omega)]
      rw [this]
      omega
  rw [← key j hj, ← key i hi]
  constructor <;> simp [fftind, centred, shifted]

/-- **C72.**  The momentum indices are frequencies of the Fourier transform: congruent to the array index modulo
the size, with the two axes exchanged; only the corner has frequency zero. -/
theorem C72_frequency {n i j : ℕ} (hn : 2 ≤ n) (hi : i < n) (hj : j < n) :
    fftind n 0 i j ≡ j [ZMOD n] ∧ fftind n 1 i j ≡ i [ZMOD n] ∧ (fftind n 0 i j = 0 ↔ j = 0) ∧ (fftind n 1 i j = 0 ↔ i = 0) := by
  obtain ⟨k0, k1⟩ := fftind_eq hi hj
  rw [k0, k1]
  refine ⟨?_, ?_, ?_, ?_⟩
  · split
    · exact Int.ModEq.refl _
    · exact (Int.modEq_iff_dvd.2 ⟨1, by ring⟩)
  · split
    · exact Int.ModEq.refl _
    · exact (Int.modEq_iff_dvd.2 ⟨1, by ring⟩)
  · clear k0 k1
    split <;> omega
  · clear k0 k1
    split <;> omega

/-- **C72.**  For even sizes the indices are the representatives of least absolute value.  (Partial: missing are odd sizes, for which it
is false, `C72_least_false`.) -/
theorem C72_least_partial {n i j : ℕ} (he : n % 2 = 0) (hi : i < n) (hj : j < n) (k : ℤ) :
    (k ≡ j [ZMOD n] → |fftind n 0 i j| ≤ |k|) ∧ (k ≡ i [ZMOD n] → |fftind n 1 i j| ≤ |k|) := by
  have key : ∀ a < n, k ≡ a [ZMOD n] → |(if a < n / 2 then (a : ℤ) else (a : ℤ) - n)| ≤ |k| := by
    intro a ha h
    obtain ⟨c, hc⟩ := Int.modEq_iff_dvd.1 h
    have hk : k = a - n * c := by linarith
    have hr : 2 * |(if a < n / 2 then (a : ℤ) else (a : ℤ) - n)| ≤ n := by
      split
      · rw [abs_of_nonneg (by omega)]; omega
      · rw [abs_of_nonpos (by omega)]; omega
    by_contra hcon
    have hcon := not_le.1 hcon
    have h2 : 2 * |k| < n := by linarith
    have h3 := abs_lt.1 (show |2 * k| < (n : ℤ) by rw [abs_mul]; simpa using h2)
    have hc0 : c = 0 ∨ c = 1 := by
      have : -1 < c := by
        by_contra hh
        have : (n : ℤ) * c ≤ n * (-1) := mul_le_mul_of_nonneg_left (by omega) (by omega)
        omega
      have : c < 2 := by
        by_contra hh
        have : (n : ℤ) * 2 ≤ n * c := mul_le_mul_of_nonneg_left (by omega) (by omega)
        omega
      omega
    rcases hc0 with rfl | rfl
    · have : k = a := by rw [hk]; ring
      rw [if_pos (by omega)] at hcon
      rw [this] at hcon
      exact lt_irrefl _ hcon
    · have : k = a - n := by rw [hk]; ring
      rw [if_neg (by omega)] at hcon
      rw [this] at hcon
      exact lt_irrefl _ hcon
  obtain ⟨k0, k1⟩ := fftind_eq hi hj
  rw [k0, k1]
  exact ⟨key j hj, key i hi⟩

/-- **C72.**  For odd sizes from 3 on they are not: the middle index gets the frequency `-(n + 1)/2` instead of
`(n - 1)/2`. -/
theorem C72_least_false {m : ℕ} (hm : 1 ≤ m) :
    fftind (2 * m + 1) 0 0 m = -(m + 1) ∧ (m : ℤ) ≡ m [ZMOD (2 * m + 1 : ℕ)] ∧ |(m : ℤ)| < |fftind (2 * m + 1) 0 0 m| := by
  have h := (fftind_eq (n := 2 * m + 1) (i := 0) (j := m) (by omega) (by omega)).1
  rw [if_neg (by omega)] at h
  have h' : fftind (2 * m + 1) 0 0 m = -(m + 1) := by rw [h]; push_cast; ring
  refine ⟨h', Int.ModEq.refl _, ?_⟩
  rw [h', abs_neg, abs_of_nonneg (by omega), abs_of_nonneg (by omega)]
  omega

/-- **C72.**  The amplitude is zero at the corner, positive elsewhere, falls with the distance of the frequency
from zero, and is `1/|k|^(alpha/2)` up to the term `1e-10`. -/
theorem C72_amplitude {n i j i' j' : ℕ} {alpha : ℝ} (ha : 0 ≤ alpha) (h : ¬ (i = 0 ∧ j = 0)) (h' : ¬ (i' = 0 ∧ j' = 0)) :
    amplitude n alpha 0 0 = 0 ∧ 0 < amplitude n alpha i j ∧
    (fftind n 0 i j ^ 2 + fftind n 1 i j ^ 2 ≤ fftind n 0 i' j' ^ 2 + fftind n 1 i' j' ^ 2 →
      amplitude n alpha i' j' ≤ amplitude n alpha i j) ∧
    amplitude n alpha i j * Real.sqrt ((fftind n 0 i j : ℝ) ^ 2 + (fftind n 1 i j : ℝ) ^ 2 + 1 / 10 ^ 10) ^ (alpha / 2) = 1 := by
  have hpos : ∀ i j, 0 < (fftind n 0 i j : ℝ) ^ 2 + (fftind n 1 i j : ℝ) ^ 2 + 1 / 10 ^ 10 := by
    intro i j
    have := sq_nonneg (fftind n 0 i j : ℝ)
    have := sq_nonneg (fftind n 1 i j : ℝ)
    have : (0 : ℝ) < 1 / 10 ^ 10 := by positivity
    linarith
  refine ⟨by simp [amplitude], ?_, ?_, ?_⟩
  · rw [amplitude, if_neg h]
    exact Real.rpow_pos_of_pos (hpos i j) _
  · intro hle
    rw [amplitude, if_neg h', amplitude, if_neg h]
    refine Real.rpow_le_rpow_of_nonpos (hpos i j) ?_ (by linarith)
    have : ((fftind n 0 i j ^ 2 + fftind n 1 i j ^ 2 : ℤ) : ℝ) ≤ ((fftind n 0 i' j' ^ 2 + fftind n 1 i' j' ^ 2 : ℤ) : ℝ) := by
      exact_mod_cast hle
    push_cast at this
    linarith
  · rw [amplitude, if_neg h, Real.sqrt_eq_rpow, ← Real.rpow_mul (hpos i j).le, ← Real.rpow_add (hpos i j)]
    have : -alpha / 4 + 1 / 2 * (alpha / 2) = 0 := by ring
    rw [this, Real.rpow_zero]

/-- **C72.**  For even sizes opposite frequencies have the same amplitude, and the axes may be exchanged.  (Partial: missing
are odd sizes, for which it is false, `C72_odd_false`.) -/
theorem C72_even_partial {n i j : ℕ} {alpha : ℝ} (he : n % 2 = 0) (hi : i < n) (hj : j < n) :
    amplitude n alpha ((n - i) % n) ((n - j) % n) = amplitude n alpha i j ∧ amplitude n alpha j i = amplitude n alpha i j := by
  have hn : 0 < n := by omega
  have hmod : ∀ k < n, (n - k) % n = if k = 0 then 0 else n - k := by
    intro k hk
    split
    · subst_vars; simp
    · exact Nat.mod_eq_of_lt (by omega)
  have hsq : ∀ k < n, (if (n - k) % n < n / 2 then (((n - k) % n : ℕ) : ℤ) else (((n - k) % n : ℕ) : ℤ) - n) ^ 2
      = (if k < n / 2 then (k : ℤ) else (k : ℤ) - n) ^ 2 := by
    intro k hk
    rw [sq_eq_sq_iff_abs_eq_abs, abs_eq_abs, hmod k hk]
    by_cases h0 : k = 0
    · left; subst h0; rfl
    · rw [if_neg h0]
      rcases lt_trichotomy k (n / 2) with h | h | h
      · right; rw [if_pos h, if_neg (by omega)]; omega
      · left; rw [if_neg (by omega), if_neg (by omega)]; omega
      · right; rw [if_pos (by omega), if_neg (by omega)]; omega
  have hi' : (n - i) % n < n := Nat.mod_lt _ hn
  have hj' : (n - j) % n < n := Nat.mod_lt _ hn
  have hz : ∀ k < n, ((n - k) % n = 0 ↔ k = 0) := by
    intro k hk
    rw [hmod k hk]
    split <;> omega
  obtain ⟨a0, a1⟩ := fftind_eq hi' hj'
  obtain ⟨b0, b1⟩ := fftind_eq hi hj
  obtain ⟨c0, c1⟩ := fftind_eq hj hi
  constructor
  · unfold amplitude
    by_cases h : i = 0 ∧ j = 0
    · rw [if_pos h, if_pos ⟨(hz i hi).2 h.1, (hz j hj).2 h.2⟩]
    · rw [if_neg h, if_neg (fun hc => h ⟨(hz i hi).1 hc.1, (hz j hj).1 hc.2⟩)]
      have e0 : fftind n 0 ((n - i) % n) ((n - j) % n) ^ 2 = fftind n 0 i j ^ 2 := by rw [a0, b0]; exact hsq j hj
      have e1 : fftind n 1 ((n - i) % n) ((n - j) % n) ^ 2 = fftind n 1 i j ^ 2 := by rw [a1, b1]; exact hsq i hi
      have e0' : (fftind n 0 ((n - i) % n) ((n - j) % n) : ℝ) ^ 2 = (fftind n 0 i j : ℝ) ^ 2 := by exact_mod_cast e0
      have e1' : (fftind n 1 ((n - i) % n) ((n - j) % n) : ℝ) ^ 2 = (fftind n 1 i j : ℝ) ^ 2 := by exact_mod_cast e1
      rw [e0', e1']
  · unfold amplitude
    by_cases h : i = 0 ∧ j = 0
    · rw [if_pos h, if_pos h.symm]
    · rw [if_neg h, if_neg (fun hc => h hc.symm), c0, c1, b0, b1, add_comm (((if i < n / 2 then (i : ℤ) else (i : ℤ) - n : ℤ) : ℝ) ^ 2)]

/-- **C72.**  For odd sizes from 3 on they have not: of the two opposite frequencies in the middle of an axis
one is damped more than the other. -/
theorem C72_odd_false {m : ℕ} (hm : 1 ≤ m) {alpha : ℝ} (ha : 0 < alpha) :
    (2 * m + 1 - m) % (2 * m + 1) = m + 1 ∧
    amplitude (2 * m + 1) alpha 0 m < amplitude (2 * m + 1) alpha 0 (m + 1) := by
  refine ⟨by rw [Nat.mod_eq_of_lt] <;> omega, ?_⟩
  obtain ⟨a0, a1⟩ := fftind_eq (n := 2 * m + 1) (i := 0) (j := m) (by omega) (by omega)
  obtain ⟨b0, b1⟩ := fftind_eq (n := 2 * m + 1) (i := 0) (j := m + 1) (by omega) (by omega)
  rw [if_neg (by omega)] at a0 b0
  rw [if_pos (by omega)] at a1 b1
  unfold amplitude
  rw [if_neg (by omega), if_neg (by omega), a0, a1, b0, b1]
  have hm' : (1 : ℝ) ≤ m := by exact_mod_cast hm
  push_cast
  apply Real.rpow_lt_rpow_of_neg
  · have : (0 : ℝ) < 1 / 10 ^ 10 := by positivity
    nlinarith
  · nlinarith
  · linarith

example : (List.range 4).map (fun j => fftind 4 0 0 j) = [0, 1, -2, -1] ∧
    (List.range 3).map (fun j => fftind 3 0 0 j) = [0, -2, -1] ∧ fftind 1 0 0 0 = -1 := by decide
