import Verif.Props.VectorTotals
import Verif.Props.Sizes
import Verif.Props.EnvQuery

/-!
# C135: which side of a threshold the datapoints of a cell lie on
-/

namespace Verif
open Spec

/-! ## Specification -/

/-- What the value `x` of the cell `c` under a condition for splitting has to do with the datapoints `rows` of the cell, when a mesh has been divided `depth` times at
most from cells of height `H`: if the cell is larger than the smallest ones and has enough datapoints, its share of values over the threshold is not
strictly between the bounds.  If the bounds are 0 and 1, or further out, then no two of its values lie on different sides of the threshold, and a least, greatest,
mean or median value is on the same side as every one of them.  If a half is strictly between the bounds, then either more or less than half of its values
are over the threshold, and the median is over it in the former case only. -/
structure Spec.TellsSide (H : ℚ) (depth minDp : ℕ) (agg : AggType) (cond : Cond) (c : AggCell) (rows : List (Row (Option ℚ))) (x : Option ℚ) : Prop where
  share : H / 2 ^ depth < c.bounds.latMax - c.bounds.latMin → minDp ≤ rows.length →
    fractionOver cond.threshold (rows.map Row.val) ≤ cond.lower ∨ cond.upper ≤ fractionOver cond.threshold (rows.map Row.val)
  alike : H / 2 ^ depth < c.bounds.latMax - c.bounds.latMin → minDp ≤ rows.length → cond.lower ≤ 0 → 1 ≤ cond.upper →
    ∀ r ∈ rows, ∀ r' ∈ rows, ∀ v v', r.val = some v → r'.val = some v' → (cond.threshold < v ↔ cond.threshold < v')
  side : H / 2 ^ depth < c.bounds.latMax - c.bounds.latMin → minDp ≤ rows.length → cond.lower ≤ 0 → 1 ≤ cond.upper →
    agg ∈ [AggType.min, .max, .mean, .median] → ∀ r ∈ rows, ∀ v, r.val = some v → ∃ y, x = some y ∧ (cond.threshold < y ↔ cond.threshold < v)
  majority : H / 2 ^ depth < c.bounds.latMax - c.bounds.latMin → minDp ≤ rows.length → cond.lower < 1 / 2 → 1 / 2 < cond.upper → agg = .median →
    ∀ r ∈ rows, r.val ≠ none → fractionOver cond.threshold (rows.map Row.val) ≠ 1 / 2 ∧
      ∃ y, x = some y ∧ (cond.threshold < y ↔ 1 / 2 < fractionOver cond.threshold (rows.map Row.val))

/-! ## Shares -/

theorem present_mem {rows : List (Row (Option ℚ))} {v : ℚ} : v ∈ presentValues (rows.map Row.val) ↔ ∃ r ∈ rows, r.val = some v := by
  unfold presentValues
  rw [List.filterMap_map, List.mem_filterMap]
  rfl

/-- A share of none or of all puts all values on one side. -/
theorem fraction_side {t : ℚ} {vals : List (Option ℚ)} (h : fractionOver t vals ≤ 0 ∨ 1 ≤ fractionOver t vals) :
    (∀ v ∈ presentValues vals, v ≤ t) ∨ ∀ v ∈ presentValues vals, t < v := by
  rcases eq_or_ne (presentValues vals) [] with he | hne
  · rw [he]; exact Or.inl (by simp)
  have hpos : (0 : ℚ) < (presentValues vals).length := by exact_mod_cast List.length_pos_iff.2 hne
  unfold fractionOver at h
  rcases h with h | h
  · left
    rw [div_le_iff₀ hpos, zero_mul] at h
    have h0 : ((presentValues vals).filter (fun x => t < x)).length = 0 := by
      have : ((presentValues vals).filter (fun x => t < x)).length ≤ 0 := by exact_mod_cast h
      omega
    intro v hv
    have := List.filter_eq_nil_iff.1 (List.length_eq_zero_iff.1 h0) v hv
    simpa using this
  · right
    rw [le_div_iff₀ hpos, one_mul] at h
    have h1 : (presentValues vals).length ≤ ((presentValues vals).filter (fun x => t < x)).length := by exact_mod_cast h
    have h2 := List.length_filter_eq_length_iff.1 (le_antisymm (List.length_filter_le (fun x => decide (t < x)) (presentValues vals)) h1)
    intro v hv
    simpa using h2 v hv

/-- A median is over a threshold if more than half of the values are, and is not if less than half are. -/
theorem middle_side {t y : ℚ} {l : List ℚ} (hl : l ≠ []) (h : IsMiddle l y) (hne : ((l.filter (fun x => t < x)).length : ℚ) / l.length ≠ 1 / 2) :
    t < y ↔ 1 / 2 < ((l.filter (fun x => t < x)).length : ℚ) / l.length := by
  obtain ⟨m1, m2⟩ := (listMedian_spec l).2 y ((listMedian_middle l y).2 h)
  have hpos : (0 : ℚ) < l.length := by exact_mod_cast List.length_pos_iff.2 hl
  constructor
  · intro hy
    refine lt_of_le_of_ne ?_ hne.symm
    have h1 := m2.trans (Nat.mul_le_mul_left 2 (length_filter_mono l (fun x => decide (y ≤ x)) (fun x => decide (t < x)) (by
      intro x hx; simp only [decide_eq_true_eq] at hx ⊢; linarith)))
    have h2 : (l.length : ℚ) ≤ 2 * ((l.filter (fun x => t < x)).length : ℚ) := by exact_mod_cast h1
    rw [le_div_iff₀ hpos]
    linarith
  · intro hlt
    by_contra hy
    rw [not_lt] at hy
    have h1 := m1.trans (Nat.mul_le_mul_left 2 (length_filter_mono l (fun x => decide (x ≤ y)) (fun x => !decide (t < x)) (by
      intro x hx; simp only [decide_eq_true_eq, Bool.not_eq_true', decide_eq_false_iff_not, not_lt] at hx ⊢; linarith)))
    have h3 := List.length_eq_length_filter_add (l := l) (fun x => decide (t < x))
    have h2 : 2 * ((l.filter (fun x => t < x)).length : ℚ) ≤ l.length := by
      have : 2 * (l.filter (fun x => decide (t < x))).length ≤ l.length := by omega
      exact_mod_cast this
    rw [lt_div_iff₀ hpos] at hlt
    linarith

theorem tells_side {H : ℚ} {depth minDp : ℕ} {agg : AggType} {cond : Cond} {c : AggCell} {rows : List (Row (Option ℚ))} {x st : Option ℚ} {grid : Bool}
    (hst : Statistic grid agg (rows.map Row.val) st) (hx : ∀ y, st = some y → x = some y)
    (h : H / 2 ^ depth < c.bounds.latMax - c.bounds.latMin → ¬ (minDp ≤ rows.length ∧ cond.lower < fractionOver cond.threshold (rows.map Row.val) ∧
      fractionOver cond.threshold (rows.map Row.val) < cond.upper)) : TellsSide H depth minDp agg cond c rows x := by
  have key : H / 2 ^ depth < c.bounds.latMax - c.bounds.latMin → minDp ≤ rows.length →
      fractionOver cond.threshold (rows.map Row.val) ≤ cond.lower ∨ cond.upper ≤ fractionOver cond.threshold (rows.map Row.val) := by
    intro h1 h2
    by_contra hc
    rw [not_or, not_le, not_le] at hc
    exact h h1 ⟨h2, hc⟩
  refine ⟨key, ?_, ?_, ?_⟩
  · intro h1 h2 h3 h4 r hr r' hr' v v' hv hv'
    have m := present_mem.2 ⟨r, hr, hv⟩
    have m' := present_mem.2 ⟨r', hr', hv'⟩
    rcases fraction_side ((key h1 h2).imp (fun g => g.trans h3) (fun g => h4.trans g)) with g | g
    · exact ⟨fun k => absurd k (not_lt.2 (g _ m)), fun k => absurd k (not_lt.2 (g _ m'))⟩
    · exact ⟨fun _ => g _ m', fun _ => g _ m⟩
  · intro h1 h2 h3 h4 hagg r hr v hv
    have m := present_mem.2 ⟨r, hr, hv⟩
    obtain ⟨k1, k2⟩ := statistic_within hagg hst
    obtain ⟨y, hy⟩ := Option.ne_none_iff_exists'.1 (k1 (List.ne_nil_of_mem m))
    obtain ⟨u, hu, w, hw, l1, l2⟩ := k2 y hy
    refine ⟨y, hx y hy, ?_⟩
    rcases fraction_side ((key h1 h2).imp (fun g => g.trans h3) (fun g => h4.trans g)) with g | g
    · exact ⟨fun k => absurd k (not_lt.2 (l2.trans (g _ hw))), fun k => absurd k (not_lt.2 (g _ m))⟩
    · exact ⟨fun _ => g _ m, fun _ => (g _ hu).trans_le l1⟩
  · rintro h1 h2 h3 h4 rfl r hr hv
    obtain ⟨v, hv⟩ := Option.ne_none_iff_exists'.1 hv
    have m := List.ne_nil_of_mem (present_mem.2 ⟨r, hr, hv⟩)
    have hne : fractionOver cond.threshold (rows.map Row.val) ≠ 1 / 2 := by
      intro e
      rcases key h1 h2 with g | g <;> rw [e] at g <;> linarith
    obtain ⟨y, hy⟩ := Option.ne_none_iff_exists'.1 ((statistic_within (by simp) hst).1 m)
    exact ⟨hne, y, hx y hy, middle_side m ((hst y).1 hy) hne⟩

/-- The heights of the boxes in a line over the antimeridian. -/
theorem turn_lineage_height {b : Boundary} {W H : ℚ} {l : List Boundary} (h : LineageBy turnQuarters (TurnGridBox b W H) l) :
    ∀ q t, l = q :: t → q.latMax - q.latMin = H / 2 ^ t.length := by
  induction h with
  | root hq =>
    intro q t e
    cases e
    obtain ⟨i, j, rfl, -, -⟩ := hq
    simp
  | @quarter q p t _ hq ih =>
    intro q' t' e
    cases e
    have h := ih _ _ rfl
    rw [List.length_cons, pow_succ, ← div_div, ← h]
    unfold turnQuarters at hq
    simp only [List.mem_cons, List.not_mem_nil, or_false] at hq
    rcases hq with rfl | rfl | rfl | rfl <;> (simp only; ring)

/-! ## C135 -/

/-- **C135**: in a region that does not cross the antimeridian, let a mesh be built from scalar, vector and look-up table sources that never prevent splitting,
and let one of the scalar sources have a name of its own.  Then every cell tells truly which side of the thresholds of that source its datapoints lie on, and a
datapoint strictly inside of a cell is found in that cell. -/
theorem C135_sides {b : Boundary} {W H : ℚ} {full : List (Source AnyData AnyCond)} (hf : ∀ s ∈ full, PlainAny b s)
    (hid : (full.map (fun s => s.loader.id)).Nodup) (hlock : ∀ s ∈ full, Unlocked s)
    (config : MeshConfig) (hp : ProperGrid b W H) (hcr : b.longMin < b.longMax) (hh : b.latMin < b.latMax)
    (hcol : b.longMin = -180 ∧ b.longMax = 180 → W ≤ 180) (hacc : MeshBuilder.validateBounds b W H = .ok ()) (depth : ℕ) :
    ∃ m0, MeshBuilder.init b W H (fun q => trimSources q full) depth = .ok m0 ∧ ∃ N em, BuiltOK b W H depth em ∧
      (∀ fuel, N ≤ fuel → MeshBuilder.buildEnvironmentalMesh (sourceOps AnyData AnyCond) aggregate fuel config m0 = .ok em) ∧
      ∀ s id name agg minDp, Source.ofScalar s ∈ full → s.loader = scalarLoader id name agg minDp →
        agg ∈ [AggType.min, .max, .mean, .median, .std, .count] → (∀ t ∈ full, name ∈ splitName t.loader.dataName → t = .ofScalar s) →
        ∀ c ∈ em.cells, ∃ x, c.data.get? name = some (.num x) ∧
          (∀ cond ∈ s.conds, TellsSide H depth minDp agg cond c (rowsIn s.subset c.bounds) x) ∧
          ∀ r ∈ rowsIn s.subset c.bounds, r.lat < c.bounds.latMax → r.long < c.bounds.longMax → em.queryIndex (r.lat, r.long) = .ok c.id := by
  obtain ⟨value, hvalue, m0, h0, N, em, h1, -, h2, h3⟩ := C110_values hf hid config hp hcr hh hcol hacc depth
  obtain ⟨m0', h0', N', em', h2', h4⟩ := C110_cells hf hid hlock config hp hcr hh hcol hacc depth
  rw [h0] at h0'; cases h0'
  have hem : em = em' := by
    have e1 := h2 (max N N') (le_max_left _ _)
    rw [h2' _ (le_max_right _ _)] at e1
    cases e1; rfl
  subst hem
  refine ⟨m0, h0, N, em, h1, h2, fun s id name agg minDp hs e hagg hu c hc => ?_⟩
  have hplain := (hf _ hs).ofScalar
  have hname : (Source.ofScalar s).loader.dataName = name := by
    show s.loader.dataName = name
    rw [e]; rfl
  have hcomma : ',' ∉ name.toList := by
    obtain ⟨_, name', _, _, e', hn, -⟩ := hplain.loader
    have : name = name' := by rw [e] at e'; exact congrArg Loader.dataName e'
    rwa [this]
  have hmem : name ∈ splitName (Source.ofScalar s).loader.dataName := by rw [hname, splitName_single hcomma]; simp
  have hin : ∀ c ∈ em.cells, Inner b c.bounds := by
    intro c hc
    obtain ⟨anc, a1, -⟩ := h3 c hc
    exact a1 _ List.mem_cons_self
  obtain ⟨anc, a1, -, w, a2, a3⟩ := h3 c hc
  obtain ⟨v, hv, hm⟩ := (a3 name).2 ⟨_, hs, hmem⟩
  have hw := merged_only hid hs hmem hu (by rw [hname]; exact hcomma) hm
  refine ⟨v, hv, fun cond hcond => ?_, fun r hr hlat hlong => ?_⟩
  · refine tells_side (gives_scalar (hvalue _ hs _ (hin c hc)) e hagg) (fun y hy => ?_) ?_
    · rw [hw]
      exact filled_own (a2 _ hs name hmem) hy
    · rintro hbig ⟨g1, g2, g3⟩
      obtain ⟨k, k1, k2⟩ := (h4 c.bounds).1 ⟨c, hc, rfl⟩
      rcases k2 with rfl | k2
      · obtain ⟨t, t1, t2⟩ := refined_lineage k1
        rw [(lineage_size t1 _ _ rfl).2, t2] at hbig
        exact absurd hbig (lt_irrefl _)
      · exact k2 ⟨_, hs, .scalar e hcond g1 g2 g3⟩
  · have hi := hin c hc
    have hx := (inBox_iff s.subset hi.1.1 hi.2.1 hi.2.2.2 r).1 (List.mem_filter.1 hr).2
    have hr' := (List.mem_filter.1 hr).2
    rw [Bool.and_eq_true, decide_eq_true_iff] at hr'
    obtain ⟨⟨l1, -, l3, -⟩, -⟩ := hr'
    refine ((C35_query_partial em b h1.tiles (fun c hc => (hin c hc).1.1) r.long r.lat ⟨hx.2.1.1.le, hx.2.1.2⟩
      (Or.inl fun c hc => (hin c hc).2.1)).1 c.id).2 ⟨c, hc, rfl, ⟨0, ?_, ?_⟩, l1, hlat⟩
    · simpa using l3
    · unfold eastEdge
      rw [if_pos hi.2.1]
      simpa using hlong

/-- **C135**, over the antimeridian: the same for gridded data. -/
theorem C135_around {b : Boundary} {W H : ℚ} {full : List (Source AnyData AnyCond)} (hf : ∀ s ∈ full, AroundAny b s)
    (hid : (full.map (fun s => s.loader.id)).Nodup) (hlock : ∀ s ∈ full, Unlocked s)
    (config : MeshConfig) (hp : ProperGrid b W H) (hcr : b.longMax ≤ b.longMin) (hh : b.latMin < b.latMax)
    (hcol : b.width = 360 → W ≤ 180) (hacc : MeshBuilder.validateBounds b W H = .ok ()) (depth : ℕ) :
    ∃ m0, MeshBuilder.init b W H (fun q => trimSources q full) depth = .ok m0 ∧ ∃ N em, EnvTiles em b ∧
      (∀ fuel, N ≤ fuel → MeshBuilder.buildEnvironmentalMesh (sourceOps AnyData AnyCond) aggregate fuel config m0 = .ok em) ∧
      ∀ s id name agg minDp, Source.ofScalar s ∈ full → s.loader = scalarLoader id name agg minDp →
        agg ∈ [AggType.min, .max, .mean, .median, .std, .count] → (∀ t ∈ full, name ∈ splitName t.loader.dataName → t = .ofScalar s) →
        ∀ c ∈ em.cells, ∃ x, c.data.get? name = some (.num x) ∧
          (∀ cond ∈ s.conds, TellsSide H depth minDp agg cond c (rowsAround s.subset c.bounds) x) ∧
          ∀ r ∈ rowsAround s.subset c.bounds, r.long < 180 → StrictIn c.bounds r.long r.lat → em.queryIndex (r.lat, r.long) = .ok c.id := by
  obtain ⟨value, hvalue, m0, h0, N, em, h1, -, h2, h3⟩ := C113_values hf hid config hp hcr hh hcol hacc depth
  obtain ⟨m0', h0', N', em', h2', h4⟩ := C113_cells hf hid hlock config hp hh hcol hacc depth
  rw [h0] at h0'; cases h0'
  have hem : em = em' := by
    have e1 := h2 (max N N') (le_max_left _ _)
    rw [h2' _ (le_max_right _ _)] at e1
    cases e1; rfl
  subst hem
  refine ⟨m0, h0, N, em, h1, h2, fun s id name agg minDp hs e hagg hu c hc => ?_⟩
  have hgrid := (hf _ hs).scalarComma.2
  have hname : (Source.ofScalar s).loader.dataName = name := by
    show s.loader.dataName = name
    rw [e]; rfl
  have hcomma : ',' ∉ name.toList := by
    obtain ⟨⟨_, name', _, _, e', hn⟩, -⟩ := (hf _ hs).scalarComma
    have : name = name' := by rw [e] at e'; exact congrArg Loader.dataName e'
    rwa [this]
  have hmem : name ∈ splitName (Source.ofScalar s).loader.dataName := by rw [hname, splitName_single hcomma]; simp
  have hin : ∀ c ∈ em.cells, Around b c.bounds := by
    intro c hc
    obtain ⟨anc, a1, -⟩ := h3 c hc
    exact a1 _ List.mem_cons_self
  obtain ⟨anc, a1, -, w, a2, a3⟩ := h3 c hc
  obtain ⟨v, hv, hm⟩ := (a3 name).2 ⟨_, hs, hmem⟩
  have hw := merged_only hid hs hmem hu (by rw [hname]; exact hcomma) hm
  refine ⟨v, hv, fun cond hcond => ?_, fun r hr hlong hin' => ?_⟩
  · refine tells_side (gives_around_scalar (hvalue _ hs _ (hin c hc)) e hagg) (fun y hy => ?_) ?_
    · rw [hw]
      exact filled_own (a2 _ hs name hmem) hy
    · rintro hbig ⟨g1, g2, g3⟩
      obtain ⟨k, k1, k2⟩ := (h4 c.bounds).1 ⟨c, hc, rfl⟩
      rcases k2 with rfl | k2
      · obtain ⟨t, t1, t2⟩ := refined_lineage k1
        rw [turn_lineage_height t1 _ _ rfl, t2] at hbig
        exact absurd hbig (lt_irrefl _)
      · exact k2 ⟨_, hs, .scalar e hcond g1 g2 g3⟩
  · obtain ⟨d1, d2⟩ := hgrid.longs r (List.mem_filter.1 hr).1
    exact ((C35_query_partial em b h1 (fun c hc => (hin c hc).1.1) r.long r.lat ⟨d1.le, d2⟩ (Or.inr ⟨d1, hlong⟩)).1 c.id).2
      ⟨c, hc, rfl, hin'⟩

/-! ## Examples -/

theorem exTotals_unlocked : ∀ s ∈ exTotals, Unlocked s := by
  intro s hs
  simp only [exTotals, List.mem_cons, List.not_mem_nil, or_false] at hs
  rcases hs with rfl | rfl | rfl <;> exact .scalar (by simp)

/-- The hypotheses of C135 hold: with up to three divisions, every cell higher than 5/8 has a mean over 3 if it has a datapoint over 3. -/
example : ∃ m0, MeshBuilder.init exRegion 10 5 (fun q => trimSources q exTotals) 3 = .ok m0 ∧ ∃ N em,
    (∀ fuel, N ≤ fuel → MeshBuilder.buildEnvironmentalMesh (sourceOps AnyData AnyCond) aggregate fuel exConfig m0 = .ok em) ∧
    ∀ c ∈ em.cells, 5 / 8 < c.bounds.latMax - c.bounds.latMin → ∀ r ∈ rowsIn exTotalsData c.bounds, ∀ v, r.val = some v → 3 < v →
      ∃ y, c.data.get? "a" = some (.num (some y)) ∧ 3 < y := by
  obtain ⟨m0, h0, N, em, -, h1, h2⟩ := C135_sides (W := 10) (H := 5) exTotals_plain (by decide) exTotals_unlocked exConfig exRegion_proper
    (by norm_num [exRegion]) (by norm_num [exRegion]) (by norm_num [exRegion]) (by decide +kernel) 3
  refine ⟨m0, h0, N, em, h1, fun c hc hbig r hr v hv h3 => ?_⟩
  obtain ⟨x, hx, ht, -⟩ := h2 ⟨scalarLoader 1 "a" .mean 1, [⟨3, 0, 1, false⟩], .parent, exTotalsData⟩ 1 "a" .mean 1 (by simp [exTotals]) rfl (by simp) (by
      intro t ht hn
      simp only [exTotals, List.mem_cons, List.not_mem_nil, or_false] at ht
      rcases ht with rfl | rfl | rfl <;> first | rfl | exact absurd hn (by decide +kernel)) c hc
  obtain ⟨y, rfl, hy⟩ := (ht ⟨3, 0, 1, false⟩ (by simp)).side (by norm_num; exact hbig) (List.length_pos_of_mem hr) le_rfl le_rfl (by simp) r hr v hv
  exact ⟨y, hx, hy.2 h3⟩

/-- Over the antimeridian: with up to two divisions, every cell higher than 5/2 has a mean over 0 if it has a datapoint over 0. -/
example : ∃ m0, MeshBuilder.init exAroundRegion 10 10 (fun q => trimSources q exAround) 2 = .ok m0 ∧ ∃ N em,
    (∀ fuel, N ≤ fuel → MeshBuilder.buildEnvironmentalMesh (sourceOps AnyData AnyCond) aggregate fuel exConfig m0 = .ok em) ∧
    ∀ c ∈ em.cells, 5 / 2 < c.bounds.latMax - c.bounds.latMin → ∀ r ∈ rowsAround (.grid exGrid) c.bounds, ∀ v, r.val = some v → 0 < v →
      ∃ y, c.data.get? "a" = some (.num (some y)) ∧ 0 < y := by
  have hw : exAroundRegion.width ≠ 360 := by decide +kernel
  obtain ⟨m0, h0, N, em, -, h1, h2⟩ := C135_around (W := 10) (H := 10) exAround_all.1 exAround_all.2.1 exAround_all.2.2 exConfig exAroundRegion_proper
    (by norm_num [exAroundRegion]) (by norm_num [exAroundRegion]) (fun h => absurd h hw) (by decide +kernel) 2
  refine ⟨m0, h0, N, em, h1, fun c hc hbig r hr v hv h3 => ?_⟩
  obtain ⟨x, hx, ht, -⟩ := h2 ⟨scalarLoader 0 "a" .mean 1, [⟨0, 0, 1, false⟩], .parent, .grid exGrid⟩ 0 "a" .mean 1 (by simp [exAround]) rfl (by simp) (by
      intro t ht hn
      simp only [exAround, List.mem_cons, List.not_mem_nil, or_false] at ht
      rcases ht with rfl | rfl <;> first | rfl | exact absurd hn (by decide +kernel)) c hc
  obtain ⟨y, rfl, hy⟩ := (ht ⟨0, 0, 1, false⟩ (by simp)).side (by norm_num; exact hbig) (List.length_pos_of_mem hr) le_rfl le_rfl (by simp) r hr v hv
  exact ⟨y, hx, hy.2 h3⟩

/-- Three values, two of which are over 3. -/
def exMajority : Dataset (Option ℚ) := .table ⟨false, [⟨-59, 1, 0, some 5⟩, ⟨-58, 4, 0, some 4⟩, ⟨-57, 8, 0, some 1⟩, ⟨-57, 9, 0, none⟩]⟩

/-- Bounds around a half: the median of every cell higher than 5/8 with a datapoint lies on the side of the majority. -/
example : ∃ m0, MeshBuilder.init exRegion 10 5
      (fun q => trimSources q [.ofScalar ⟨scalarLoader 0 "a" .median 1, [⟨3, 2 / 5, 3 / 5, false⟩], .parent, exMajority⟩]) 3 = .ok m0 ∧ ∃ N em,
    (∀ fuel, N ≤ fuel → MeshBuilder.buildEnvironmentalMesh (sourceOps AnyData AnyCond) aggregate fuel exConfig m0 = .ok em) ∧
    ∀ c ∈ em.cells, 5 / 8 < c.bounds.latMax - c.bounds.latMin → ∀ r ∈ rowsIn exMajority c.bounds, r.val ≠ none →
      ∃ y, c.data.get? "a" = some (.num (some y)) ∧ (3 < y ↔ 1 / 2 < fractionOver 3 ((rowsIn exMajority c.bounds).map Row.val)) := by
  obtain ⟨m0, h0, N, em, -, h1, h2⟩ := C135_sides (W := 10) (H := 5)
    (full := [.ofScalar ⟨scalarLoader 0 "a" .median 1, [⟨3, 2 / 5, 3 / 5, false⟩], .parent, exMajority⟩])
    (by intro s hs; rw [List.mem_singleton] at hs; subst hs; exact .scalar ⟨⟨_, _, _, _, rfl, by decide, by simp⟩, Or.inl rfl, trivial, _, rfl⟩)
    (by decide) (by intro s hs; rw [List.mem_singleton] at hs; subst hs; exact .scalar (by simp)) exConfig exRegion_proper
    (by norm_num [exRegion]) (by norm_num [exRegion]) (by norm_num [exRegion]) (by decide +kernel) 3
  refine ⟨m0, h0, N, em, h1, fun c hc hbig r hr hv => ?_⟩
  obtain ⟨x, hx, ht, -⟩ := h2 ⟨scalarLoader 0 "a" .median 1, [⟨3, 2 / 5, 3 / 5, false⟩], .parent, exMajority⟩ 0 "a" .median 1 (by simp) rfl (by simp)
    (by intro t ht _; exact List.mem_singleton.1 ht) c hc
  obtain ⟨-, y, rfl, hy⟩ := (ht ⟨3, 2 / 5, 3 / 5, false⟩ (by simp)).majority (by norm_num; exact hbig) (List.length_pos_of_mem hr) (by norm_num) (by norm_num)
    rfl r hr hv
  exact ⟨y, hx, hy⟩

/-- With three divisions at most the datapoints 5 and 1 come to lie in different cells, which are larger than the smallest ones allowed. -/
example : (do
    let m ← MeshBuilder.init exRegion 10 5 (fun q => trimSources q exTotals) 3
    let em ← MeshBuilder.buildEnvironmentalMesh (sourceOps AnyData AnyCond) aggregate 20 exConfig m
    return (em.cells.filter (fun c => !(rowsIn exTotalsData c.bounds).isEmpty)).map (fun c => (c.bounds.latMax - c.bounds.latMin, c.data.get? "a")) :
      Py (List (ℚ × Option Val))) =
    .ok [(5, some (.num (some 7))), (5 / 4, some (.num (some 1))), (5 / 4, some (.num (some 5)))] := by decide +kernel

/-- Not so for the smallest cells: where no division is allowed, a datapoint is over the threshold and the mean of its cell is not. -/
theorem C135_smallest_false : (do
    let m ← MeshBuilder.init exRegion 10 5 (fun q => trimSources q exTotals) 0
    let em ← MeshBuilder.buildEnvironmentalMesh (sourceOps AnyData AnyCond) aggregate 10 exConfig m
    return em.cells.map (fun c => (c.bounds, c.data.get? "a")) : Py (List (Boundary × Option Val))) =
    .ok [(⟨-60, -55, 0, 10, []⟩, some (.num (some 3))), (⟨-60, -55, 10, 20, []⟩, some (.num none)), (⟨-55, -50, 0, 10, []⟩, some (.num none)),
      (⟨-55, -50, 10, 20, []⟩, some (.num (some 7)))] ∧
    ⟨-59, 1, 0, some 5⟩ ∈ rowsIn exTotalsData ⟨-60, -55, 0, 10, []⟩ := by
  constructor <;> decide +kernel

end Verif
