import Verif.Props.Sizes
import Verif.Props.Locks

/-!
# C123: locks and depths over the antimeridian

C114 and C116 for regions that may cross the antimeridian.
-/

namespace Verif
open Spec

/-! ## Specification -/

/-- The source has a condition that prevents the box from being divided: a lock, enough datapoints, and the share of values over the threshold greater
than the lower and not less than the upper bound. -/
inductive Spec.LocksAround (q : Boundary) : Source AnyData AnyCond → Prop
  | scalar {s : Source (Dataset (Option ℚ)) Cond} {id name agg minDp c} : s.loader = scalarLoader id name agg minDp → c ∈ s.conds →
      c.splitLock = true → minDp ≤ (rowsAround s.subset q).length → c.lower < fractionOver c.threshold ((rowsAround s.subset q).map Row.val) →
      c.upper ≤ fractionOver c.threshold ((rowsAround s.subset q).map Row.val) → LocksAround q (.ofScalar s)

/-- The sources together want a box divided: one finds it inhomogeneous, and none prevents it. -/
def Spec.AgreedAround (l : List (Source AnyData AnyCond)) (q : Boundary) : Prop := (∃ s ∈ l, UnevenAround q s) ∧ ∀ s ∈ l, ¬ LocksAround q s

/-! ## Verdicts -/

theorem around_decisions {b q : Boundary} {s : Source AnyData AnyCond} (h : AroundAny b s) (hq : Around b q) :
    ((∃ c ∈ s.conds, ownVerdict s q c = .het) ↔ UnevenAround q s) ∧
    ((∃ c ∈ s.conds, ¬ (ownVerdict s q c = .clr ∨ ownVerdict s q c = .het)) ↔ LocksAround q s) := by
  cases h with
  | @scalar s id name agg minDp e _ _ _ h =>
    have hw : ∀ c, ownVerdict (Source.ofScalar s) q (.scalar c) = ownVerdict s q c := ownVerdict_wrap (fun _ => rfl) (fun _ => rfl) s q
    have hv : ∀ {id name agg minDp}, s.loader = scalarLoader id name agg minDp → ∀ c ∈ s.conds,
        (ownVerdict s q c = .het ↔ minDp ≤ (rowsAround s.subset q).length ∧
          c.lower < fractionOver c.threshold ((rowsAround s.subset q).map Row.val) ∧
          fractionOver c.threshold ((rowsAround s.subset q).map Row.val) < c.upper) ∧
        (¬ (ownVerdict s q c = .clr ∨ ownVerdict s q c = .het) ↔ c.splitLock = true ∧ minDp ≤ (rowsAround s.subset q).length ∧
          c.lower < fractionOver c.threshold ((rowsAround s.subset q).map Row.val) ∧
          c.upper ≤ fractionOver c.threshold ((rowsAround s.subset q).map Row.val)) := by
      intro id name agg minDp e c hc
      have hv : ownVerdict s q c = homCondition minDp c ((rowsAround s.subset q).map Row.val) := by
        unfold ownVerdict
        rw [(around_scalar_faithful e h).decides q hq c hc]
      rw [hv]
      obtain ⟨d1, d2, -⟩ := C27_decision minDp c ((rowsAround s.subset q).map Row.val)
      rw [List.length_map] at d1 d2
      rcases Nat.lt_or_ge (rowsAround s.subset q).length minDp with h | h
      · rw [d1 h]
        exact ⟨⟨fun h => (by cases h), fun h' => absurd h'.1 (by omega)⟩, ⟨fun h => absurd (Or.inl rfl) h, fun h' => absurd h'.2.1 (by omega)⟩⟩
      · obtain ⟨-, -, k1, k2, k3⟩ := d2 h
        rcases le_or_gt (fractionOver c.threshold ((rowsAround s.subset q).map Row.val)) c.lower with h1 | h1
        · rw [k1 h1]
          exact ⟨⟨fun h => (by cases h), fun h' => absurd h'.2.1 (not_lt.2 h1)⟩,
            ⟨fun h => absurd (Or.inl rfl) h, fun h' => absurd h'.2.2.1 (not_lt.2 h1)⟩⟩
        · rcases le_or_gt c.upper (fractionOver c.threshold ((rowsAround s.subset q).map Row.val)) with h2 | h2
          · rw [k2 h1 h2]
            cases hl : c.splitLock with
            | false =>
              exact ⟨⟨fun h => (by cases h), fun h' => absurd h'.2.2 (not_lt.2 h2)⟩, ⟨fun h => absurd (Or.inl rfl) h, fun h' => (by cases h'.1)⟩⟩
            | true =>
              exact ⟨⟨fun h => (by cases h), fun h' => absurd h'.2.2 (not_lt.2 h2)⟩,
                ⟨fun _ => ⟨rfl, h, h1, h2⟩, fun _ h => by rcases h with h | h <;> cases h⟩⟩
          · rw [k3 h1 h2]
            exact ⟨⟨fun _ => ⟨h, h1, h2⟩, fun _ => rfl⟩, ⟨fun h => absurd (Or.inr rfl) h, fun h' => absurd h'.2.2.2 (not_le.2 h2)⟩⟩
    constructor
    · constructor
      · rintro ⟨c', hc', hv'⟩
        obtain ⟨c, hc, rfl⟩ := List.mem_map.1 hc'
        rw [hw] at hv'
        obtain ⟨h1, h2, h3⟩ := (hv e c hc).1.1 hv'
        exact .scalar e hc h1 h2 h3
      · intro hu
        generalize hS : Source.ofScalar s = S at hu
        cases hu with
        | scalar e' hc h1 h2 h3 =>
          have := ofScalar_inj hS
          subst this
          exact ⟨_, List.mem_map.2 ⟨_, hc, rfl⟩, by rw [hw]; exact (hv e' _ hc).1.2 ⟨h1, h2, h3⟩⟩
    · constructor
      · rintro ⟨c', hc', hv'⟩
        obtain ⟨c, hc, rfl⟩ := List.mem_map.1 hc'
        rw [hw] at hv'
        obtain ⟨h0, h1, h2, h3⟩ := (hv e c hc).2.1 hv'
        exact .scalar e hc h0 h1 h2 h3
      · intro hu
        generalize hS : Source.ofScalar s = S at hu
        cases hu with
        | scalar e' hc h0 h1 h2 h3 =>
          have := ofScalar_inj hS
          subst this
          exact ⟨_, List.mem_map.2 ⟨_, hc, rfl⟩, by rw [hw]; exact (hv e' _ hc).2.2 ⟨h0, h1, h2, h3⟩⟩
  | @vector s _ _ _ _ _ _ e _ _ _ _ hc h =>
    have hn : (Source.ofVector s).conds = [] := by
      show s.conds.map _ = []
      rw [hc]; rfl
    rw [hn]
    constructor
    · refine ⟨by simp, fun hu => ?_⟩
      generalize hS : Source.ofVector s = S at hu
      cases hu with
      | scalar => exact absurd (congrArg Source.subset hS) (by intro h; cases h)
    · refine ⟨by simp, fun hu => ?_⟩
      generalize hS : Source.ofVector s = S at hu
      cases hu with
      | scalar => exact absurd (congrArg Source.subset hS) (by intro h; cases h)

theorem divides_around {b q : Boundary} {l : List (Source AnyData AnyCond)} (hf : ∀ s ∈ l, AroundAny b s) (hq : Around b q) :
    Divides ownVerdict l q ↔ AgreedAround l q := by
  constructor
  · rintro ⟨h1, s, hs, h2⟩
    refine ⟨⟨s, hs, (around_decisions (hf s hs) hq).1.1 h2⟩, ?_⟩
    intro t ht hl
    obtain ⟨c, hc, hv⟩ := (around_decisions (hf t ht) hq).2.2 hl
    exact hv (h1 t ht c hc)
  · rintro ⟨⟨s, hs, h1⟩, h2⟩
    refine ⟨?_, s, hs, (around_decisions (hf s hs) hq).1.2 h1⟩
    intro t ht c hc
    by_contra hv
    exact h2 t ht ((around_decisions (hf t ht) hq).2.1 ⟨c, hc, hv⟩)

/-! ## C123, locks -/

/-- **C123**: over a region that may cross the antimeridian, the cells of the mesh from gridded sources, whether they lock or not, are exactly those
that come out if the sources take turns: in the turn of a source each box above the depth is divided that some source so far finds
inhomogeneous and no source so far locks. -/
theorem C123_cells {b : Boundary} {W H : ℚ} {full : List (Source AnyData AnyCond)} (hf : ∀ s ∈ full, AroundAny b s)
    (hid : (full.map (fun s => s.loader.id)).Nodup) (config : MeshConfig) (hp : ProperGrid b W H) (hh : b.latMin < b.latMax)
    (hcol : b.width = 360 → W ≤ 180) (hacc : MeshBuilder.validateBounds b W H = .ok ()) (depth : ℕ) :
    ∃ m0, MeshBuilder.init b W H (fun q => trimSources q full) depth = .ok m0 ∧ ∃ N em,
      (∀ fuel, N ≤ fuel → MeshBuilder.buildEnvironmentalMesh (sourceOps AnyData AnyCond) aggregate fuel config m0 = .ok em) ∧
      ∀ q, (∃ c ∈ em.cells, c.bounds = q) ↔ ∃ k, byTurns turnQuarters AgreedAround depth [] full (fun k q => k = 0 ∧ TurnGridBox b W H q) k q := by
  obtain ⟨m0, h0, N, em, value, hb, hB⟩ := around_from hf hid config hp hh hcol hacc depth
  refine ⟨m0, h0, N, em, hb, fun q => ?_⟩
  have hS := around_system hp hcol hacc
  rw [hB.boxes, byTurns_congr (In := Around b) (fun p q hp hq => (hS.within p q hp hq).1) full [] _
    (fun k q h => hS.first q h.2) (fun l hl q hq => divides_around (fun s hs => hf s (by simpa using hl s hs)) hq)]

/-- **C123**, what locks: every cell has a line of boxes it was split from.  Each of these was divided in the turn of some source: some
source up to it found the box inhomogeneous, and none of those up to it locked the box.  So a box that a source locks and that no
source before it finds inhomogeneous is never divided. -/
theorem C123_locked {b : Boundary} {W H : ℚ} {full : List (Source AnyData AnyCond)} (hf : ∀ s ∈ full, AroundAny b s)
    (hid : (full.map (fun s => s.loader.id)).Nodup) (config : MeshConfig) (hp : ProperGrid b W H) (hh : b.latMin < b.latMax)
    (hcol : b.width = 360 → W ≤ 180) (hacc : MeshBuilder.validateBounds b W H = .ok ()) (depth : ℕ) :
    ∃ m0, MeshBuilder.init b W H (fun q => trimSources q full) depth = .ok m0 ∧ ∃ N em,
      (∀ fuel, N ≤ fuel → MeshBuilder.buildEnvironmentalMesh (sourceOps AnyData AnyCond) aggregate fuel config m0 = .ok em) ∧
      ∀ c ∈ em.cells, ∃ anc, LineageBy turnQuarters (TurnGridBox b W H) (c.bounds :: anc) ∧ anc.length ≤ depth ∧
        ∀ p ∈ anc, (∃ l s r, full = l ++ s :: r ∧ AgreedAround (l ++ [s]) p) ∧
          ∀ l s r, full = l ++ s :: r → LocksAround p s → ∃ t ∈ l, UnevenAround p t := by
  obtain ⟨m0, h0, N, em, hb, hcells⟩ := C123_cells hf hid config hp hh hcol hacc depth
  refine ⟨m0, h0, N, em, hb, fun c hc => ?_⟩
  obtain ⟨k, hk⟩ := (hcells _).1 ⟨c, hc, rfl⟩
  obtain ⟨anc, h1, h2, h3⟩ := byTurns_lineage (start := TurnGridBox b W H) full [] _ (by
    rintro k q ⟨rfl, hq⟩
    exact ⟨[], .root hq, rfl, by simp⟩) k _ hk
  refine ⟨anc, h1, ?_, ?_⟩
  · rw [h2]
    exact byTurns_depth full [] _ (by rintro k q ⟨rfl, -⟩; exact Nat.zero_le _) _ _ hk
  · intro p hpa
    obtain ⟨l, s, r, e, ha⟩ := h3 p hpa
    rw [List.nil_append] at e
    refine ⟨⟨l, s, r, e, ha⟩, ?_⟩
    intro l' s' r' e' hl
    have hns : s' ∉ l ++ [s] := fun h => ha.2 s' h hl
    rw [e] at e'
    have hpre : l ++ [s] <+: l' := by
      have h1 : l ++ [s] <+: l ++ s :: r := ⟨r, by simp⟩
      have h2 : l' ++ [s'] <+: l ++ s :: r := ⟨r', by rw [e']; simp⟩
      rcases List.prefix_or_prefix_of_prefix h1 h2 with h | h
      · rcases List.prefix_concat_iff.1 h with h | h
        · exact absurd (by rw [h]; simp) hns
        · exact h
      · exact absurd (h.subset (by simp)) hns
    obtain ⟨t, ht, hu⟩ := ha.1
    exact ⟨t, hpre.subset ht, hu⟩

/-! ## C123, depths -/

section
variable {S C : Type} {In start : Boundary → Prop} {parts : Boundary → List Boundary} {d d' : ℕ} {full : List (Source S C)}
  {value value' : Source S C → Boundary → String → Option ℚ} {cells cells' : List AggCell}

/-- A larger depth only refines what was at the limit. -/
theorem deeper_cells {H : ℚ} (hH : 0 < H) (h : BuiltFrom In start parts d full value cells) (h' : BuiltFrom In start parts d' full value' cells')
    (hd : d ≤ d') (hne : ∀ p, parts p ≠ []) (hparts : ∀ p q, In p → q ∈ parts p → In q ∧ Within q p)
    (hsize : ∀ q t, LineageBy parts start (q :: t) → q.latMax - q.latMin = H / 2 ^ t.length) :
    (∀ q, H / 2 ^ d < q.latMax - q.latMin → ((∃ c ∈ cells, c.bounds = q) ↔ ∃ c ∈ cells', c.bounds = q)) ∧
    (∀ c' ∈ cells', ∃ c ∈ cells, Within c'.bounds c.bounds) ∧ (∀ c ∈ cells, ∃ c' ∈ cells', Within c'.bounds c.bounds) ∧
    ∀ c' ∈ cells', H / 2 ^ d ≤ c'.bounds.latMax - c'.bounds.latMin → ∃ c ∈ cells, c.bounds = c'.bounds := by
  have hsz : ∀ {sd k q}, byTurns parts (Divides ownVerdict) sd [] full (fun k q => k = 0 ∧ start q) k q → q.latMax - q.latMin = H / 2 ^ k := by
    intro sd k q h
    obtain ⟨t, h1, rfl, -⟩ := byTurns_lineage (start := start) full [] _ (by
      rintro k q ⟨rfl, hq⟩
      exact ⟨[], .root hq, rfl, by simp⟩) k q h
    exact hsize q t h1
  have hin : ∀ c ∈ cells, In c.bounds := by
    intro c hc
    obtain ⟨anc, h1, -⟩ := h.data c hc
    exact h1 _ (by simp)
  obtain ⟨hA, hB, hC⟩ := byTurns_depths (parts := parts) (wants := Divides (ownVerdict (S := S) (C := C))) hd hne
    full [] (fun k q => k = 0 ∧ start q) (fun k q => k = 0 ∧ start q) (fun _ _ _ => Iff.rfl)
    (by
      rintro k q ⟨rfl, hq⟩ hk
      have : d = 0 := by omega
      subst this
      exact ⟨q, ⟨rfl, hq⟩, [], .root rfl, rfl⟩)
    (by
      rintro p ⟨rfl, hq⟩
      exact ⟨0, p, ⟨rfl, hq⟩, [], .root rfl, rfl⟩)
  refine ⟨?_, ?_, ?_, ?_⟩
  · intro q hq
    rw [h.boxes, h'.boxes]
    constructor
    · rintro ⟨k, hk⟩
      rw [hsz hk, power_lt hH] at hq
      exact ⟨k, (hA k q hq).1 hk⟩
    · rintro ⟨k, hk⟩
      rw [hsz hk, power_lt hH] at hq
      exact ⟨k, (hA k q hq).2 hk⟩
  · intro c' hc'
    obtain ⟨k, hk⟩ := (h'.boxes _).1 ⟨c', hc', rfl⟩
    rcases Nat.lt_or_ge k d with hlt | hge
    · obtain ⟨c, hc, e⟩ := (h.boxes _).2 ⟨k, (hA k _ hlt).2 hk⟩
      exact ⟨c, hc, by rw [e]; exact .refl _⟩
    · obtain ⟨p, h1, t, h2, -⟩ := hB k _ hk hge
      obtain ⟨c, hc, e⟩ := (h.boxes _).2 ⟨d, h1⟩
      refine ⟨c, hc, ?_⟩
      have := hin c hc
      rw [e] at this ⊢
      exact (lineage_within hparts this h2 _ _ rfl).2
  · intro c hc
    obtain ⟨k, hk⟩ := (h.boxes _).1 ⟨c, hc, rfl⟩
    have hkd : k ≤ d := byTurns_depth full [] _ (by rintro k q ⟨rfl, -⟩; exact Nat.zero_le _) _ _ hk
    rcases Nat.lt_or_ge k d with hlt | hge
    · obtain ⟨c', hc', e⟩ := (h'.boxes _).2 ⟨k, (hA k _ hlt).1 hk⟩
      exact ⟨c', hc', by rw [e]; exact .refl _⟩
    · obtain rfl : k = d := by omega
      obtain ⟨j, q, h1, t, h2, -⟩ := hC _ hk
      obtain ⟨c', hc', e⟩ := (h'.boxes _).2 ⟨j, h1⟩
      exact ⟨c', hc', by rw [e]; exact (lineage_within hparts (hin c hc) h2 _ _ rfl).2⟩
  · intro c' hc' hw
    obtain ⟨k, hk⟩ := (h'.boxes _).1 ⟨c', hc', rfl⟩
    rw [hsz hk] at hw
    have hkd : k ≤ d := by
      by_contra hlt
      push Not at hlt
      exact absurd ((power_lt hH).2 hlt) (not_lt.2 hw)
    rw [h.boxes]
    rcases Nat.lt_or_ge k d with hlt | hge
    · exact ⟨k, (hA k _ hlt).2 hk⟩
    · obtain ⟨p, h1, t, h2, h3⟩ := hB k _ hk hge
      have : t = [] := by
        rw [← List.length_eq_zero_iff]; omega
      subst this
      cases h2 with
      | root e => subst e; exact ⟨d, h1⟩

/-- Meshes from the same sources have the same values in the same boxes. -/
theorem deeper_data (h : BuiltFrom In start parts d full value cells) (h' : BuiltFrom In start parts d' full value' cells')
    (huniq : ∀ q t t', LineageBy parts start (q :: t) → LineageBy parts start (q :: t') → t = t') {c c' : AggCell} (hc : c ∈ cells) (hc' : c' ∈ cells')
    (eb : c'.bounds = c.bounds) (n : String) : c'.data.get? n = c.data.get? n := by
  obtain ⟨t, i1, i2, w, h2, h3⟩ := h.data c hc
  obtain ⟨t', i1', i2', w', h2', h3'⟩ := h'.data c' hc'
  rw [eb] at i1' i2' h2'
  obtain rfl := huniq _ _ _ i2 i2'
  by_cases hx : ∃ s ∈ full, n ∈ splitName s.loader.dataName
  · obtain ⟨v, k1, k2⟩ := (h3 n).2 hx
    obtain ⟨v', k1', k2'⟩ := (h3' n).2 hx
    rw [k1, k1']
    have : v' = v := by
      refine Merged.unique (fun _ _ => Iff.rfl) ?_ k2' k2
      intro s hs
      obtain ⟨hs, hsn⟩ := List.mem_filter.1 hs
      rw [decide_eq_true_iff] at hsn
      have f1 := h2 s hs n hsn
      have f2 := h2' s hs n hsn
      refine Filled.unique (f2.congr (fun p hp => ?_)) f1
      exact valued_unique (h'.valued s hs) (h.valued s hs) (i1 p hp) hsn
    rw [this]
  · push Not at hx
    rw [(h3 n).1 hx, (h3' n).1 hx]

end

/-- **C123**, depths: over a region that may cross the antimeridian a larger depth only refines what was at the limit.  From the same gridded sources,
locks included, the cells larger than those at the smaller depth are the same; every cell of the deeper mesh lies in one of the other, and
every cell of the other has one in it; of the deeper mesh those that are not smaller than the limit are cells of the other; and common cells have the
same values. -/
theorem C123_depth {b : Boundary} {W H : ℚ} {full : List (Source AnyData AnyCond)} (hf : ∀ s ∈ full, AroundAny b s)
    (hid : (full.map (fun s => s.loader.id)).Nodup) (config config' : MeshConfig) (hp : ProperGrid b W H) (hh : b.latMin < b.latMax)
    (hcol : b.width = 360 → W ≤ 180) (hacc : MeshBuilder.validateBounds b W H = .ok ()) {d d' : ℕ} (hd : d ≤ d') :
    ∃ m0 m0', MeshBuilder.init b W H (fun q => trimSources q full) d = .ok m0 ∧
      MeshBuilder.init b W H (fun q => trimSources q full) d' = .ok m0' ∧ ∃ N em em',
      (∀ fuel, N ≤ fuel → MeshBuilder.buildEnvironmentalMesh (sourceOps AnyData AnyCond) aggregate fuel config m0 = .ok em ∧
        MeshBuilder.buildEnvironmentalMesh (sourceOps AnyData AnyCond) aggregate fuel config' m0' = .ok em') ∧
      (∀ q, H / 2 ^ d < q.latMax - q.latMin → ((∃ c ∈ em.cells, c.bounds = q) ↔ ∃ c ∈ em'.cells, c.bounds = q)) ∧
      (∀ c' ∈ em'.cells, ∃ c ∈ em.cells, Within c'.bounds c.bounds) ∧
      (∀ c ∈ em.cells, ∃ c' ∈ em'.cells, Within c'.bounds c.bounds) ∧
      (∀ c' ∈ em'.cells, H / 2 ^ d ≤ c'.bounds.latMax - c'.bounds.latMin → ∃ c ∈ em.cells, c.bounds = c'.bounds) ∧
      ∀ c ∈ em.cells, ∀ c' ∈ em'.cells, c'.bounds = c.bounds → ∀ n, c'.data.get? n = c.data.get? n := by
  have hs := cell_small hp hcol hacc
  obtain ⟨m0, h0, N, em, value, hb, hB⟩ := around_from hf hid config hp hh hcol hacc d
  obtain ⟨m0', h0', N', em', value', hb', hB'⟩ := around_from hf hid config' hp hh hcol hacc d'
  have hS := around_system hp hcol hacc
  obtain ⟨-, -, g3⟩ := turnGrid_power (unwraps_of hp) hp.wpos hp.hpos hs (smaller_grid hp hacc 0).2.2.1 0
  obtain ⟨k1, k2, k3, k4⟩ := deeper_cells hp.hpos hB hB' hd (by intro p; simp [turnQuarters]) (fun p q h1 h2 => hS.within p q h1 h2) g3
  exact ⟨m0, m0', h0, h0', max N N', em, em', fun fuel hfuel => ⟨hb fuel (by omega), hb' fuel (by omega)⟩, k1, k2, k3, k4,
    fun c hc c' hc' eb n => deeper_data hB hB' (fun q t t' => around_unique (unwraps_of hp) hp.wpos hp.hpos hs) hc hc' eb n⟩

/-! ## Examples -/

/-- The sources of C113 after one whose only condition is a lock. -/
def exAroundLock : List (Source AnyData AnyCond) :=
  .ofScalar ⟨scalarLoader 7 "depth" .max 1, [⟨0, 0, 1 / 2, true⟩], .parent, .grid exGrid⟩ :: exAround

theorem exAroundLock_all : (∀ s ∈ exAroundLock, AroundAny exAroundRegion s) ∧ (exAroundLock.map (fun s => s.loader.id)).Nodup := by
  refine ⟨?_, by decide⟩
  intro s hs
  rcases List.mem_cons.1 hs with rfl | hs
  · exact .scalar rfl (by decide) (by simp) (Or.inl rfl) ⟨⟨_, rfl, exGrid_longs⟩, exGrid_sorted, _, trim_eq exGrid_sorted (by intro h; cases h)⟩
  · exact exAround_all.1 s hs

/-- A box over the antimeridian that the second source finds inhomogeneous and the first locks, so that it is a cell at every depth. -/
example : TurnGridBox exAroundRegion 10 10 ⟨0, 10, 175, -175, []⟩ ∧ (∃ s ∈ exAroundLock, UnevenAround ⟨0, 10, 175, -175, []⟩ s) ∧
    ∃ s ∈ exAroundLock, LocksAround ⟨0, 10, 175, -175, []⟩ s := by
  refine ⟨⟨0, 0, ?_⟩, ⟨_, List.mem_cons_of_mem _ List.mem_cons_self, .scalar rfl (List.mem_singleton.2 rfl) ?_ ?_ ?_⟩, _, List.mem_cons_self,
    .scalar rfl (List.mem_singleton.2 rfl) rfl ?_ ?_ ?_⟩
  · norm_num [exAroundRegion, turnBack, eastEdge]
  all_goals decide +kernel

/-- The hypotheses of C123 hold for them. -/
example : ∃ m0, MeshBuilder.init exAroundRegion 10 10 (fun q => trimSources q exAroundLock) 2 = .ok m0 ∧ ∃ N em,
    (∀ fuel, N ≤ fuel → MeshBuilder.buildEnvironmentalMesh (sourceOps AnyData AnyCond) aggregate fuel exConfig m0 = .ok em) ∧
    ∀ c ∈ em.cells, ∃ anc, LineageBy turnQuarters (TurnGridBox exAroundRegion 10 10) (c.bounds :: anc) ∧ anc.length ≤ 2 ∧
      ∀ p ∈ anc, (∃ l s r, exAroundLock = l ++ s :: r ∧ AgreedAround (l ++ [s]) p) ∧
        ∀ l s r, exAroundLock = l ++ s :: r → LocksAround p s → ∃ t ∈ l, UnevenAround p t :=
  have hw : exAroundRegion.width ≠ 360 := by decide +kernel
  C123_locked exAroundLock_all.1 exAroundLock_all.2 exConfig exAroundRegion_proper (by norm_num [exAroundRegion]) (fun h => absurd h hw)
    (by decide +kernel) 2

/-- And at the depths 1 and 2. -/
example : ∃ m0 m0', MeshBuilder.init exAroundRegion 10 10 (fun q => trimSources q exAroundLock) 1 = .ok m0 ∧
    MeshBuilder.init exAroundRegion 10 10 (fun q => trimSources q exAroundLock) 2 = .ok m0' ∧ ∃ N em em',
    (∀ fuel, N ≤ fuel → MeshBuilder.buildEnvironmentalMesh (sourceOps AnyData AnyCond) aggregate fuel exConfig m0 = .ok em ∧
      MeshBuilder.buildEnvironmentalMesh (sourceOps AnyData AnyCond) aggregate fuel exConfig m0' = .ok em') ∧
    ∀ c' ∈ em'.cells, ∃ c ∈ em.cells, Within c'.bounds c.bounds := by
  have hw : exAroundRegion.width ≠ 360 := by decide +kernel
  obtain ⟨m0, m0', h0, h0', N, em, em', hb, -, h, -⟩ := C123_depth exAroundLock_all.1 exAroundLock_all.2 exConfig exConfig exAroundRegion_proper
    (by norm_num [exAroundRegion]) (fun h => absurd h hw) (by decide +kernel) (show 1 ≤ 2 by omega)
  exact ⟨m0, m0', h0, h0', N, em, em', hb, h⟩

/-- The hypotheses of C122 hold for them too. -/
example : ∃ m0 m0', MeshBuilder.init exAroundRegion 10 10 (fun q => trimSources q exAroundLock) 2 = .ok m0 ∧
    MeshBuilder.init exAroundRegion (10 / 2 ^ 1) (10 / 2 ^ 1) (fun q => trimSources q exAroundLock) 1 = .ok m0' ∧ ∃ N em em',
    (∀ fuel, N ≤ fuel → MeshBuilder.buildEnvironmentalMesh (sourceOps AnyData AnyCond) aggregate fuel exConfig m0 = .ok em ∧
      MeshBuilder.buildEnvironmentalMesh (sourceOps AnyData AnyCond) aggregate fuel exConfig m0' = .ok em') ∧
    ∀ c' ∈ em'.cells, ∃ c ∈ em.cells, Within c'.bounds c.bounds := by
  have hw : exAroundRegion.width ≠ 360 := by decide +kernel
  obtain ⟨m0, m0', h0, h0', N, em, em', hb, h, -⟩ := C122_around exAroundLock_all.1 exAroundLock_all.2 exConfig exConfig exAroundRegion_proper
    (by norm_num [exAroundRegion]) (fun h => absurd h hw) (by decide +kernel) 1 1
  exact ⟨m0, m0', h0, h0', N, em, em', hb, h⟩

end Verif
