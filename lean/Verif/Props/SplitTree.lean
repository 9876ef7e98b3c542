import Verif.Proof.SplitTree
import Verif.Props.Build
import Verif.Props.Homogeneity
import Verif.Props.SplitValues

/-!
# C107: cells are split exactly where the datapoints ask for it
-/

namespace Verif
open Spec

variable {D : Type}

/-- **C107**, no needless splits: whatever the sources, their conditions and locks, and whatever the region, every box that
was split on the way to a cell of the finished mesh was above the limit, and some source with conditions asked for the split,
together with the sources before it. -/
theorem C107_needed (ops : DataOps D) (b : Boundary) (W H : ℚ) (initData : Boundary → D) (depth sd fuel : ℕ) (m0 m : MeshState D)
    (h0 : MeshBuilder.init b W H initData depth = .ok m0) (h : MeshBuilder.splitToDepth ops fuel sd m0 = .ok m) :
    ∃ c0, Live m0 0 c0 ∧ ∀ i c, Live m i c → c.depth = c.anc.length ∧ c.anc.length ≤ sd ∧
      ∀ a ∈ c.anc, ∃ p, 0 < (ops.nConds c0.data).getD p 0 ∧ ops.shouldSplit (p + 1) a.1 a.2 = .ok true := by
  obtain ⟨roots, g, glob, -, hr, -, -⟩ := init_inv h0
  obtain ⟨c0, hc0, hT⟩ := tracked_splitToDepth h0 hr h
  refine ⟨c0, hc0, fun i c hl => ?_⟩
  obtain ⟨s1, s2, s3⟩ := hT.sound i c hl
  refine ⟨s1, by omega, ?_⟩
  have key : ∀ u, Chains ops (fun q d => ∃ p, 0 < (ops.nConds c0.data).getD p 0 ∧ ops.shouldSplit (p + 1) q d = .ok true) sd roots initData u →
      ∀ a ∈ u.tail, ∃ p, 0 < (ops.nConds c0.data).getD p 0 ∧ ops.shouldSplit (p + 1) a.1 a.2 = .ok true := by
    intro u hu
    induction hu with
    | root hb => simp
    | part hch hlt ha hq ih =>
      intro a hm
      rcases List.mem_cons.1 hm with rfl | hm
      · exact ha
      · exact ih a hm
  exact key _ s3

/-- Cells with ancestors come out of the example. -/
example : ((MeshBuilder.init exRegion 10 5 (fun _ => ()) 3 >>= fun m => MeshBuilder.splitToDepth exOps 100 3 m).map
    (fun m => m.cells[12]?.join.map (fun c => c.anc.map (fun a => (a.1.longMin, a.1.width)))) : Py (Option (List (ℚ × ℚ)))) =
    .ok (some [(0, 5), (0, 10)]) := by decide +kernel

/-! ## The decisions do not raise -/

/-- When the decision on the cells of all meshes in `J` does not raise, a pass is the pass with decisions that never raise. -/
theorem pass_calm_on {ops : DataOps D} {J : MeshState D → Prop} {sd index : ℕ}
    (hJ : ∀ m k m1, J m → MeshBuilder.splitAndReplace ops m k = .ok m1 → J m1)
    (hdec : ∀ m j c, J m → Live m j c → ∃ r, ops.shouldSplit (index + 1) c.bounds c.data = .ok r) :
    ∀ (fuel i : ℕ) (m : MeshState D), J m →
      MeshBuilder.splitPass ops sd index fuel i m = MeshBuilder.splitPass (calm ops) sd index fuel i m ∧
      ∀ m', MeshBuilder.splitPass ops sd index fuel i m = .ok m' → J m' := by
  intro fuel
  induction fuel with
  | zero => intro i m _; exact ⟨rfl, fun m' h => by cases h⟩
  | succ fuel ih =>
    intro i m hm
    unfold MeshBuilder.splitPass
    rcases hi : m.cells[i]? with _ | _ | c
    · exact ⟨rfl, fun m' h => by cases h; exact hm⟩
    · exact ih (i + 1) m hm
    · obtain ⟨r, hr⟩ := hdec m i c hm hi
      have hr' : (calm ops).shouldSplit (index + 1) c.bounds c.data = .ok r := by unfold calm; simp only [hr]
      simp only [hr, hr', bind, Except.bind]
      by_cases hc : c.depth < sd ∧ r = true
      · simp only [if_pos hc, calm_split]
        cases hs : MeshBuilder.splitAndReplace ops m i with
        | error e => exact ⟨rfl, fun m' h => by cases h⟩
        | ok m1 => exact ih (i + 1) m1 (hJ m i m1 hm hs)
      · simp only [if_neg hc]
        exact ih (i + 1) m hm

theorem sources_calm_on {ops : DataOps D} {J : MeshState D → Prop} {sd fuel : ℕ}
    (hJ : ∀ m k m1, J m → MeshBuilder.splitAndReplace ops m k = .ok m1 → J m1) :
    ∀ (conds : List ℕ) (index : ℕ) (m : MeshState D), J m →
      (∀ p, p < conds.length → ∀ m j c, J m → Live m j c → ∃ r, ops.shouldSplit (index + p + 1) c.bounds c.data = .ok r) →
      MeshBuilder.splitSources ops sd fuel conds index m = MeshBuilder.splitSources (calm ops) sd fuel conds index m := by
  intro conds
  induction conds with
  | nil => intro index m _ _; rfl
  | cons n rest ih =>
    intro index m hm hdec
    have hdec' : ∀ p, p < rest.length → ∀ m j c, J m → Live m j c → ∃ r, ops.shouldSplit (index + 1 + p + 1) c.bounds c.data = .ok r := by
      intro p hp m j c h1 h2
      have := hdec (p + 1) (by simpa using hp) m j c h1 h2
      have e : index + (p + 1) = index + 1 + p := by omega
      rw [e] at this
      exact this
    unfold MeshBuilder.splitSources
    by_cases hn : n > 0
    · simp only [if_pos hn]
      obtain ⟨e, hk⟩ := pass_calm_on (sd := sd) hJ (hdec 0 (by simp)) fuel 0 m hm
      rw [← e]
      cases hp : MeshBuilder.splitPass ops sd index fuel 0 m with
      | error e => rfl
      | ok m1 => exact ih (index + 1) m1 (hk m1 hp) hdec'
    · simp only [if_neg hn]
      exact ih (index + 1) m hm hdec'

/-! ## Scalar sources -/

/-- The time lies in the time range of the box. -/
def Spec.during (q : Boundary) (t : ℤ) : Bool :=
  match q.time with
  | t0 :: t1 :: _ => decide (t0 ≤ t ∧ t ≤ t1)
  | _ => false

/-- The datapoints in a box: those in its half-open rectangle, and in its time range if the data has times. -/
def Spec.rowsIn {V : Type} (d : Dataset V) (q : Boundary) : List (Row V) :=
  d.rows.filter (fun r => decide (q.latMin < r.lat ∧ r.lat ≤ q.latMax ∧ q.longMin < r.long ∧ r.long ≤ q.longMax) &&
    (!d.hasTime || during q r.time))

/-- The four quarters of a box that does not cross the antimeridian. -/
def Spec.quarters (q : Boundary) : List Boundary :=
  [⟨(q.latMin + q.latMax) / 2, q.latMax, q.longMin, (q.longMin + q.longMax) / 2, q.time⟩,
   ⟨(q.latMin + q.latMax) / 2, q.latMax, (q.longMin + q.longMax) / 2, q.longMax, q.time⟩,
   ⟨q.latMin, (q.latMin + q.latMax) / 2, q.longMin, (q.longMin + q.longMax) / 2, q.time⟩,
   ⟨q.latMin, (q.latMin + q.latMax) / 2, (q.longMin + q.longMax) / 2, q.longMax, q.time⟩]

/-- The boxes of a regular grid of `W` by `H` over the region `b`. -/
def Spec.GridBox (b : Boundary) (W H : ℚ) (q : Boundary) : Prop :=
  ∃ i j : ℕ, q = ⟨b.latMin + j * H, b.latMin + j * H + H, b.longMin + i * W, b.longMin + i * W + W, b.time⟩ ∧
    q.latMax ≤ b.latMax ∧ q.longMax ≤ b.longMax

/-- The boxes that refining the boxes `start` as `wants` says yields, with their depth; nothing is refined below `sd`.  `parts` are
the boxes that take the place of a refined one. -/
inductive Spec.RefinedBy (parts : Boundary → List Boundary) (wants start : Boundary → Prop) (sd : ℕ) : ℕ → Boundary → Prop
  | start {q : Boundary} : start q → RefinedBy parts wants start sd 0 q
  | quarter {k : ℕ} {q q' : Boundary} : RefinedBy parts wants start sd k q → k < sd → wants q → q' ∈ parts q →
      RefinedBy parts wants start sd (k + 1) q'

/-- Refinement by quarters. -/
abbrev Spec.Refined (wants start : Boundary → Prop) (sd : ℕ) : ℕ → Boundary → Prop := RefinedBy quarters wants start sd

/-- Some source has a condition that finds the box inhomogeneous: enough datapoints, and the share of values over the
threshold lies strictly between the two bounds. -/
def Spec.Inhomogeneous (full : List (Source (Dataset (Option ℚ)) Cond)) (q : Boundary) : Prop :=
  ∃ id name agg minDp conds fill data, (⟨scalarLoader id name agg minDp, conds, fill, data⟩ : Source (Dataset (Option ℚ)) Cond) ∈ full ∧
    ∃ c ∈ conds, minDp ≤ (rowsIn data q).length ∧ c.lower < fractionOver c.threshold ((rowsIn data q).map Row.val) ∧
      fractionOver c.threshold ((rowsIn data q).map Row.val) < c.upper

/-- The sources are scalar ones whose data can be cut to the region. -/
def Spec.ScalarSources (b : Boundary) (full : List (Source (Dataset (Option ℚ)) Cond)) : Prop :=
  ∀ s ∈ full, (∃ id name agg minDp, s.loader = scalarLoader id name agg minDp) ∧ s.subset.Sorted ∧ ∃ d', s.subset.trim b = .ok d'

theorem scalarSources_trims {b : Boundary} {full : List (Source (Dataset (Option ℚ)) Cond)} (h : ScalarSources b full) :
    ∀ s ∈ full, TrimsDatapoints s.loader ∧ s.subset.Sorted ∧ ∃ d', s.subset.trim b = .ok d' := by
  intro s hs
  obtain ⟨⟨id, name, agg, minDp, e⟩, h2, h3⟩ := h s hs
  exact ⟨by rw [e]; exact scalarLoader_trims _ _ _ _, h2, h3⟩

theorem rowsIn_trim {V : Type} {d : Dataset V} (hs : d.Sorted) {b q : Boundary} (hcr : q.longMin < q.longMax) (ht : q.time = b.time)
    {d1 : Dataset V} (h : d.trim b = .ok d1) : ∃ d', d.trim q = .ok d' ∧ d'.rows = rowsIn d q := by
  have e := trim_eq (b := q) hs (by rw [timeLimits_congr ht]; exact trim_time h)
  refine ⟨_, e, ?_⟩
  rw [trimTo_rows]
  unfold rowsIn
  apply List.filter_congr
  intro r _
  unfold Dataset.sel
  congr 1
  · cases d with
    | table t =>
      simp only [Dataset.mask, Table.mask, if_pos hcr]
      rw [Bool.eq_iff_iff]
      simp [and_assoc]
    | grid g =>
      simp only [Dataset.mask, Grid.mask, Grid.lmask, if_pos hcr]
      rw [Bool.eq_iff_iff]
      simp [and_assoc]
  · congr 1
    unfold timeOk during
    rcases hq : q.time with _ | ⟨t0, _ | ⟨t1, ts⟩⟩ <;> simp

/-- The decision of the first `n` sources on a box. -/
theorem scalar_decision {b : Boundary} {full : List (Source (Dataset (Option ℚ)) Cond)} (hf : ScalarSources b full) {q : Boundary}
    (hcr : q.longMin < q.longMax) (ht : q.time = b.time) (n : ℕ) (hn : n ≤ full.length) :
    ∃ r, shouldSplit n q (trimSources q full) = .ok r ∧
      ((∀ s ∈ full, ∀ c ∈ s.conds, c.splitLock = false) → (r = true ↔ Inhomogeneous (full.take n) q)) := by
  have hlen : (trimSources q full).length = full.length := by unfold trimSources; simp
  obtain ⟨r, hr⟩ := C28_scalar_total n q (trimSources q full) (by omega) (by
    intro s hs
    obtain ⟨s', hs', rfl⟩ := List.mem_map.1 hs
    exact (hf s' hs').1)
  refine ⟨r, hr, fun hlock => ?_⟩
  rw [(C28_split_iff hr).2]
  have htake : (trimSources q full).take n = (full.take n).map (fun s => { s with subset := s.loader.trim q s.subset }) := by
    unfold trimSources; rw [List.map_take]
  rw [htake]
  have hverd : ∀ s ∈ full, ∀ id name agg minDp, s.loader = scalarLoader id name agg minDp → ∀ c,
      s.loader.homCond q c (s.loader.trim q s.subset) = .ok (homCondition minDp c ((rowsIn s.subset q).map Row.val)) := by
    intro s hs id name agg minDp e c
    obtain ⟨-, h2, d1, h3⟩ := hf s hs
    obtain ⟨d', e1, e2⟩ := rowsIn_trim h2 hcr ht h3
    rw [e]
    show Except.ok (homCondition minDp c (Dataset.vals (match s.subset.trim q with | .ok d' => d' | .error _ => s.subset))) = _
    rw [e1]
    simp only [Dataset.vals, e2]
  have hnot : ∀ s ∈ full, ∀ c ∈ s.conds, ∀ minDp, homCondition minDp c ((rowsIn s.subset q).map Row.val) = .clr ∨
      homCondition minDp c ((rowsIn s.subset q).map Row.val) = .het ∧ minDp ≤ (rowsIn s.subset q).length ∧
        c.lower < fractionOver c.threshold ((rowsIn s.subset q).map Row.val) ∧ fractionOver c.threshold ((rowsIn s.subset q).map Row.val) < c.upper := by
    intro s hs c hc minDp
    obtain ⟨d1, d2, -⟩ := C27_decision minDp c ((rowsIn s.subset q).map Row.val)
    rcases Nat.lt_or_ge ((rowsIn s.subset q).map Row.val).length minDp with h | h
    · exact Or.inl (d1 h)
    · obtain ⟨-, -, k1, k2, k3⟩ := d2 h
      rcases le_or_gt (fractionOver c.threshold ((rowsIn s.subset q).map Row.val)) c.lower with h1 | h1
      · exact Or.inl (k1 h1)
      · rcases le_or_gt c.upper (fractionOver c.threshold ((rowsIn s.subset q).map Row.val)) with h2 | h2
        · left
          rw [k2 h1 h2, hlock s hs c hc]
          rfl
        · exact Or.inr ⟨k3 h1 h2, by simpa using h, h1, h2⟩
  constructor
  · rintro ⟨-, s', hs', c, hc, v, hv, hne⟩
    obtain ⟨s, hs, rfl⟩ := List.mem_map.1 hs'
    have hsf := List.mem_of_mem_take hs
    obtain ⟨⟨id, name, agg, minDp, e⟩, -, -⟩ := hf s hsf
    simp only at hc hv
    rw [hverd s hsf id name agg minDp e c] at hv
    cases hv
    rcases hnot s hsf c hc minDp with h | ⟨-, h1, h2, h3⟩
    · exact absurd h hne
    · refine ⟨id, name, agg, minDp, s.conds, s.fill, s.subset, ?_, c, hc, h1, h2, h3⟩
      rw [← e]; exact hs
  · rintro ⟨id, name, agg, minDp, conds, fill, data, hs, c, hc, h1, h2, h3⟩
    have hsf := List.mem_of_mem_take hs
    refine ⟨?_, _, List.mem_map.2 ⟨_, hs, rfl⟩, c, hc, .het, ?_, by simp⟩
    · rintro ⟨s', hs', c', hc', h⟩
      obtain ⟨s, hs, rfl⟩ := List.mem_map.1 hs'
      have hsf' := List.mem_of_mem_take hs
      obtain ⟨⟨id', name', agg', minDp', e'⟩, -, -⟩ := hf s hsf'
      simp only at hc' h
      rw [hverd s hsf' id' name' agg' minDp' e' c'] at h
      rcases hnot s hsf' c' hc' minDp' with h' | ⟨h', -⟩ <;> rw [h'] at h <;> rcases h with h | h <;> cases h
    · rw [hverd _ hsf id name agg minDp rfl c]
      have := ((C27_decision minDp c ((rowsIn data q).map Row.val)).2.1 (by simpa using h1)).2.2.2.2 h2 h3
      rw [this]

theorem partOf_iff {q b : Boundary} (hv : Valid b) (hcr : b.longMin < b.longMax) : PartOf q b ↔ q ∈ quarters b := by
  have hw := width_of_lt hcr
  obtain ⟨h1, h2, h3, h4, h5, h6⟩ := hv
  have hm : longitudeDomain (b.longMin + b.width / 2) = (b.longMin + b.longMax) / 2 := by
    rw [(C01_longitude_domain _).2.2.1 (by rw [hw]; linarith) (by rw [hw]; linarith), hw]; ring
  have he : longitudeDomain (b.longMin + b.width) = b.longMax := by
    rw [(C01_longitude_domain _).2.2.1 (by rw [hw]; linarith) (by rw [hw]; linarith), hw]; ring
  have hh : b.latMin + b.height / 2 = (b.latMin + b.latMax) / 2 := by unfold Boundary.height; ring
  have hh' : b.latMin + b.height = b.latMax := by unfold Boundary.height; ring
  have mkOk : ∀ a a' x y : ℚ, a ≤ a' → -180 ≤ x → y ≤ 180 →
      Boundary.mk? [a, a'] [x, y] b.time = .ok ⟨a, a', x, y, b.time⟩ := by
    intro a a' x y ha hx hy
    exact (C03_construction_table _ _ _ _).2 ⟨_, _, [], _, _, [], rfl, rfl, ha, hx, hy, h6, rfl⟩
  have hsplit : ∀ n, CellBox.createSplitted b n = .ok ((quarters b).zip [n, n + 1, n + 2, n + 3]) := by
    intro n
    unfold CellBox.createSplitted
    simp only [hm, he, hh, hh']
    rw [mkOk _ _ _ _ (by linarith) (by linarith) (by linarith), mkOk _ _ _ _ (by linarith) (by linarith) (by linarith),
      mkOk _ _ _ _ (by linarith) (by linarith) (by linarith), mkOk _ _ _ _ (by linarith) (by linarith) (by linarith)]
    rfl
  constructor
  · rintro ⟨n, l, hl, i, hi⟩
    rw [hsplit] at hl
    cases hl
    exact (List.of_mem_zip hi).1
  · intro hq
    refine ⟨0, _, hsplit 0, ?_⟩
    simp only [quarters, List.mem_cons, List.not_mem_nil, or_false] at hq
    rcases hq with rfl | rfl | rfl | rfl
    · exact ⟨0, by simp [quarters]⟩
    · exact ⟨1, by simp [quarters]⟩
    · exact ⟨2, by simp [quarters]⟩
    · exact ⟨3, by simp [quarters]⟩

/-- A quarter of a box. -/
theorem quarter_within {q b : Boundary} (hb : ProperBox b) (hcr : b.longMin < b.longMax) (h : q ∈ quarters b) :
    ProperBox q ∧ q.longMin < q.longMax ∧ Within q b := by
  obtain ⟨⟨h1, h2, h3, h4, h5, h6⟩, -, h8⟩ := hb
  simp only [quarters, List.mem_cons, List.not_mem_nil, or_false] at h
  have key : b.latMin ≤ q.latMin ∧ q.latMin < q.latMax ∧ q.latMax ≤ b.latMax ∧ b.longMin ≤ q.longMin ∧ q.longMin < q.longMax ∧
      q.longMax ≤ b.longMax ∧ q.time = b.time := by
    rcases h with rfl | rfl | rfl | rfl <;> refine ⟨?_, ?_, ?_, ?_, ?_, ?_, rfl⟩ <;> simp only <;> linarith
  obtain ⟨k1, k2, k3, k4, k5, k6, k7⟩ := key
  refine ⟨⟨⟨k2.le, by linarith, by linarith, by linarith, by linarith, by rw [k7]; exact h6⟩, by rintro ⟨e1, e2⟩; linarith, k2⟩, k5, ?_, k7⟩
  rintro x y ⟨⟨n, e1, e2⟩, e3, e4⟩
  unfold eastEdge at e2
  rw [if_pos k5] at e2
  refine ⟨⟨n, by linarith, ?_⟩, by linarith, by linarith⟩
  unfold eastEdge
  rw [if_pos hcr]
  linarith

/-- The initial cells are the boxes of the grid. -/
theorem roots_iff {b : Boundary} {W H : ℚ} (hp : ProperGrid b W H) (hcr : b.longMin < b.longMax)
    (hacc : MeshBuilder.validateBounds b W H = .ok ()) {roots : List Boundary} (hr : MeshBuilder.initializeCells b W H = .ok roots)
    (q : Boundary) : q ∈ roots ↔ GridBox b W H q := by
  obtain ⟨nx, ny, hnx0, hnx, hny⟩ := hp.fits hacc
  have hw := width_of_lt hcr
  obtain ⟨-, v1, v2, v3, v4, -⟩ := hp.valid
  have hWw : W ≤ 360 := by
    have : (1 : ℚ) ≤ nx := by exact_mod_cast hnx0
    have h3 : 1 * W ≤ nx * W := mul_le_mul_of_nonneg_right this hp.wpos.le
    linarith
  rw [initializeCells_eq b hp.valid hp.wpos hp.hpos hWw nx ny (by unfold eastEdge; rw [if_pos hcr, ← hnx, hw]) hny] at hr
  cases hr
  have hlat : b.latMax = b.latMin + ny * H := by unfold Boundary.height at hny; linarith
  have hlong : b.longMax = b.longMin + nx * W := by linarith
  have hWp := hp.wpos
  have hHp := hp.hpos
  have cell : ∀ r c : ℕ, c < nx → gridCell b W H nx (r * nx + c) =
      ⟨b.latMin + r * H, b.latMin + r * H + H, b.longMin + c * W, b.longMin + c * W + W, b.time⟩ := by
    intro r c hc
    have hrect := rectOf_gridCell (r := r) (H := H) hp.valid hp.wpos (nx := nx) (by rw [← hnx, hw]; linarith) hc
    unfold rectOf gridRect at hrect
    simp only [Rect.mk.injEq] at hrect
    obtain ⟨e1, e2, e3, e4⟩ := hrect
    have ht : (gridCell b W H nx (r * nx + c)).time = b.time := rfl
    generalize hg : gridCell b W H nx (r * nx + c) = g at e1 e2 e3 e4 ht
    obtain ⟨g1, g2, g3, g4, g5⟩ := g
    simp only at e1 e2 e3 e4 ht
    rw [e1, e2, e3, e4, ht]
  constructor
  · intro hq
    obtain ⟨i, hi, rfl⟩ := List.mem_map.1 hq
    obtain ⟨r, c, hc, rfl⟩ := idx_exists hnx0 i
    have hi' := List.mem_range.1 hi
    have hr : r < ny := by
      by_contra hge
      have : ny * nx ≤ r * nx := Nat.mul_le_mul_right _ (by omega)
      omega
    rw [cell r c hc]
    refine ⟨c, r, rfl, ?_, ?_⟩
    · simp only
      have : (r : ℚ) + 1 ≤ ny := by exact_mod_cast hr
      nlinarith
    · simp only
      have : (c : ℚ) + 1 ≤ nx := by exact_mod_cast hc
      nlinarith
  · rintro ⟨c, r, rfl, k1, k2⟩
    simp only at k1 k2
    have hc : c < nx := by
      by_contra hge
      have : (nx : ℚ) ≤ c := by exact_mod_cast (by omega : nx ≤ c)
      nlinarith
    have hr : r < ny := by
      by_contra hge
      have : (ny : ℚ) ≤ r := by exact_mod_cast (by omega : ny ≤ r)
      nlinarith
    refine List.mem_map.2 ⟨r * nx + c, List.mem_range.2 ?_, cell r c hc⟩
    have : (r + 1) * nx ≤ ny * nx := Nat.mul_le_mul_right _ (by omega)
    rw [Nat.add_mul] at this
    omega

/-- What is known of the boxes that come about. -/
def GoodBox (b : Boundary) (full : List (Source (Dataset (Option ℚ)) Cond)) (x : Boundary × List (Source (Dataset (Option ℚ)) Cond)) : Prop :=
  ProperBox x.1 ∧ x.1.longMin < x.1.longMax ∧ Within x.1 b ∧ x.2 = trimSources x.1 full

theorem gridBox_proper {b : Boundary} {W H : ℚ} (hp : ProperGrid b W H) (hcr : b.longMin < b.longMax) {q : Boundary} (hq : GridBox b W H q) :
    ProperBox q ∧ q.longMin < q.longMax ∧ Within q b := by
  obtain ⟨i, j, rfl, k1, k2⟩ := hq
  obtain ⟨-, v1, v2, v3, v4, v5⟩ := hp.valid
  have hWp := hp.wpos
  have hHp := hp.hpos
  simp only at k1 k2
  have hi : (0 : ℚ) ≤ i * W := by positivity
  have hj : (0 : ℚ) ≤ j * H := by positivity
  have hlt : b.longMin + i * W < b.longMin + i * W + W := by linarith
  refine ⟨⟨⟨by simp only; linarith, by simp only; linarith, by simp only; linarith, by simp only; linarith, by simp only; linarith, v5⟩,
    by rintro ⟨e1, e2⟩; simp only at e1 e2; linarith, by simp only; linarith⟩, hlt, ?_, rfl⟩
  rintro x y ⟨⟨n, e1, e2⟩, e3, e4⟩
  unfold eastEdge at e2
  rw [if_pos hlt] at e2
  simp only at e1 e2 e3 e4
  refine ⟨⟨n, by linarith, ?_⟩, by linarith, by linarith⟩
  unfold eastEdge
  rw [if_pos hcr]
  linarith

/-- The data of a part of a box is the full data cut to the part. -/
theorem trimSources_part {b : Boundary} {full : List (Source (Dataset (Option ℚ)) Cond)} (hf : ScalarSources b full)
    {p q : Boundary} (hp : ProperBox p) (hpc : p.longMin < p.longMax) (hpw : Within p b) (hq : ProperBox q) (hqc : q.longMin < q.longMax)
    (hqp : Within q p) : trimSources q (trimSources p full) = trimSources q full := by
  unfold trimSources
  rw [List.map_map]
  apply List.map_congr_left
  intro s hs
  obtain ⟨h1, h2, d0, h3⟩ := scalarSources_trims hf s hs
  have right : ∀ q : Boundary, ProperBox q → q.longMin < q.longMax → TrimsRight s.subset q := by
    intro q h1 h2
    refine ⟨h1, ?_⟩
    cases s.subset with
    | table t => exact h2
    | grid g => exact Or.inl h2
  obtain ⟨d1, e1, -⟩ := rowsIn_trim h2 hpc hpw.2 h3
  obtain ⟨d2, e2, -⟩ := rowsIn_trim h2 hqc (hqp.2.trans hpw.2) h3
  have e := (C25_composes_partial s.subset h2 (right p hp hpc) (right q hq hqc) hqp e1).1
  simp only [Function.comp, Source.mk.injEq, true_and]
  rw [h1 p _ _ e1, h1 q _ _ e2, h1 q d1 d2 (by rw [e, e2])]

theorem chains_good {b : Boundary} {W H : ℚ} {full : List (Source (Dataset (Option ℚ)) Cond)} (hf : ScalarSources b full)
    (hp : ProperGrid b W H) (hcr : b.longMin < b.longMax) {roots : List Boundary} (hroots : ∀ q, q ∈ roots ↔ GridBox b W H q) {sd : ℕ}
    (asks : Boundary → List (Source (Dataset (Option ℚ)) Cond) → Prop) (t : List (Boundary × List (Source (Dataset (Option ℚ)) Cond)))
    (h : Chains (sourceOps (Dataset (Option ℚ)) Cond) asks sd roots (fun q => trimSources q full) t) : ∀ x ∈ t, GoodBox b full x := by
  induction h with
  | @root q hq =>
    intro x hx
    rw [List.mem_singleton] at hx
    subst hx
    obtain ⟨k1, k2, k3⟩ := gridBox_proper hp hcr ((hroots q).1 hq)
    exact ⟨k1, k2, k3, rfl⟩
  | @part p q d t hch hlt ha hq ih =>
    intro x hx
    rcases List.mem_cons.1 hx with rfl | hx
    · obtain ⟨k1, k2, k3, k4⟩ := ih (p, d) (by simp)
      simp only at k1 k2 k3 k4
      obtain ⟨l1, l2, l3⟩ := quarter_within k1 k2 ((partOf_iff k1.1 k2).1 hq)
      refine ⟨l1, l2, l3.trans k3, ?_⟩
      simp only
      rw [k4]
      exact trimSources_part hf k1 k2 k3 l1 l2 l3
    · exact ih x hx

/-- Chains and refinement. -/
theorem chains_refined {b : Boundary} {W H : ℚ} {full : List (Source (Dataset (Option ℚ)) Cond)} (hf : ScalarSources b full)
    (hp : ProperGrid b W H) (hcr : b.longMin < b.longMax) {roots : List Boundary} (hroots : ∀ q, q ∈ roots ↔ GridBox b W H q) {sd : ℕ}
    {asks : Boundary → List (Source (Dataset (Option ℚ)) Cond) → Prop} {wants : Boundary → Prop}
    (haw : ∀ q, q.longMin < q.longMax → q.time = b.time → (asks q (trimSources q full) ↔ wants q)) (k : ℕ) (q : Boundary) :
    Refined wants (GridBox b W H) sd k q ↔ ∃ t, t.length = k ∧
      Chains (sourceOps (Dataset (Option ℚ)) Cond) asks sd roots (fun q => trimSources q full) ((q, trimSources q full) :: t) := by
  constructor
  · intro h
    induction h with
    | start hq => exact ⟨[], rfl, .root ((hroots _).2 hq)⟩
    | @quarter k q q' hq hk hw hq' ih =>
      obtain ⟨t, ht, hch⟩ := ih
      obtain ⟨k1, k2, k3, -⟩ := chains_good hf hp hcr hroots asks _ hch _ (by simp : (q, trimSources q full) ∈ (q, trimSources q full) :: t)
      simp only at k1 k2 k3
      obtain ⟨l1, l2, l3⟩ := quarter_within k1 k2 hq'
      refine ⟨(q, trimSources q full) :: t, by simp [ht], ?_⟩
      rw [← trimSources_part hf k1 k2 k3 l1 l2 l3]
      exact .part hch (by omega) ((haw q k2 k3.2).2 hw) ((partOf_iff k1.1 k2).2 hq')
  · rintro ⟨t, ht, hch⟩
    generalize hu : (q, trimSources q full) :: t = u at hch
    induction hch generalizing q k t with
    | root hq =>
      simp only [List.cons.injEq, Prod.mk.injEq] at hu
      obtain ⟨⟨rfl, -⟩, rfl⟩ := hu
      rw [← ht]
      exact .start ((hroots _).1 hq)
    | @part p q' d t' hch hlt ha hq ih =>
      simp only [List.cons.injEq, Prod.mk.injEq] at hu
      obtain ⟨⟨rfl, -⟩, rfl⟩ := hu
      obtain ⟨k1, k2, k3, k4⟩ := chains_good hf hp hcr hroots asks _ hch _ (by simp : (p, d) ∈ (p, d) :: t')
      simp only at k1 k2 k3 k4
      subst k4
      rw [← ht]
      exact .quarter (ih _ p t' rfl rfl) hlt ((haw p k2 k3.2).1 ha) ((partOf_iff k1.1 k2).1 hq)

/-- The last source with conditions, if any. -/
theorem last_positive (l : List ℕ) : (∀ p, l.getD p 0 = 0) ∨ ∃ p, p < l.length ∧ 0 < l.getD p 0 ∧ ∀ p', p < p' → l.getD p' 0 = 0 := by
  induction l with
  | nil => left; simp
  | cons a l ih =>
    rcases ih with h | ⟨p, h0, h1, h2⟩
    · rcases Nat.eq_zero_or_pos a with ha | ha
      · left
        intro p
        cases p with
        | zero => simpa using ha
        | succ p => simpa using h p
      · right
        refine ⟨0, by simp, by simpa using ha, ?_⟩
        intro p' hp'
        cases p' with
        | zero => omega
        | succ p' => simpa using h p'
    · right
      refine ⟨p + 1, by simpa using h0, by simpa using h1, ?_⟩
      intro p' hp'
      cases p' with
      | zero => omega
      | succ p' => simpa using h2 p' (by omega)

/-- With scalar sources depth-limited splitting does not raise: it ends with one mesh, given enough fuel. -/
theorem scalar_runs {b : Boundary} {W H : ℚ} {full : List (Source (Dataset (Option ℚ)) Cond)} (hf : ScalarSources b full)
    (hp : ProperGrid b W H) (hcr : b.longMin < b.longMax) (hh : b.latMin < b.latMax) (hcol : b.longMin = -180 ∧ b.longMax = 180 → W ≤ 180)
    (hacc : MeshBuilder.validateBounds b W H = .ok ()) (depth sd : ℕ) :
    ∃ m0, MeshBuilder.init b W H (fun q => trimSources q full) depth = .ok m0 ∧ ∃ N m, ∀ fuel, N ≤ fuel →
      MeshBuilder.splitToDepth (sourceOps (Dataset (Option ℚ)) Cond) fuel sd m0 = .ok m := by
  obtain ⟨nx, ny, hnx0, hnx, hny⟩ := hp.fits hacc
  obtain ⟨m0, h0, -⟩ := init_exact hp.valid hcr hp.wpos hp.hpos hnx hny (by
    intro hg
    have hw := width_of_lt hcr
    rw [hnx, hg.1, hg.2] at hw
    have hW := hcol hg
    by_contra hlt
    have : (nx : ℚ) ≤ 1 := by exact_mod_cast (by omega : nx ≤ 1)
    have := mul_le_mul_of_nonneg_right this hp.wpos.le
    linarith) (fun q => trimSources q full) depth
  have hcol' : b.width = 360 → W ≤ 180 := by
    intro h
    rw [width_of_lt hcr] at h
    obtain ⟨-, v1, v2, v3, v4, -⟩ := hp.valid
    exact hcol ⟨by linarith, by linarith⟩
  obtain ⟨c0, N, m, hc0, hrun, -⟩ := C22_terminates_partial (calm (sourceOps (Dataset (Option ℚ)) Cond)) (calm_decides _) b W H hp hh hcol'
    (fun q => trimSources q full) depth sd m0 h0
  refine ⟨m0, h0, N, m, fun fuel hfu => ?_⟩
  rw [← hrun fuel hfu]
  unfold MeshBuilder.splitToDepth
  simp only [bind, Except.bind, cellAt_ok_iff.2 hc0]
  have hdata : ∀ m, Reach (sourceOps (Dataset (Option ℚ)) Cond) b W H (fun q => trimSources q full) depth m → ∀ j c, Live m j c →
      c.data = trimSources c.bounds full ∧ c.bounds.longMin < c.bounds.longMax ∧ c.bounds.time = b.time := by
    intro m hm j c hl
    obtain ⟨-, k1, k2⟩ := (reach_history_noncrossing hp hcr hm hl).1.all.1
    exact ⟨(C25_cached_partial hp hcr (scalarSources_trims hf) hm hl).1, k2, k1.2⟩
  refine sources_calm_on (J := Reach (sourceOps (Dataset (Option ℚ)) Cond) b W H (fun q => trimSources q full) depth) ?_ _ 0 m0
    ⟨m0, h0, .refl m0⟩ ?_
  · rintro m k m1 ⟨m0', h0', hs⟩ he
    exact ⟨m0', h0', .step k hs he⟩
  · intro p hp' m j c hm hl
    obtain ⟨e1, e2, e3⟩ := hdata m hm j c hl
    have hlen : p < full.length := by
      have := (hdata m0 ⟨m0, h0, .refl m0⟩ 0 c0 hc0).1
      simp only [sourceOps, this, trimSources, List.length_map] at hp'
      exact hp'
    rw [Nat.zero_add, e1]
    obtain ⟨r, hr, -⟩ := scalar_decision hf e2 e3 (p + 1) (by omega)
    exact ⟨r, hr⟩

/-- **C107**: for scalar sources without locks, over a region that does not cross the antimeridian, depth-limited splitting
ends without raising, and the cells of the finished mesh are exactly the boxes that are obtained from the regular grid by
dividing into quarters every box above the limit in which the datapoints of some source are inhomogeneous, and no other. -/
theorem C107_cells {b : Boundary} {W H : ℚ} {full : List (Source (Dataset (Option ℚ)) Cond)} (hf : ScalarSources b full)
    (hlock : ∀ s ∈ full, ∀ c ∈ s.conds, c.splitLock = false) (hp : ProperGrid b W H) (hcr : b.longMin < b.longMax)
    (hh : b.latMin < b.latMax) (hcol : b.longMin = -180 ∧ b.longMax = 180 → W ≤ 180)
    (hacc : MeshBuilder.validateBounds b W H = .ok ()) (depth sd : ℕ) :
    ∃ m0, MeshBuilder.init b W H (fun q => trimSources q full) depth = .ok m0 ∧ ∃ N m,
      (∀ fuel, N ≤ fuel → MeshBuilder.splitToDepth (sourceOps (Dataset (Option ℚ)) Cond) fuel sd m0 = .ok m) ∧
      ∀ q k, (∃ i c, Live m i c ∧ c.bounds = q ∧ c.depth = k) ↔
        Refined (Inhomogeneous full) (GridBox b W H) sd k q ∧ (k = sd ∨ ¬ Inhomogeneous full q) := by
  obtain ⟨m0, h0, N, m, hrun⟩ := scalar_runs hf hp hcr hh hcol hacc depth sd
  refine ⟨m0, h0, N, m, hrun, ?_⟩
  obtain ⟨roots, g, glob, -, hr, -, hm0⟩ := init_inv h0
  have hroots := roots_iff hp hcr hacc hr
  have hrunN := hrun N le_rfl
  obtain ⟨c0, hc0, hT⟩ := tracked_splitToDepth h0 hr hrunN
  have hc0d : ((sourceOps (Dataset (Option ℚ)) Cond).nConds c0.data) = full.map (fun s => s.conds.length) := by
    have : c0.data = trimSources c0.bounds full := by
      subst hm0
      obtain ⟨cb, -, rfl⟩ := live_init.1 hc0
      rfl
    simp only [sourceOps, this, trimSources, List.map_map, Function.comp_def]
  rcases last_positive (full.map (fun s => s.conds.length)) with hz | ⟨p, hplt, hp0, hlast⟩
  · -- no conditions at all
    have hno : ∀ q, ¬ Inhomogeneous full q := by
      rintro q ⟨id, name, agg, minDp, conds, fill, data, hs, c, hc, -⟩
      obtain ⟨p, hplt, hpe⟩ := List.getElem_of_mem hs
      have := hz p
      rw [List.getD_eq_getElem?_getD, List.getElem?_map, List.getElem?_eq_getElem hplt, hpe] at this
      simp only [Option.map_some, Option.getD_some, List.length_eq_zero_iff] at this
      subst this
      cases hc
    have hmm : m = m0 := by
      unfold MeshBuilder.splitToDepth at hrunN
      simp only [bind, Except.bind, cellAt_ok_iff.2 hc0, hc0d] at hrunN
      rw [splitSources_zero _ 0 m0 hz] at hrunN
      cases hrunN; rfl
    intro q k
    subst hmm
    constructor
    · rintro ⟨i, c, hl, rfl, rfl⟩
      subst hm0
      obtain ⟨cb, hcb, rfl⟩ := live_init.1 hl
      exact ⟨.start ((hroots _).1 (List.mem_of_getElem? hcb)), Or.inr (hno _)⟩
    · rintro ⟨hR, -⟩
      cases hR with
      | start hq =>
        obtain ⟨j, hj⟩ := List.mem_iff_getElem?.1 ((hroots _).2 hq)
        subst hm0
        exact ⟨j, _, live_init.2 ⟨q, hj, rfl⟩, rfl, rfl⟩
      | quarter _ _ hw _ => exact absurd hw (hno _)
  · have hplt' : p < full.length := by simpa using hplt
    -- the decision of the last source with conditions is that of all sources
    have hall : ∀ q, Inhomogeneous (full.take (p + 1)) q ↔ Inhomogeneous full q := by
      intro q
      constructor
      · rintro ⟨id, name, agg, minDp, conds, fill, data, hs, h⟩
        exact ⟨id, name, agg, minDp, conds, fill, data, List.mem_of_mem_take hs, h⟩
      · rintro ⟨id, name, agg, minDp, conds, fill, data, hs, c, hc, h⟩
        refine ⟨id, name, agg, minDp, conds, fill, data, ?_, c, hc, h⟩
        obtain ⟨i, hi, hie⟩ := List.getElem_of_mem hs
        have hip : i ≤ p := by
          by_contra hgt
          have := hlast i (by omega)
          rw [List.getD_eq_getElem?_getD, List.getElem?_map, List.getElem?_eq_getElem hi, hie] at this
          simp only [Option.map_some, Option.getD_some, List.length_eq_zero_iff] at this
          subst this
          cases hc
        rw [← hie]
        exact List.mem_take_iff_getElem.2 ⟨i, by omega, rfl⟩
    have hsub : ∀ n q, n ≤ p + 1 → Inhomogeneous (full.take n) q → Inhomogeneous (full.take (p + 1)) q := by
      rintro n q - ⟨id, name, agg, minDp, conds, fill, data, hs, h⟩
      exact (hall q).2 ⟨id, name, agg, minDp, conds, fill, data, List.mem_of_mem_take hs, h⟩
    have haw : ∀ q, q.longMin < q.longMax → q.time = b.time →
        (shouldSplit (p + 1) q (trimSources q full) = .ok true ↔ Inhomogeneous full q) := by
      intro q k1 k2
      obtain ⟨r, hr, hri⟩ := scalar_decision hf k1 k2 (p + 1) (by omega)
      rw [← hall q, ← hri hlock, hr]
      simp
    have haf : ∀ q, q.longMin < q.longMax → q.time = b.time →
        (shouldSplit (p + 1) q (trimSources q full) = .ok false ↔ ¬ Inhomogeneous full q) := by
      intro q k1 k2
      obtain ⟨r, hr, hri⟩ := scalar_decision hf k1 k2 (p + 1) (by omega)
      rw [← hall q, ← hri hlock, hr]
      simp
    have hexact := chains_exact h0 hr hrunN hc0 (p := p) (by rw [hc0d]; exact hp0) (by rw [hc0d]; exact hlast)
      (fun t => ∀ x ∈ t, GoodBox b full x) (fun asks t ht => chains_good hf hp hcr hroots asks t ht) (by
        intro p' q d t hg hp' hs
        obtain ⟨-, k2, k3, k4⟩ := hg (q, d) (by simp)
        simp only at k2 k3 k4
        subst k4
        rw [hc0d] at hp'
        have hp'p : p' ≤ p := by
          by_contra hgt
          rw [hlast p' (by omega)] at hp'
          omega
        obtain ⟨r, hr, hri⟩ := scalar_decision hf k2 k3.2 (p' + 1) (by omega)
        have hs' : shouldSplit (p' + 1) q (trimSources q full) = .ok true := hs
        rw [hr] at hs'
        simp only [Except.ok.injEq] at hs'
        exact (haw q k2 k3.2).2 ((hall q).1 (hsub (p' + 1) q (by omega) ((hri hlock).1 hs'))))
    have hsound := hT.sound
    intro q k
    rw [chains_refined hf hp hcr hroots (asks := fun q d => (sourceOps (Dataset (Option ℚ)) Cond).shouldSplit (p + 1) q d = .ok true) haw k q]
    constructor
    · rintro ⟨i, c, hl, rfl, rfl⟩
      obtain ⟨s1, -, -⟩ := hsound i c hl
      obtain ⟨k1, k2⟩ := (hexact c.bounds c.data c.anc).1 ⟨i, c, hl, rfl⟩
      obtain ⟨-, g2, g3, g4⟩ := chains_good hf hp hcr hroots _ _ k1 _ (by simp : (c.bounds, c.data) ∈ (c.bounds, c.data) :: c.anc)
      simp only at g2 g3 g4
      rw [g4] at k1 k2
      refine ⟨⟨c.anc, s1.symm, k1⟩, ?_⟩
      rcases k2 with k2 | k2
      · left; rw [s1]; exact k2
      · exact Or.inr ((haf _ g2 g3.2).1 k2)
    · rintro ⟨⟨t, ht, hch⟩, hend⟩
      obtain ⟨-, g2, g3, -⟩ := chains_good hf hp hcr hroots _ _ hch _ (by simp : (q, trimSources q full) ∈ (q, trimSources q full) :: t)
      simp only at g2 g3
      obtain ⟨i, c, hl, hce⟩ := (hexact q (trimSources q full) t).2 ⟨hch, by
        rcases hend with h | h
        · left; omega
        · exact Or.inr ((haf q g2 g3.2).2 h)⟩
      obtain ⟨s1, -, -⟩ := hsound i c hl
      have e : (c.bounds, c.data) = (q, trimSources q full) ∧ c.anc = t := by simpa [CellBox.chain] using hce
      refine ⟨i, c, hl, (Prod.ext_iff.1 e.1).1, ?_⟩
      rw [s1, e.2, ht]

/-- **C107**, order: without locks the order of the sources has no influence on the cells. -/
theorem C107_order {b : Boundary} {W H : ℚ} {full full' : List (Source (Dataset (Option ℚ)) Cond)} (hperm : full.Perm full')
    (hf : ScalarSources b full) (hlock : ∀ s ∈ full, ∀ c ∈ s.conds, c.splitLock = false) (hp : ProperGrid b W H)
    (hcr : b.longMin < b.longMax) (hh : b.latMin < b.latMax) (hcol : b.longMin = -180 ∧ b.longMax = 180 → W ≤ 180)
    (hacc : MeshBuilder.validateBounds b W H = .ok ()) (depth sd : ℕ) :
    ∃ m0 m0' m m' N, MeshBuilder.init b W H (fun q => trimSources q full) depth = .ok m0 ∧
      MeshBuilder.init b W H (fun q => trimSources q full') depth = .ok m0' ∧
      (∀ fuel, N ≤ fuel → MeshBuilder.splitToDepth (sourceOps (Dataset (Option ℚ)) Cond) fuel sd m0 = .ok m ∧
        MeshBuilder.splitToDepth (sourceOps (Dataset (Option ℚ)) Cond) fuel sd m0' = .ok m') ∧
      ∀ q, (∃ i c, Live m i c ∧ c.bounds = q) ↔ ∃ i c, Live m' i c ∧ c.bounds = q := by
  obtain ⟨m0, h0, N, m, hrun, hm⟩ := C107_cells hf hlock hp hcr hh hcol hacc depth sd
  obtain ⟨m0', h0', N', m', hrun', hm'⟩ := C107_cells (full := full') (fun s hs => hf s (hperm.mem_iff.2 hs))
    (fun s hs => hlock s (hperm.mem_iff.2 hs)) hp hcr hh hcol hacc depth sd
  refine ⟨m0, m0', m, m', max N N', h0, h0', fun fuel hfu => ⟨hrun fuel (by omega), hrun' fuel (by omega)⟩, fun q => ?_⟩
  have e : Inhomogeneous full = Inhomogeneous full' := by
    funext q
    unfold Inhomogeneous
    simp only [hperm.mem_iff]
  have key : (∃ i c, Live m i c ∧ c.bounds = q) ↔ ∃ k, ∃ i c, Live m i c ∧ c.bounds = q ∧ c.depth = k :=
    ⟨fun ⟨i, c, h1, h2⟩ => ⟨_, i, c, h1, h2, rfl⟩, fun ⟨_, i, c, h1, h2, _⟩ => ⟨i, c, h1, h2⟩⟩
  have key' : (∃ i c, Live m' i c ∧ c.bounds = q) ↔ ∃ k, ∃ i c, Live m' i c ∧ c.bounds = q ∧ c.depth = k :=
    ⟨fun ⟨i, c, h1, h2⟩ => ⟨_, i, c, h1, h2, rfl⟩, fun ⟨_, i, c, h1, h2, _⟩ => ⟨i, c, h1, h2⟩⟩
  rw [key, key']
  simp only [hm, hm', e]

/-- A source whose values differ inside one cell of the region only. -/
def exUneven : List (Source (Dataset (Option ℚ)) Cond) :=
  [⟨scalarLoader 0 "a" .mean 1, [⟨3, 0, 1, false⟩], .parent,
    .table ⟨false, [⟨-59, 1, 0, some 5⟩, ⟨-58, 1, 0, some 1⟩, ⟨-57, 4, 0, some 9⟩, ⟨-52, 12, 0, some 9⟩]⟩⟩]

/-- The hypotheses of C107 hold for it; a cell is divided twice there. -/
example : ScalarSources exRegion exUneven ∧ (∀ s ∈ exUneven, ∀ c ∈ s.conds, c.splitLock = false) ∧
    ((MeshBuilder.init exRegion 10 5 (fun q => trimSources q exUneven) 2 >>= fun m =>
      MeshBuilder.splitToDepth (sourceOps (Dataset (Option ℚ)) Cond) 100 2 m).map
      (fun m => m.cells.filterMap (fun o => o.map (fun c => (c.depth, c.bounds.latMin, c.bounds.longMin)))) : Py (List (ℕ × ℚ × ℚ))) =
    .ok [(0, -60, 10), (0, -55, 0), (0, -55, 10), (1, -115 / 2, 0), (1, -115 / 2, 5), (1, -60, 5), (2, -235 / 4, 0), (2, -235 / 4, 5 / 2),
      (2, -60, 0), (2, -60, 5 / 2)] := by
  refine ⟨?_, ?_, by decide +kernel⟩
  · intro s hs
    simp only [exUneven, List.mem_singleton] at hs
    subst hs
    exact ⟨⟨0, "a", .mean, 1, rfl⟩, trivial, _, rfl⟩
  · intro s hs c hc
    simp only [exUneven, List.mem_singleton] at hs
    subst hs
    simp only [List.mem_singleton] at hc
    subst hc
    rfl

/-- **C107** needs that there are no locks: with a locked source the order of the sources decides which cells come out.  The
lock only counts from the pass of its source on. -/
theorem C107_lock_order : (((MeshBuilder.init exRegion 20 10 (fun q => trimSources q exLock) 1 >>= fun m =>
      MeshBuilder.splitToDepth (sourceOps (Dataset (Option ℚ)) Cond) 100 1 m).map (fun m => (m.cells.filterMap id).length) : Py ℕ) = .ok 4) ∧
    (((MeshBuilder.init exRegion 20 10 (fun q => trimSources q exLock.reverse) 1 >>= fun m =>
      MeshBuilder.splitToDepth (sourceOps (Dataset (Option ℚ)) Cond) 100 1 m).map (fun m => (m.cells.filterMap id).length) : Py ℕ) = .ok 1) := by
  refine ⟨by decide +kernel, by decide +kernel⟩

end Verif
