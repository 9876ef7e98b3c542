import Verif.Props.Mixed

/-!
# C113: a mesh built from gridded data over a region that crosses the antimeridian
-/

namespace Verif
open Spec

/-! ## Specification -/

/-- A longitude that may have run past the antimeridian, brought back. -/
def Spec.turnBack (x : ℚ) : ℚ := if x ≤ 180 then x else x - 360

/-- The four quarters of a box, which may cross the antimeridian. -/
def Spec.turnQuarters (q : Boundary) : List Boundary :=
  [⟨(q.latMin + q.latMax) / 2, q.latMax, q.longMin, turnBack ((q.longMin + eastEdge q) / 2), q.time⟩,
   ⟨(q.latMin + q.latMax) / 2, q.latMax, turnBack ((q.longMin + eastEdge q) / 2), turnBack (eastEdge q), q.time⟩,
   ⟨q.latMin, (q.latMin + q.latMax) / 2, q.longMin, turnBack ((q.longMin + eastEdge q) / 2), q.time⟩,
   ⟨q.latMin, (q.latMin + q.latMax) / 2, turnBack ((q.longMin + eastEdge q) / 2), turnBack (eastEdge q), q.time⟩]

/-- The boxes of a regular grid of `W` by `H` over the region `b`, going east from its western edge. -/
def Spec.TurnGridBox (b : Boundary) (W H : ℚ) (q : Boundary) : Prop :=
  ∃ i j : ℕ, q = ⟨b.latMin + j * H, b.latMin + j * H + H, turnBack (b.longMin + i * W), turnBack (b.longMin + i * W + W), b.time⟩ ∧
    b.latMin + j * H + H ≤ b.latMax ∧ b.longMin + i * W + W ≤ eastEdge b

/-- The datapoints in a box: those in its half-open rectangle, perhaps after one turn, and in its time range if the data has times. -/
def Spec.rowsAround {V : Type} (d : Dataset V) (q : Boundary) : List (Row V) :=
  d.rows.filter (fun r => decide (q.latMin < r.lat ∧ r.lat ≤ q.latMax ∧
    (q.longMin < r.long ∧ r.long ≤ eastEdge q ∨ q.longMin < r.long + 360 ∧ r.long + 360 ≤ eastEdge q)) && (!d.hasTime || during q r.time))

/-- The data is a sorted grid with longitudes in the usual domain, and has a time range to be cut to if it has times. -/
def Spec.GridAround {V : Type} (b : Boundary) (d : Dataset V) : Prop :=
  (∃ g, d = .grid g ∧ ∀ x ∈ g.longs, -180 < x ∧ x ≤ 180) ∧ d.Sorted ∧ ∃ d', d.trim b = .ok d'

/-- Sources with gridded data: scalar ones, and vector ones that have no conditions for splitting. -/
inductive Spec.AroundAny (b : Boundary) : Source AnyData AnyCond → Prop
  | scalar {s : Source (Dataset (Option ℚ)) Cond} {id name agg minDp} : s.loader = scalarLoader id name agg minDp → ',' ∉ name.toList →
      agg ∈ [AggType.min, .max, .mean, .median, .std, .count] → s.fill = .parent ∨ (∃ x, s.fill = .const (.num x)) →
      GridAround b s.subset → AroundAny b (.ofScalar s)
  | vector {s : Source (Dataset Vec) VectorHom.Conds} {id name agg hom x y} : s.loader = vectorLoader id name agg hom →
      splitName name = [x, y] → x ≠ y → agg ∈ [AggType.min, .max, .mean, .count] → s.fill = .parent → s.conds = [] →
      GridAround b s.subset → AroundAny b (.ofVector s)

/-- What a source gives for a box by itself, under each of its names. -/
inductive Spec.GivesAround (q : Boundary) : Source AnyData AnyCond → (String → Option ℚ) → Prop
  | scalar {s : Source (Dataset (Option ℚ)) Cond} {f} {id name agg minDp} : s.loader = scalarLoader id name agg minDp →
      Statistic true agg ((rowsAround s.subset q).map Row.val) (f name) → GivesAround q (.ofScalar s) f
  | vector {s : Source (Dataset Vec) VectorHom.Conds} {f} {id name agg hom x y} : s.loader = vectorLoader id name agg hom →
      splitName name = [x, y] → VectorStatistic true agg ((rowsAround s.subset q).map Row.val) (f x, f y) → GivesAround q (.ofVector s) f

/-- The source has a condition that finds the box inhomogeneous: enough datapoints, and the share of values over the threshold strictly
between the two bounds. -/
inductive Spec.UnevenAround (q : Boundary) : Source AnyData AnyCond → Prop
  | scalar {s : Source (Dataset (Option ℚ)) Cond} {id name agg minDp c} : s.loader = scalarLoader id name agg minDp → c ∈ s.conds →
      minDp ≤ (rowsAround s.subset q).length → c.lower < fractionOver c.threshold ((rowsAround s.subset q).map Row.val) →
      fractionOver c.threshold ((rowsAround s.subset q).map Row.val) < c.upper → UnevenAround q (.ofScalar s)

/-! ## The boxes -/

theorem domain_turn {x : ℚ} (h1 : -180 ≤ x) (h2 : x < 540) : longitudeDomain x = turnBack x := by
  unfold turnBack
  split
  · exact (C01_longitude_domain _).2.2.1 h1 ‹_›
  · exact domain_past (not_le.1 ‹_›) h2

/-- A proper box in the region that is not a full circle from a meridian to itself. -/
def Around (b q : Boundary) : Prop := ProperBox q ∧ q.longMin ≠ q.longMax ∧ Within q b

theorem eastEdge_lt {q : Boundary} (hv : Valid q) (hne : q.longMin ≠ q.longMax) : eastEdge q < 540 ∧ (eastEdge q ≤ 180 ∨ eastEdge q = q.longMax + 360) := by
  obtain ⟨-, v1, v2, v3, v4, -⟩ := hv
  unfold eastEdge
  split
  · exact ⟨by linarith, Or.inl v4⟩
  · rename_i h
    have : q.longMax < q.longMin := lt_of_le_of_ne (not_lt.1 h) (Ne.symm hne)
    exact ⟨by linarith, Or.inr rfl⟩

theorem partOf_turn {q p : Boundary} (hp : ProperBox p) (hne : p.longMin ≠ p.longMax) : PartOf q p ↔ q ∈ turnQuarters p := by
  have hw := Boundary.width_eq p
  have hpos := (C04_geometry_partial p hp.1 hp.2.1).1
  obtain ⟨e1, -⟩ := eastEdge_lt hp.1 hne
  obtain ⟨⟨h1, h2, h3, h4, h5, h6⟩, -, -⟩ := hp
  have hm : longitudeDomain (p.longMin + p.width / 2) = turnBack ((p.longMin + eastEdge p) / 2) := by
    rw [domain_turn (by linarith) (by linarith), hw]; congr 1; ring
  have he : longitudeDomain (p.longMin + p.width) = turnBack (eastEdge p) := by
    rw [domain_turn (by linarith) (by linarith), hw]; congr 1; ring
  have hb : ∀ x : ℚ, -180 ≤ x → x < 540 → -180 ≤ turnBack x ∧ turnBack x ≤ 180 := by
    intro x k1 k2
    unfold turnBack
    split
    · exact ⟨k1, ‹_›⟩
    · exact ⟨by linarith [not_le.1 ‹_›], by linarith⟩
  have hh : p.latMin + p.height / 2 = (p.latMin + p.latMax) / 2 := by unfold Boundary.height; ring
  have hh' : p.latMin + p.height = p.latMax := by unfold Boundary.height; ring
  obtain ⟨m1, m2⟩ := hb ((p.longMin + eastEdge p) / 2) (by linarith) (by linarith)
  obtain ⟨m3, m4⟩ := hb (eastEdge p) (by linarith) (by linarith)
  have mkOk : ∀ a a' x y : ℚ, a ≤ a' → -180 ≤ x → y ≤ 180 →
      Boundary.mk? [a, a'] [x, y] p.time = .ok ⟨a, a', x, y, p.time⟩ := by
    intro a a' x y ha hx hy
    exact (C03_construction_table _ _ _ _).2 ⟨_, _, [], _, _, [], rfl, rfl, ha, hx, hy, h6, rfl⟩
  have hsplit : ∀ n, CellBox.createSplitted p n = .ok ((turnQuarters p).zip [n, n + 1, n + 2, n + 3]) := by
    intro n
    unfold CellBox.createSplitted
    simp only [hm, he, hh, hh']
    rw [mkOk _ _ _ _ (by linarith) (by linarith) (by linarith), mkOk _ _ _ _ (by linarith) (by linarith) (by linarith),
      mkOk _ _ _ _ (by linarith) (by linarith) (by linarith), mkOk _ _ _ _ (by linarith) (by linarith) (by linarith)]
    rfl
  constructor
  · rintro ⟨n, l, hl, i, hi⟩
    rw [hsplit] at hl
    cases hl
    exact (List.of_mem_zip hi).1
  · intro hq
    refine ⟨0, _, hsplit 0, ?_⟩
    simp only [turnQuarters, List.mem_cons, List.not_mem_nil, or_false] at hq
    rcases hq with rfl | rfl | rfl | rfl
    · exact ⟨0, by simp [turnQuarters]⟩
    · exact ⟨1, by simp [turnQuarters]⟩
    · exact ⟨2, by simp [turnQuarters]⟩
    · exact ⟨3, by simp [turnQuarters]⟩

theorem width_ne {q : Boundary} (h : q.width < 360) : q.longMin ≠ q.longMax := by
  intro e
  have hwe := Boundary.width_eq q
  unfold eastEdge at hwe
  rw [if_neg (by rw [e]; exact lt_irrefl _), e] at hwe
  linarith

theorem partOf_within {q p : Boundary} (hp : ProperBox p) (h : PartOf q p) : ProperBox q ∧ q.longMin ≠ q.longMax ∧ Within q p := by
  let c : CellBox Unit := { bounds := p, id := 0, depth := 0, data := (), anc := [] }
  obtain ⟨nw, ne, sw, se, hnew, -, -, -, -, hT, hall, -⟩ := C14_cell_split_partial unitOps c 0 hp.1 hp.2.1
  obtain ⟨x, hx, rfl⟩ := (split_parts hnew q).1 h
  obtain ⟨k1, k2, -, k3, k4, k5, -⟩ := hall x hx
  have hpos := (C04_geometry_partial p hp.1 hp.2.1).1
  refine ⟨⟨k1, k2, ?_⟩, width_ne ?_, ⟨fun u v hc => (hT.1 u v).2 ⟨x.bounds, ?_, hc⟩, k3⟩⟩
  · have := hp.2.2
    unfold Boundary.height at k5
    simp only [c] at k5
    linarith
  · rw [k4]
    show p.width / 2 < 360
    linarith
  · simp only [List.mem_cons, List.not_mem_nil, or_false] at hx ⊢
    rcases hx with rfl | rfl | rfl | rfl <;> simp

theorem roots_turn {b : Boundary} {W H : ℚ} (hp : ProperGrid b W H) (hacc : MeshBuilder.validateBounds b W H = .ok ())
    {roots : List Boundary} (hr : MeshBuilder.initializeCells b W H = .ok roots) (q : Boundary) : q ∈ roots ↔ TurnGridBox b W H q := by
  obtain ⟨nx, ny, hnx0, hnx, hny⟩ := hp.fits hacc
  have hpos := (C04_geometry_partial b hp.valid hp.nondeg).1
  have hWp := hp.wpos
  have hHp := hp.hpos
  have hwe := Boundary.width_eq b
  have hW1 : W ≤ 360 := by
    have h1 : (1 : ℚ) ≤ nx := by exact_mod_cast hnx0
    have : 1 * W ≤ nx * W := mul_le_mul_of_nonneg_right h1 hWp.le
    linarith [hpos.2]
  rw [initializeCells_eq b hp.valid hWp hHp hW1 nx ny (by linarith) hny] at hr
  cases hr
  have hlat : b.latMax = b.latMin + ny * H := by unfold Boundary.height at hny; linarith
  have heast : eastEdge b = b.longMin + nx * W := by linarith
  obtain ⟨-, v1, v2, v3, v4, -⟩ := hp.valid
  have cell : ∀ r c : ℕ, c < nx → gridCell b W H nx (r * nx + c) =
      ⟨b.latMin + r * H, b.latMin + r * H + H, turnBack (b.longMin + c * W), turnBack (b.longMin + c * W + W), b.time⟩ := by
    intro r c hc
    have e1 : (r * nx + c) % nx = c := by rw [Nat.mul_comm, Nat.mul_add_mod, Nat.mod_eq_of_lt hc]
    have e2 : (r * nx + c) / nx = r := by
      rw [Nat.mul_comm, Nat.mul_add_div (by omega), Nat.div_eq_of_lt hc]; simp
    have hc0 : (0 : ℚ) ≤ c * W := by positivity
    have hc1 : (c : ℚ) + 1 ≤ nx := by exact_mod_cast hc
    have hc2 : ((c : ℚ) + 1) * W ≤ nx * W := mul_le_mul_of_nonneg_right hc1 hWp.le
    unfold gridCell
    rw [e1, e2, domain_turn (by linarith) (by linarith)]
    simp only [Boundary.mk.injEq, true_and, and_true]
    unfold turnBack
    by_cases h1 : b.longMin + c * W ≤ 180
    · rw [if_pos h1]
    · rw [if_neg h1, if_pos (by linarith), if_neg (by linarith)]
      ring
  constructor
  · intro hq
    obtain ⟨i, hi, rfl⟩ := List.mem_map.1 hq
    obtain ⟨r, c, hc, rfl⟩ := idx_exists hnx0 i
    have hi' := List.mem_range.1 hi
    have hr : r < ny := by
      by_contra hge
      have : ny * nx ≤ r * nx := Nat.mul_le_mul_right _ (by omega)
      omega
    rw [cell r c hc]
    refine ⟨c, r, rfl, ?_, ?_⟩
    · have : (r : ℚ) + 1 ≤ ny := by exact_mod_cast hr
      nlinarith
    · have : (c : ℚ) + 1 ≤ nx := by exact_mod_cast hc
      nlinarith
  · rintro ⟨c, r, rfl, k1, k2⟩
    have hc : c < nx := by
      by_contra hge
      have : (nx : ℚ) ≤ c := by exact_mod_cast (by omega : nx ≤ c)
      nlinarith
    have hr : r < ny := by
      by_contra hge
      have : (ny : ℚ) ≤ r := by exact_mod_cast (by omega : ny ≤ r)
      nlinarith
    refine List.mem_map.2 ⟨r * nx + c, List.mem_range.2 ?_, cell r c hc⟩
    have : (r + 1) * nx ≤ ny * nx := Nat.mul_le_mul_right _ (by omega)
    rw [Nat.add_mul] at this
    omega

theorem cell_small {b : Boundary} {W H : ℚ} (hp : ProperGrid b W H) (hcol : b.width = 360 → W ≤ 180)
    (hacc : MeshBuilder.validateBounds b W H = .ok ()) : W < 360 := by
  obtain ⟨nx, ny, hnx0, hnx, hny⟩ := hp.fits hacc
  have hpos := (C04_geometry_partial b hp.valid hp.nondeg).1
  have h1 : (1 : ℚ) ≤ nx := by exact_mod_cast hnx0
  have : 1 * W ≤ nx * W := mul_le_mul_of_nonneg_right h1 hp.wpos.le
  rcases eq_or_lt_of_le hpos.2 with h | h
  · linarith [hcol h]
  · linarith

/-- The boxes in a region, wherever it lies. -/
theorem around_system {b : Boundary} {W H : ℚ} (hp : ProperGrid b W H) (hcol : b.width = 360 → W ≤ 180)
    (hacc : MeshBuilder.validateBounds b W H = .ok ()) :
    BoxSystem b W H (Around b) (TurnGridBox b W H) turnQuarters where
  roots := fun _ hr => roots_turn hp hacc hr
  first := by
    intro q hq
    obtain ⟨m0, h0⟩ := init_any hp hcol hacc (fun _ => ()) 0
    obtain ⟨roots, g, glob, -, hr, -, hm⟩ := init_inv h0
    obtain ⟨i, hi⟩ := List.mem_iff_getElem?.1 ((roots_turn hp hacc hr q).2 hq)
    have hl : ∃ c, Live m0 i c ∧ c.bounds = q := by
      subst hm
      exact ⟨_, live_init.2 ⟨q, hi, rfl⟩, rfl⟩
    obtain ⟨c, hl, rfl⟩ := hl
    obtain ⟨⟨k1, k2, k3⟩, -⟩ := (reach_history (ops := unitOps) hp ⟨m0, h0, .refl m0⟩ hl).1.all
    exact ⟨k1, width_ne (by linarith [cell_small hp hcol hacc]), k2⟩
  part_iff := fun p q h => partOf_turn h.1 h.2.1
  within := by
    intro p q h hq
    obtain ⟨k1, k2, k3⟩ := partOf_within h.1 ((partOf_turn h.1 h.2.1).2 hq)
    exact ⟨⟨k1, k2, k3.trans h.2.2⟩, k3⟩

/-! ## The sources -/

theorem Spec.GridAround.right {V : Type} {b q : Boundary} {d : Dataset V} (h : GridAround b d) (hq : Around b q) : TrimsRight d q := by
  obtain ⟨⟨g, rfl, hg⟩, -⟩ := h
  exact ⟨hq.1, Or.inr ⟨hg, hq.2.1⟩⟩

theorem Spec.GridAround.isGrid {V : Type} {b : Boundary} {d : Dataset V} (h : GridAround b d) : d.isGrid = true := by
  obtain ⟨⟨g, rfl, hg⟩, -⟩ := h
  rfl

theorem Spec.GridAround.rows {V : Type} {b q : Boundary} {d : Dataset V} (h : GridAround b d) (hq : Around b q) :
    ∃ d', d.trim q = .ok d' ∧ d'.rows = rowsAround d q := by
  obtain ⟨⟨g, rfl, hg⟩, hs, d0, h0⟩ := h
  have e := trim_eq (b := q) hs (by rw [timeLimits_congr hq.2.2.2]; exact trim_time h0)
  refine ⟨_, e, ?_⟩
  rw [trimTo_rows]
  unfold rowsAround
  apply List.filter_congr
  intro r hr
  have hlong : -180 < r.long ∧ r.long ≤ 180 := by
    apply hg
    simp only [Dataset.rows, Grid.rows, List.mem_flatMap] at hr
    obtain ⟨y, -, x, hx, hr⟩ := hr
    rcases hg : g.times with _ | ts
    · simp only [hg, List.mem_singleton] at hr; rw [hr]; exact hx
    · simp only [hg, List.mem_map] at hr; obtain ⟨t, _, rfl⟩ := hr; exact hx
  unfold Dataset.sel
  congr 1
  · rw [Bool.eq_iff_iff, decide_eq_true_iff]
    show Grid.mask q r = true ↔ _
    rw [grid_mask_iff hq.1.1 hq.2.1 r hlong]
    unfold HCovers
    obtain ⟨e1, -⟩ := eastEdge_lt hq.1.1 hq.2.1
    have v1 := hq.1.1.2.1
    constructor
    · rintro ⟨⟨n, n1, n2⟩, h1, h2⟩
      refine ⟨h1, h2, ?_⟩
      have c1 : (-1 : ℚ) < n := by linarith
      have c2 : (n : ℚ) < 2 := by linarith
      have c1 : (-1 : ℤ) < n := by exact_mod_cast c1
      have c2 : n < (2 : ℤ) := by exact_mod_cast c2
      rcases (by omega : n = 0 ∨ n = 1) with rfl | rfl
      · left; constructor <;> push_cast at n1 n2 <;> linarith
      · right; constructor <;> push_cast at n1 n2 <;> linarith
    · rintro ⟨h1, h2, ⟨n1, n2⟩ | ⟨n1, n2⟩⟩
      · exact ⟨⟨0, by push_cast; linarith, by push_cast; linarith⟩, h1, h2⟩
      · exact ⟨⟨1, by push_cast; linarith, by push_cast; linarith⟩, h1, h2⟩
  · congr 1
    unfold timeOk during
    rcases hq : q.time with _ | ⟨t0, _ | ⟨t1, ts⟩⟩ <;> simp

theorem Spec.GridAround.trims {V C : Type} {l : Loader (Dataset V) C} (hl : TrimsDatapoints l) {b p q : Boundary} {d : Dataset V}
    (h : GridAround b d) (hp : Around b p) (hq : Around b q) (hw : Within q p) : l.trim q (l.trim p d) = l.trim q d := by
  obtain ⟨d1, e1, -⟩ := h.rows hp
  obtain ⟨d2, e2, -⟩ := h.rows hq
  have e := (C25_composes_partial d h.2.1 (h.right hp) (h.right hq) hw e1).1
  rw [hl p _ _ e1, hl q _ _ e2, hl q d1 d2 (by rw [e, e2])]

theorem around_scalar_faithful {b : Boundary} {s : Source (Dataset (Option ℚ)) Cond} {id name agg minDp}
    (e : s.loader = scalarLoader id name agg minDp) (h : GridAround b s.subset) :
    FaithfulOn (Around b) s (fun q c => homCondition minDp c ((rowsAround s.subset q).map Row.val)) := by
  constructor
  · intro p q hp hq hw
    exact h.trims (by rw [e]; exact scalarLoader_trims _ _ _ _) hp hq hw
  · intro q hq c _
    obtain ⟨d', e1, e2⟩ := h.rows hq
    rw [e]
    show Except.ok (homCondition minDp c (Dataset.vals (match s.subset.trim q with | .ok d' => d' | .error _ => s.subset))) = _
    rw [e1]
    simp only [Dataset.vals, e2]

theorem around_statistic {b q : Boundary} {agg : AggType} (hagg : agg ∈ [AggType.min, .max, .mean, .median, .std, .count])
    {d : Dataset (Option ℚ)} (h : GridAround b d) (hq : Around b q) :
    ∃ d' v, d.trim q = .ok d' ∧ scalarValue agg q d' = .ok v ∧ Statistic true agg ((rowsAround d q).map Row.val) v := by
  obtain ⟨d', e1, e2⟩ := h.rows hq
  obtain ⟨v, hv, hst⟩ := valueOf_statistic d.isGrid hagg ((rowsAround d q).map Row.val)
  refine ⟨d', v, e1, ?_, by rw [← h.isGrid]; exact hst⟩
  rw [scalarValue_trim agg h.2.1 (h.right hq) e1, scalarValue_eq agg h.2.1 (trim_time e1), ← hv]
  congr 2
  unfold pointsIn
  rw [e1]
  exact e2

theorem around_scalar_valued {b : Boundary} {s : Source (Dataset (Option ℚ)) Cond} {id name agg minDp}
    (e : s.loader = scalarLoader id name agg minDp) (hn : ',' ∉ name.toList) (hagg : agg ∈ [AggType.min, .max, .mean, .median, .std, .count])
    (hfill : s.fill = .parent ∨ ∃ x, s.fill = .const (.num x)) (h : GridAround b s.subset) :
    ∃ value, ValuedOn (Around b) s value ∧ ∀ q, Around b q → GivesAround q (.ofScalar s) (value q) := by
  have hname : s.loader.dataName = name := by rw [e]; rfl
  have key : ∀ q, ∃ v, Around b q → s.loader.getValue q (s.loader.trim q s.subset) = .ok [(name, .num v)] ∧
      Statistic true agg ((rowsAround s.subset q).map Row.val) v := by
    intro q
    by_cases hq : Around b q
    · obtain ⟨d', v, e1, e2, e3⟩ := around_statistic hagg h hq
      refine ⟨v, fun _ => ⟨?_, e3⟩⟩
      rw [e, scalarLoader_trims id name agg minDp q _ _ e1]
      show (scalarValue agg q d' >>= fun v => pure [(name, Val.num v)]) = _
      rw [e2]; rfl
    · exact ⟨none, fun h => absurd h hq⟩
  choose v hv using key
  refine ⟨fun q _ => v q, ⟨?_, ?_, ?_, ?_⟩, fun q hq => .scalar e (hv q hq).2⟩
  · rw [hname, splitName_single hn]; simp
  · intro q d D hD
    rw [e] at hD
    change (scalarValue agg q d >>= fun v => pure [(name, Val.num v)]) = _ at hD
    cases hx : scalarValue agg q d with
    | error _ => rw [hx] at hD; cases hD
    | ok x => rw [hx] at hD; cases hD; simp
  · intro q hq
    refine ⟨_, (hv q hq).1, ?_, ?_⟩
    · rw [hname, splitName_single hn]; simp [Dict.get?]
    · rw [hname, splitName_single hn]
      intro n hne
      rw [List.mem_singleton] at hne
      simp [Dict.get?, Ne.symm hne]
  · rcases hfill with h | h
    · exact Or.inl h
    · exact Or.inr ⟨by rw [hname]; exact hn, h⟩

theorem around_vector_valued {b : Boundary} {s : Source (Dataset Vec) VectorHom.Conds} {id name agg hom x y}
    (e : s.loader = vectorLoader id name agg hom) (hn : splitName name = [x, y]) (hxy : x ≠ y) (hagg : agg ∈ [AggType.min, .max, .mean, .count])
    (hfill : s.fill = .parent) (h : GridAround b s.subset) :
    ∃ value, ValuedOn (Around b) s value ∧ ∀ q, Around b q → GivesAround q (.ofVector s) (value q) := by
  have hname : s.loader.dataName = name := by rw [e]; rfl
  have hget : ∀ q d, s.loader.getValue q d = (vectorValue agg d >>= fun v => pure [(x, Val.num v.1), (y, Val.num v.2)]) := by
    intro q d
    rw [e]
    show (vectorValue agg d >>= fun v => _) = _
    cases vectorValue agg d with
    | error _ => rfl
    | ok v => simp only [bind, Except.bind, hn]
  have key : ∀ q, ∃ v : Vec, Around b q → s.loader.getValue q (s.loader.trim q s.subset) = .ok [(x, .num v.1), (y, .num v.2)] ∧
      VectorStatistic true agg ((rowsAround s.subset q).map Row.val) v := by
    intro q
    by_cases hq : Around b q
    · obtain ⟨d', e1, e2⟩ := h.rows hq
      obtain ⟨v, v1, v2⟩ := vector_statistic true hagg ((rowsAround s.subset q).map Row.val)
      refine ⟨v, fun _ => ⟨?_, v2⟩⟩
      rw [hget]
      have ht : s.loader.trim q s.subset = d' := by
        rw [e]
        exact vectorLoader_trims id name agg _ q _ _ e1
      have hv : vectorValue agg d' = .ok v := by
        rw [← v1, ← e2]
        have hg := (trim_inv h.2.1 e1).symm
        obtain ⟨⟨g, hd, -⟩, -⟩ := h
        rw [hd] at hg
        subst hg
        rfl
      rw [ht, hv]; rfl
    · exact ⟨(none, none), fun h => absurd h hq⟩
  choose v hv using key
  refine ⟨fun q n => if n = x then (v q).1 else (v q).2, ⟨?_, ?_, ?_, Or.inl hfill⟩, fun q hq => .vector e hn ?_⟩
  · rw [hname, hn]; simp [hxy]
  · intro q d D hD
    rw [hget] at hD
    cases hx : vectorValue agg d with
    | error _ => rw [hx] at hD; cases hD
    | ok x => rw [hx] at hD; cases hD; simp [hxy]
  · intro q hq
    refine ⟨_, (hv q hq).1, ?_, ?_⟩
    · rw [hname, hn]
      intro n hm
      simp only [List.mem_cons, List.not_mem_nil, or_false] at hm
      rcases hm with rfl | rfl
      · simp [Dict.get?]
      · simp [Dict.get?, hxy, Ne.symm hxy]
    · rw [hname, hn]
      intro n hm
      simp only [List.mem_cons, List.not_mem_nil, or_false, not_or] at hm
      simp [Dict.get?, Ne.symm hm.1, Ne.symm hm.2]
  · simp only [if_true, if_neg hxy.symm]
    exact (hv q hq).2

theorem around_faithful {b : Boundary} {s : Source AnyData AnyCond} (h : AroundAny b s) : FaithfulOn (Around b) s (ownVerdict s) := by
  cases h with
  | scalar e _ _ _ h => exact Faithful.own (wrap_faithful (by intro _; rfl) (by intro _; rfl) (around_scalar_faithful e h))
  | @vector s _ _ _ _ _ _ e _ _ _ _ hc h =>
    refine Faithful.own (wrap_faithful (verdict := fun _ _ => .clr) (by intro _; rfl) (by intro _; rfl) ⟨?_, ?_⟩)
    · intro p q hp hq hw
      exact h.trims (by rw [e]; exact vectorLoader_trims _ _ _ _) hp hq hw
    · intro q _ c hcm
      rw [hc] at hcm
      cases hcm

theorem around_valued {b : Boundary} {s : Source AnyData AnyCond} (h : AroundAny b s) :
    ∃ value, ValuedOn (Around b) s value ∧ ∀ q, Around b q → GivesAround q s (value q) := by
  cases h with
  | scalar e h1 h2 h3 h =>
    obtain ⟨v, k1, k2⟩ := around_scalar_valued e h1 h2 h3 h
    exact ⟨v, wrap_valued (by intro _; rfl) k1, k2⟩
  | vector e h1 h2 h3 h4 _ h =>
    obtain ⟨v, k1, k2⟩ := around_vector_valued e h1 h2 h3 h4 h
    exact ⟨v, wrap_valued (by intro _; rfl) k1, k2⟩

theorem around_verdict {b q : Boundary} {s : Source AnyData AnyCond} (h : AroundAny b s) (hl : Unlocked s) (hq : Around b q) :
    ((∃ c ∈ s.conds, ownVerdict s q c = .het) ↔ UnevenAround q s) ∧ ∀ c ∈ s.conds, ownVerdict s q c = .clr ∨ ownVerdict s q c = .het := by
  cases h with
  | @scalar s id name agg minDp e _ _ _ h =>
    have hw : ∀ c, ownVerdict (Source.ofScalar s) q (.scalar c) = ownVerdict s q c := ownVerdict_wrap (fun _ => rfl) (fun _ => rfl) s q
    have hlock : ∀ c ∈ s.conds, c.splitLock = false := by
      generalize hS : Source.ofScalar s = S at hl
      cases hl with
      | scalar h => rw [ofScalar_inj hS]; exact h
      | vector h => exact absurd (congrArg Source.subset hS) (by intro h; cases h)
      | lut h => exact absurd (congrArg Source.subset hS) (by intro h; cases h)
    have hv : ∀ {id name agg minDp}, s.loader = scalarLoader id name agg minDp → ∀ c ∈ s.conds,
        (ownVerdict s q c = .het ↔ minDp ≤ (rowsAround s.subset q).length ∧
          c.lower < fractionOver c.threshold ((rowsAround s.subset q).map Row.val) ∧
          fractionOver c.threshold ((rowsAround s.subset q).map Row.val) < c.upper) ∧
        (ownVerdict s q c = .clr ∨ ownVerdict s q c = .het) := by
      intro id name agg minDp e c hc
      have hv : ownVerdict s q c = homCondition minDp c ((rowsAround s.subset q).map Row.val) := by
        unfold ownVerdict
        rw [(around_scalar_faithful e h).decides q hq c hc]
      have hlc := hlock c hc
      rw [hv]
      obtain ⟨d1, d2, -⟩ := C27_decision minDp c ((rowsAround s.subset q).map Row.val)
      rw [List.length_map] at d1 d2
      rcases Nat.lt_or_ge (rowsAround s.subset q).length minDp with h | h
      · rw [d1 h]
        exact ⟨⟨fun h => (by cases h), fun h' => absurd h'.1 (by omega)⟩, Or.inl rfl⟩
      · obtain ⟨-, -, k1, k2, k3⟩ := d2 h
        rcases le_or_gt (fractionOver c.threshold ((rowsAround s.subset q).map Row.val)) c.lower with h1 | h1
        · rw [k1 h1]
          exact ⟨⟨fun h => (by cases h), fun h' => absurd h'.2.1 (not_lt.2 h1)⟩, Or.inl rfl⟩
        · rcases le_or_gt c.upper (fractionOver c.threshold ((rowsAround s.subset q).map Row.val)) with h2 | h2
          · rw [k2 h1 h2, hlc]
            exact ⟨⟨fun h => (by cases h), fun h' => absurd h'.2.2 (not_lt.2 h2)⟩, Or.inl rfl⟩
          · rw [k3 h1 h2]
            exact ⟨⟨fun _ => ⟨h, h1, h2⟩, fun _ => rfl⟩, Or.inr rfl⟩
    constructor
    · constructor
      · rintro ⟨c', hc', hv'⟩
        obtain ⟨c, hc, rfl⟩ := List.mem_map.1 hc'
        rw [hw] at hv'
        obtain ⟨h1, h2, h3⟩ := (hv e c hc).1.1 hv'
        exact .scalar e hc h1 h2 h3
      · intro hu
        generalize hS : Source.ofScalar s = S at hu
        cases hu with
        | scalar e' hc h1 h2 h3 =>
          have := ofScalar_inj hS
          subst this
          exact ⟨_, List.mem_map.2 ⟨_, hc, rfl⟩, by rw [hw]; exact (hv e' _ hc).1.2 ⟨h1, h2, h3⟩⟩
    · intro c' hc'
      obtain ⟨c, hc, rfl⟩ := List.mem_map.1 hc'
      rw [hw]
      exact (hv e c hc).2
  | @vector s _ _ _ _ _ _ e _ _ _ _ hc h =>
    have hn : (Source.ofVector s).conds = [] := by
      show s.conds.map _ = []
      rw [hc]; rfl
    rw [hn]
    refine ⟨⟨by simp, ?_⟩, by simp⟩
    intro hu
    generalize hS : Source.ofVector s = S at hu
    cases hu with
    | scalar => exact absurd (congrArg Source.subset hS) (by intro h; cases h)

/-! ## C113 -/

/-- **C113**: over an accepted region that crosses the antimeridian a mesh is built without raising from scalar and vector sources with
gridded data, in any number and order.  Its cells tile the region.  The values of every cell: each source gives the statistic of the data
in the box of the cell; where there is none, the first one found going up through the boxes it was split from, or the constant of the
source; sources later in the list give a name only if it is missing, except that vector sources replace it. -/
theorem C113_values {b : Boundary} {W H : ℚ} {full : List (Source AnyData AnyCond)} (hf : ∀ s ∈ full, AroundAny b s)
    (hid : (full.map (fun s => s.loader.id)).Nodup)
    (config : MeshConfig) (hp : ProperGrid b W H) (hcr : b.longMax ≤ b.longMin) (hh : b.latMin < b.latMax)
    (hcol : b.width = 360 → W ≤ 180) (hacc : MeshBuilder.validateBounds b W H = .ok ())
    (depth : ℕ) :
    ∃ value : Source AnyData AnyCond → Boundary → String → Option ℚ, (∀ s ∈ full, ∀ q, Around b q → GivesAround q s (value s q)) ∧
    ∃ m0, MeshBuilder.init b W H (fun q => trimSources q full) depth = .ok m0 ∧ ∃ N em, EnvTiles em b ∧ em.config = config ∧
      (∀ fuel, N ≤ fuel → MeshBuilder.buildEnvironmentalMesh (sourceOps AnyData AnyCond) aggregate fuel config m0 = .ok em) ∧
      ∀ c ∈ em.cells, ∃ anc, (∀ q ∈ c.bounds :: anc, Around b q) ∧ LineageBy turnQuarters (TurnGridBox b W H) (c.bounds :: anc) ∧
        ∃ w : Source AnyData AnyCond → String → Option ℚ,
        (∀ s ∈ full, ∀ n ∈ splitName s.loader.dataName, Filled (fun q => value s q n) s.fill c.bounds anc (w s n)) ∧ ∀ n,
        ((∀ s ∈ full, n ∉ splitName s.loader.dataName) → c.data.get? n = none) ∧
        ((∃ s ∈ full, n ∈ splitName s.loader.dataName) → ∃ v, c.data.get? n = some (.num v) ∧
          Merged (fun s : Source AnyData AnyCond => ',' ∈ s.loader.dataName.toList) (fun s => w s n)
            (full.filter (fun s => decide (n ∈ splitName s.loader.dataName))) v) := by
  have hex : ∀ s : Source AnyData AnyCond, ∃ value : Boundary → String → Option ℚ, s ∈ full →
      ValuedOn (Around b) s value ∧ ∀ q, Around b q → GivesAround q s (value q) := by
    intro s
    by_cases hs : s ∈ full
    · obtain ⟨v, hv⟩ := around_valued (hf s hs)
      exact ⟨v, fun _ => hv⟩
    · exact ⟨fun _ _ => none, fun h => absurd h hs⟩
  choose value hvalue using hex
  have hS := around_system hp hcol hacc
  obtain ⟨m0, h0, N, em, h3, -, h4⟩ := faithful_values (fun s hs => around_faithful (hf s hs)) (fun s hs => (hvalue s hs).1) hid config hS hp
    hh hcol hacc depth
  obtain ⟨m0', h0', N', hC⟩ := C52_crossing_partial (sourceOps AnyData AnyCond) aggregate config b W H hp hcr hh hcol hacc
    (fun q => trimSources q full) depth
  have e0 : m0' = m0 := by rw [h0] at h0'; simpa using h0'.symm
  subst e0
  have hwell : EnvTiles em b ∧ em.config = config := by
    rcases hC (max N N') (by omega) with ⟨em', m', h1, h2, -, h5, -⟩ | ⟨e, h1, -⟩
    · rw [h3 _ (by omega)] at h1
      cases h1
      exact ⟨h5, h2⟩
    · rw [h3 _ (by omega)] at h1
      cases h1
  refine ⟨value, fun s hs => (hvalue s hs).2, m0', h0, N, em, hwell.1, hwell.2, h3, fun c hc => ?_⟩
  obtain ⟨anc, ha, hrest⟩ := h4 c hc
  refine ⟨anc, ?_, ha, hrest⟩
  clear hrest
  generalize c.bounds :: anc = l at ha
  induction ha with
  | root hq => intro q hm; rw [List.mem_singleton] at hm; subst hm; exact hS.first _ hq
  | @quarter q p t _ hq ih =>
    intro r hr
    rcases List.mem_cons.1 hr with rfl | hr
    · exact (hS.within _ _ (ih p (by simp)) hq).1
    · exact ih r hr

/-- **C113**, the cells: without locks the boxes of the built mesh are those of refining the cells of the grid, counted eastwards from the
western edge of the region, wherever some source is uneven, down to the depth. -/
theorem C113_cells {b : Boundary} {W H : ℚ} {full : List (Source AnyData AnyCond)} (hf : ∀ s ∈ full, AroundAny b s)
    (hid : (full.map (fun s => s.loader.id)).Nodup) (hlock : ∀ s ∈ full, Unlocked s)
    (config : MeshConfig) (hp : ProperGrid b W H) (hh : b.latMin < b.latMax)
    (hcol : b.width = 360 → W ≤ 180) (hacc : MeshBuilder.validateBounds b W H = .ok ())
    (depth : ℕ) :
    ∃ m0, MeshBuilder.init b W H (fun q => trimSources q full) depth = .ok m0 ∧ ∃ N em,
      (∀ fuel, N ≤ fuel → MeshBuilder.buildEnvironmentalMesh (sourceOps AnyData AnyCond) aggregate fuel config m0 = .ok em) ∧
      ∀ q, (∃ c ∈ em.cells, c.bounds = q) ↔
        ∃ k, RefinedBy turnQuarters (fun q => ∃ s ∈ full, UnevenAround q s) (TurnGridBox b W H) depth k q ∧
          (k = depth ∨ ¬ ∃ s ∈ full, UnevenAround q s) := by
  have hex : ∀ s : Source AnyData AnyCond, ∃ value : Boundary → String → Option ℚ, s ∈ full → ValuedOn (Around b) s value := by
    intro s
    by_cases hs : s ∈ full
    · obtain ⟨v, hv⟩ := around_valued (hf s hs)
      exact ⟨v, fun _ => hv.1⟩
    · exact ⟨fun _ _ => none, fun h => absurd h hs⟩
  choose value hvalue using hex
  have hS := around_system hp hcol hacc
  obtain ⟨m0, h0, N, em, h3, h4, -⟩ := faithful_values (fun s hs => around_faithful (hf s hs)) hvalue hid config hS hp hh hcol hacc depth
  refine ⟨m0, h0, N, em, h3, fun q => ?_⟩
  have hw : ∀ q, Around b q → (Wants ownVerdict full q ↔ ∃ s ∈ full, UnevenAround q s) := by
    intro q hq
    constructor
    · rintro ⟨s, hs, h⟩
      exact ⟨s, hs, (around_verdict (hf s hs) (hlock s hs) hq).1.1 h⟩
    · rintro ⟨s, hs, h⟩
      exact ⟨s, hs, (around_verdict (hf s hs) (hlock s hs) hq).1.2 h⟩
  have congr : ∀ {wants wants' : Boundary → Prop}, (∀ q, Around b q → (wants q ↔ wants' q)) → ∀ {k q},
      RefinedBy turnQuarters wants (TurnGridBox b W H) depth k q → RefinedBy turnQuarters wants' (TurnGridBox b W H) depth k q ∧ Around b q := by
    intro wants wants' h k q hr
    induction hr with
    | start hq => exact ⟨.start hq, hS.first _ hq⟩
    | quarter _ hk hw hq ih => exact ⟨.quarter ih.1 hk ((h _ ih.2).1 hw) hq, (hS.within _ _ ih.2 hq).1⟩
  rw [h4 (fun s hs c hc q hq => (around_verdict (hf s hs) (hlock s hs) hq).2 c hc) q]
  constructor
  · rintro ⟨k, h1, h2⟩
    obtain ⟨h1', hi⟩ := congr hw h1
    exact ⟨k, h1', h2.imp id (fun h h' => h ((hw q hi).2 h'))⟩
  · rintro ⟨k, h1, h2⟩
    obtain ⟨h1', hi⟩ := congr (fun q hq => (hw q hq).symm) h1
    exact ⟨k, h1', h2.imp id (fun h h' => h ((hw q hi).1 h'))⟩

/-- A region over the antimeridian whose first column lies across it. -/
def exAroundRegion : Boundary := ⟨0, 20, 175, -165, []⟩

theorem exAroundRegion_proper : ProperGrid exAroundRegion 10 10 := by
  refine ⟨by norm_num [Valid, exAroundRegion], by norm_num [exAroundRegion], by norm_num, by norm_num, ?_⟩
  intro h
  have : exAroundRegion.width = 20 := by decide +kernel
  rw [this] at h; norm_num at h

/-- A scalar and a vector source with gridded data on both sides of the antimeridian. -/
def exAround : List (Source AnyData AnyCond) :=
  [.ofScalar ⟨scalarLoader 0 "a" .mean 1, [⟨0, 0, 1, false⟩], .parent, .grid exGrid⟩,
   .ofVector (vectorSource 1 "u,v" .mean 1 [] .parent (.grid ⟨[5, 10], [-175, 180], none, fun y x _ => (some y, some x)⟩))]

theorem exAround_all : (∀ s ∈ exAround, AroundAny exAroundRegion s) ∧ (exAround.map (fun s => s.loader.id)).Nodup ∧
    ∀ s ∈ exAround, Unlocked s := by
  refine ⟨?_, by decide, ?_⟩
  · intro s hs
    simp only [exAround, List.mem_cons, List.not_mem_nil, or_false] at hs
    rcases hs with rfl | rfl
    · exact .scalar rfl (by decide) (by simp) (Or.inl rfl) ⟨⟨_, rfl, exGrid_longs⟩, exGrid_sorted, _,
        trim_eq exGrid_sorted (by intro h; cases h)⟩
    · have hs : (Dataset.grid (⟨[5, 10], [-175, 180], none, fun y x _ => (some y, some x)⟩ : Grid Vec)).Sorted := by
        unfold Dataset.Sorted; constructor <;> decide +kernel
      exact .vector (x := "u") (y := "v") rfl (by decide +kernel) (by decide) (by simp) rfl rfl
        ⟨⟨_, rfl, by decide +kernel⟩, hs, _, trim_eq hs (by intro h; cases h)⟩
  · intro s hs
    simp only [exAround, List.mem_cons, List.not_mem_nil, or_false] at hs
    rcases hs with rfl | rfl
    · exact .scalar (by intro c hc; rw [List.mem_singleton] at hc; subst hc; rfl)
    · exact .vector (by intro c hc; simp [vectorSource] at hc)

/-- The four points in the box across the antimeridian, two on each side of it. -/
example : rowsAround (.grid exGrid) ⟨0, 10, 175, -175, []⟩ =
    [⟨5, -175, 0, some (-170)⟩, ⟨5, 180, 0, some 185⟩, ⟨10, -175, 0, some (-165)⟩, ⟨10, 180, 0, some 190⟩] := by decide +kernel

/-- The hypotheses of C113 hold for them: the mesh is built, and its first cell, which lies across the antimeridian, is split along it. -/
example : ∃ m0, MeshBuilder.init exAroundRegion 10 10 (fun q => trimSources q exAround) 1 = .ok m0 ∧ ∃ N em,
    (∀ fuel, N ≤ fuel → MeshBuilder.buildEnvironmentalMesh (sourceOps AnyData AnyCond) aggregate fuel exConfig m0 = .ok em) ∧
    ¬ (∃ c ∈ em.cells, c.bounds = ⟨0, 10, 175, -175, []⟩) ∧ ∃ c ∈ em.cells, c.bounds = ⟨0, 5, 180, -175, []⟩ := by
  obtain ⟨h1, h2, h3⟩ := exAround_all
  have hw : exAroundRegion.width ≠ 360 := by decide +kernel
  obtain ⟨m0, h0, N, em, hb, hcells⟩ := C113_cells (W := 10) (H := 10) h1 h2 h3 exConfig exAroundRegion_proper (by norm_num [exAroundRegion])
    (fun h => absurd h hw) (by decide +kernel) 1
  have hu : ∃ s ∈ exAround, UnevenAround ⟨0, 10, 175, -175, []⟩ s :=
    ⟨_, List.mem_cons_self, .scalar rfl (List.mem_singleton.2 rfl) (by decide +kernel) (by decide +kernel) (by decide +kernel)⟩
  have hg : TurnGridBox exAroundRegion 10 10 ⟨0, 10, 175, -175, []⟩ :=
    ⟨0, 0, by norm_num [exAroundRegion, turnBack], by norm_num [exAroundRegion], by norm_num [exAroundRegion, eastEdge]⟩
  refine ⟨m0, h0, N, em, hb, ?_, ?_⟩
  · rw [hcells]
    rintro ⟨k, hr, hk | hk⟩
    · subst hk
      cases hr with
      | quarter hr _ _ hq =>
        cases hr with
        | start hs =>
          obtain ⟨i, j, rfl, -, -⟩ := hs
          simp only [turnQuarters, List.mem_cons, List.not_mem_nil, or_false, Boundary.mk.injEq] at hq
          rcases hq with hq | hq | hq | hq <;> linarith [hq.1, hq.2.1]
    · exact hk hu
  · rw [hcells]
    refine ⟨1, .quarter (.start hg) (by norm_num) hu ?_, Or.inl rfl⟩
    norm_num [turnQuarters, eastEdge, turnBack]

end Verif
