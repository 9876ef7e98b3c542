import Verif.Props.Crossing
import Verif.Proof.SoundSplit

/-!
# C18, C19: the graph of regions that cross the antimeridian, after any splits
-/

namespace Verif
open Spec

variable {D : Type}

theorem neighbourCaseBounds_arc (a b : Boundary) (ha : 0 < a.width) (ha' : 0 < a.height) (hb : 0 < b.width) (hb' : 0 < b.height) (d : Dir) :
    Graph.neighbourCaseBounds a b = some d ↔ Touches d (arcOf a) (arcOf b) := by
  have e1 := Boundary.width_eq a
  have e2 := Boundary.width_eq b
  unfold arcOf
  unfold Boundary.height at ha' hb'
  have r1 : a.longMin + a.width = eastEdge a := by linarith
  have r2 : a.latMin + (a.latMax - a.latMin) = a.latMax := by ring
  have r3 : b.longMin + b.width = eastEdge b := by linarith
  have r4 : b.latMin + (b.latMax - b.latMin) = b.latMax := by ring
  unfold Graph.neighbourCaseBounds
  simp only [Boundary.height, r1, r2, r3, r4]
  rw [e1] at ha
  rw [e2] at hb
  cases d <;> simp only [Touches, sideRel, hSide, vSide] <;> grind

theorem Rect.quarter_shift (r : Rect) (t : ℚ) (q : Spec.Quad) : (r.shift t).quarter q = (r.quarter q).shift t := by
  cases q <;> simp only [Rect.quarter, Rect.shift, Rect.mk.injEq, and_true, true_and]
  all_goals ring

theorem Rect.shift_shift (r : Rect) (s t : ℚ) : (r.shift s).shift t = r.shift (s + t) := by
  simp only [Rect.shift, Rect.mk.injEq, and_true]
  constructor <;> ring

/-- Where the eastern quarters start. -/
theorem split_longs (ops : DataOps D) (c : CellBox D) (start : ℕ) {nw ne sw se : CellBox D} (h : c.split ops start = .ok [nw, ne, sw, se]) :
    ne.bounds.longMin = longitudeDomain (c.bounds.longMin + c.bounds.width / 2) ∧
    se.bounds.longMin = longitudeDomain (c.bounds.longMin + c.bounds.width / 2) := by
  have key : ∀ lats x y t r, Boundary.mk? lats [x, y] t = .ok r → r.longMin = x := by
    intro lats x y t r h
    obtain ⟨a, a', l, w, e, l', h1, h2, -, -, -, -, rfl⟩ := (C03_construction_table _ _ _ _).1 h
    cases h2
    rfl
  unfold CellBox.split CellBox.createSplitted at h
  simp only [bind, Except.bind, pure, Except.pure] at h
  split at h
  · cases h
  · rename_i l hl
    split at hl
    · cases hl
    · split at hl
      · cases hl
      · split at hl
        · cases hl
        · split at hl
          · cases hl
          · rename_i _ e2 _ _ _ _ _ e4
            cases hl
            simp only [List.map_cons, List.map_nil, Except.ok.injEq, List.cons.injEq, and_true] at h
            obtain ⟨-, rfl, -, rfl⟩ := h
            exact ⟨key _ _ _ _ _ e2, key _ _ _ _ _ e4⟩

/-- The quarters of any valid cell, unrolled. -/
theorem split_arcs (ops : DataOps D) (c : CellBox D) (start : ℕ) (hv : Valid c.bounds)
    (hd : ¬ (c.bounds.longMin = 180 ∧ c.bounds.longMax = -180)) :
    ∃ f : Spec.Quad → CellBox D, c.split ops start = .ok [f .nw, f .ne, f .sw, f .se] ∧
      (∀ q, (f q).bounds.width = c.bounds.width / 2 ∧ (f q).bounds.height = c.bounds.height / 2) ∧
      (∀ q, (f q).bounds.longMin = longitudeDomain ((arcOf c.bounds).quarter q).w) ∧
      ∀ q, ∃ t : ℤ, arcOf (f q).bounds = ((arcOf c.bounds).quarter q).shift (360 * t) := by
  obtain ⟨nw, ne, sw, se, hs, -, -, -, -, -, hq, l1, l2, l3, ⟨t, l4⟩, a1, a2, a3, a4⟩ := C14_cell_split_partial ops c start hv hd
  simp only [List.mem_cons, List.not_mem_nil, or_false, forall_eq_or_imp, forall_eq] at hq
  obtain ⟨⟨-, -, -, -, w1, h1, -⟩, ⟨-, -, -, -, w2, h2, -⟩, ⟨-, -, -, -, w3, h3, -⟩, ⟨-, -, -, -, w4, h4, -⟩⟩ := hq
  refine ⟨fun q => match q with | .nw => nw | .ne => ne | .sw => sw | .se => se, hs, ?_, ?_, ?_⟩
  · intro q
    cases q
    · exact ⟨w1, h1⟩
    · exact ⟨w2, h2⟩
    · exact ⟨w3, h3⟩
    · exact ⟨w4, h4⟩
  · intro q
    obtain ⟨s1, s2⟩ := split_longs ops c start hs
    have hmid : (c.bounds.longMin + eastEdge c.bounds) / 2 = c.bounds.longMin + c.bounds.width / 2 := by
      have := Boundary.width_eq c.bounds
      linarith
    have hfix := (C01_longitude_domain c.bounds.longMin).2.2.1 hv.2.1 hv.2.2.1
    cases q
    · simp only [Rect.quarter, arcOf]; rw [l1, hfix]
    · simp only [Rect.quarter, arcOf, hmid]; exact s1
    · simp only [Rect.quarter, arcOf]; rw [l2, hfix]
    · simp only [Rect.quarter, arcOf, hmid]; exact s2
  · have e0 := Boundary.width_eq c.bounds
    have e1 := Boundary.width_eq nw.bounds
    have e2 := Boundary.width_eq ne.bounds
    have e3 := Boundary.width_eq sw.bounds
    have e4 := Boundary.width_eq se.bounds
    unfold Boundary.height at h1 h2 h3 h4
    intro q
    cases q
    · refine ⟨0, ?_⟩
      simp only [arcOf, Rect.quarter, Rect.shift, Rect.mk.injEq, Int.cast_zero]
      refine ⟨?_, ?_, ?_, ?_⟩ <;> linarith
    · refine ⟨t, ?_⟩
      simp only [arcOf, Rect.quarter, Rect.shift, Rect.mk.injEq]
      refine ⟨?_, ?_, ?_, ?_⟩ <;> linarith
    · refine ⟨0, ?_⟩
      simp only [arcOf, Rect.quarter, Rect.shift, Rect.mk.injEq, Int.cast_zero]
      refine ⟨?_, ?_, ?_, ?_⟩ <;> linarith
    · refine ⟨t, ?_⟩
      simp only [arcOf, Rect.quarter, Rect.shift, Rect.mk.injEq]
      refine ⟨?_, ?_, ?_, ?_⟩ <;> linarith

/-- The graph is well-formed for unrolled cells `U`, all seen within one turn from the western edge. -/
structure SeamOK (b : Boundary) (W : ℚ) (m : MeshState D) (U : ℕ → Option Rect) : Prop where
  flag : m.graph.isGlobal = false
  live : ∀ i c, Live m i c → ∃ t : ℤ, U i = some ((arcOf c.bounds).shift (360 * t))
  dead : ∀ i r, U i = some r → ∃ c, Live m i c
  within : ∀ i r, U i = some r → b.longMin ≤ r.w ∧ r.e ≤ b.longMin + b.width ∧ r.e - r.w ≤ W
  sound : Sound U m.graph.look
  sheet : ∀ i c r, Live m i c → U i = some r → c.bounds.longMin = longitudeDomain r.w
  cols : ∀ i r, U i = some r → ∃ n : ℕ, b.longMin + n * W ≤ r.w ∧ r.e ≤ b.longMin + (n + 1) * W
  west : Lists (fun r => r.w ≤ 180) U m.graph.look
  east : Lists (fun r => ∃ n : ℕ, 180 < b.longMin + n * W ∧ b.longMin + n * W ≤ r.w) U m.graph.look

/-- Past the antimeridian. -/
theorem domain_past {x : ℚ} (h1 : 180 < x) (h2 : x < 540) : longitudeDomain x = x - 360 := by
  obtain ⟨⟨a, b⟩, ⟨n, hn⟩, -⟩ := C01_longitude_domain x
  have c1 : (-2 : ℚ) < n := by linarith
  have c2 : (n : ℚ) < 0 := by linarith
  have c1 : (-2 : ℤ) < n := by exact_mod_cast c1
  have c2 : n < (0 : ℤ) := by exact_mod_cast c2
  have : n = -1 := by omega
  rw [hn, this]; push_cast; ring

/-- How far a box is to be turned to be where it is unrolled. -/
theorem sheet_turn {a r : Rect} {t : ℤ} (h : r = a.shift (360 * t)) (hs : a.w = longitudeDomain r.w) (h0 : -180 ≤ r.w) (h1 : r.w < 540) :
    (r.w ≤ 180 → r = a) ∧ (180 < r.w → r = a.shift 360) := by
  have hw : r.w = a.w + 360 * t := by rw [h]; rfl
  constructor
  · intro h2
    rw [(C01_longitude_domain r.w).2.2.1 h0 h2] at hs
    have : (t : ℚ) = 0 := by linarith
    rw [h, this, mul_zero, Rect.shift_zero]
  · intro h2
    rw [domain_past h2 h1] at hs
    have : (t : ℚ) = 1 := by linarith
    rw [h, this, mul_one]

/-- Seen from the neighbours on a side of a cell, whole turns do not matter for the quarters on that side. -/
theorem turn_zero {x0 w W : ℚ} (hw : w < 360 ∨ w = 360 ∧ W ≤ 180) {K r : Rect} (hK : K.Pos) (hr : r.Pos)
    (hK0 : x0 ≤ K.w) (hK1 : K.e ≤ x0 + w) (hKW : K.e - K.w ≤ W) (hr0 : x0 ≤ r.w) (hr1 : r.e ≤ x0 + w) (hrW : r.e - r.w ≤ W)
    {q : Spec.Quad} {d e : Dir} (hd : d = Quad.hDir q ∨ d = Quad.vDir q) (ht : Touches d K r) {n : ℤ}
    (h : Touches e r ((K.quarter q).shift (360 * n))) : n = 0 := by
  obtain ⟨k1, k2⟩ := hK
  obtain ⟨r1, r2⟩ := hr
  have key : -1 < (n : ℚ) ∧ (n : ℚ) < 1 ∨ (w = 360 ∧ W ≤ 180 ∧ ((n : ℚ) = 1 ∨ (n : ℚ) = -1)) := by
    have hn : -1 ≤ (n : ℚ) ∧ (n : ℚ) ≤ 1 := by
      have h1 := h.1
      have hw' : w ≤ 360 := by rcases hw with h | h <;> linarith
      have q0 : x0 ≤ (K.quarter q).w ∧ (K.quarter q).e ≤ x0 + w := by
        cases q <;> simp only [Rect.quarter] <;> constructor <;> linarith
      obtain ⟨q0, q1⟩ := q0
      have q2 : (K.quarter q).w < (K.quarter q).e := by cases q <;> simp only [Rect.quarter] <;> linarith
      cases e <;> simp only [hSide, sideRel, Rect.shift] at h1 <;> (constructor <;> linarith)
    rcases hw with hw | ⟨hw, hW⟩
    · left
      have h1 := h.1
      have q0 : x0 ≤ (K.quarter q).w ∧ (K.quarter q).e ≤ x0 + w := by
        cases q <;> simp only [Rect.quarter] <;> constructor <;> linarith
      obtain ⟨q0, q1⟩ := q0
      have q2 : (K.quarter q).w < (K.quarter q).e := by cases q <;> simp only [Rect.quarter] <;> linarith
      cases e <;> simp only [hSide, sideRel, Rect.shift] at h1 <;> (constructor <;> linarith)
    · by_cases ha : (n : ℚ) = 1
      · exact Or.inr ⟨hw, hW, Or.inl ha⟩
      · by_cases hb : (n : ℚ) = -1
        · exact Or.inr ⟨hw, hW, Or.inr hb⟩
        · exact Or.inl ⟨lt_of_le_of_ne hn.1 (Ne.symm hb), lt_of_le_of_ne hn.2 ha⟩
  rcases key with ⟨l1, l2⟩ | ⟨hw, hW, hn⟩
  · have l1 : -1 < n := by exact_mod_cast l1
    have l2 : n < 1 := by exact_mod_cast l2
    omega
  · exfalso
    subst hw
    have h1 := h.1
    have t1 := ht.1
    rcases hn with hn | hn <;> rw [hn] at h1 <;> rcases hd with rfl | rfl <;> cases q <;>
      simp only [Quad.hDir, Quad.vDir, hSide, sideRel] at t1 <;> simp only [Rect.quarter, Rect.shift] at h1 <;>
      cases e <;> simp only [hSide, sideRel] at h1 <;> linarith

/-- `split_and_replace` on any live cell succeeds and keeps the graph well-formed. -/
theorem SeamOK.split {b : Boundary} {W H : ℚ} (hb : Valid b) (hw : b.width < 360 ∨ b.width = 360 ∧ W ≤ 180) (ops : DataOps D) {m : MeshState D}
    {U : ℕ → Option Rect} {k : ℕ} {c : CellBox D} (hm : CellsOK b W H m) (hg : SeamOK b W m U) (hk : Live m k c) :
    ∃ m' U', MeshBuilder.splitAndReplace ops m k = .ok m' ∧ SeamOK b W m' U' := by
  obtain ⟨hv, hd⟩ := hm.valid k c hk
  obtain ⟨f, hsp, hsz, hlong, hf⟩ := split_arcs ops c m.cells.length hv hd
  have hlt := live_lt hk
  obtain ⟨tk, hUk⟩ := hg.live k c hk
  have hKpos := hg.sound.pos k _ hUk
  set K := (arcOf c.bounds).shift (360 * (tk : ℚ)) with hKdef
  set cells' := m.cells ++ [some (f .nw), some (f .ne), some (f .sw), some (f .se)] with hcells
  -- unrolled rectangles of the quarters
  have hfK : ∀ q, ∃ t : ℤ, K.quarter q = (arcOf (f q).bounds).shift (360 * t) := by
    intro q
    obtain ⟨t, ht⟩ := hf q
    refine ⟨tk - t, ?_⟩
    rw [ht, Rect.shift_shift, hKdef, Rect.quarter_shift]
    congr 1
    push_cast; ring
  have sizes : ∀ i c', Live m i c' → 0 < c'.bounds.width ∧ 0 < c'.bounds.height := by
    intro i c' hl
    obtain ⟨t, ht⟩ := hg.live i c' hl
    obtain ⟨p1, p2⟩ := hg.sound.pos i _ ht
    have := Boundary.width_eq c'.bounds
    simp only [Rect.shift, arcOf] at p1 p2
    refine ⟨by linarith, ?_⟩
    unfold Boundary.height; linarith
  have sizesN : ∀ q, 0 < (f q).bounds.width ∧ 0 < (f q).bounds.height := by
    intro q
    rw [(hsz q).1, (hsz q).2]
    have := sizes k c hk
    exact ⟨by linarith [this.1], by linarith [this.2]⟩
  have bnd_old : ∀ i c', Live m i c' → boundsAt cells' i = .ok c'.bounds := by
    intro i c' hl
    unfold boundsAt cellAt
    rw [hcells, List.getElem?_append_left (live_lt hl), hl]
    rfl
  have bnd_new : ∀ q, boundsAt cells' (childId m.cells.length q) = .ok (f q).bounds := by
    intro q
    unfold boundsAt cellAt childId
    cases q <;> simp [hcells]
  have fresh : ∀ q, U (childId m.cells.length q) = none := by
    intro q
    rcases h : U (childId m.cells.length q) with _ | r
    · rfl
    · obtain ⟨c', hl⟩ := hg.dead _ r h
      have := live_lt hl
      cases q <;> simp [childId] at this
  -- the cases the code computes
  let cf : ℕ → ℕ → Option Dir := fun i j => match boundsAt cells' i, boundsAt cells' j with
    | .ok a, .ok b => Graph.neighbourCase false a b
    | _, _ => none
  have caseE : ∀ i j a a', boundsAt cells' i = .ok a → boundsAt cells' j = .ok a' →
      Graph.caseAt m.graph.isGlobal (boundsAt cells') i j = .ok (cf i j) ∧ cf i j = Graph.neighbourCaseBounds a a' := by
    intro i j a a' hi hj
    constructor
    · unfold Graph.caseAt
      simp only [cf, hi, hj, bind, Except.bind, pure, Except.pure, hg.flag]
    · simp only [cf, hi, hj, Graph.neighbourCase]
      simp
  have cellB : ∀ i r, U i = some r → ∃ c', Live m i c' ∧ boundsAt cells' i = .ok c'.bounds ∧
      ∃ t : ℤ, r = (arcOf c'.bounds).shift (360 * t) := by
    intro i r hi
    obtain ⟨c', hl⟩ := hg.dead i r hi
    obtain ⟨t, ht⟩ := hg.live i c' hl
    rw [hi] at ht
    exact ⟨c', hl, bnd_old i c' hl, t, Option.some.inj ht⟩
  have hw360 : b.width ≤ 360 := by rcases hw with h | h <;> linarith
  have hW0 : 0 < W := by linarith [(hg.within k K hUk).2.2, hKpos.1]
  have range : ∀ i r, U i = some r → -180 ≤ r.w ∧ r.w < 540 := by
    intro i r hi
    obtain ⟨w1, w2, -⟩ := hg.within i r hi
    obtain ⟨p1, -⟩ := hg.sound.pos i r hi
    exact ⟨by linarith [hb.2.1], by linarith [hb.2.2.1]⟩
  have rangeQ : ∀ q, K.w ≤ (K.quarter q).w ∧ (K.quarter q).w < K.e := by
    intro q
    obtain ⟨k1, -⟩ := hKpos
    cases q <;> simp only [Rect.quarter] <;> constructor <;> linarith
  have rangeQ' : ∀ q, -180 ≤ (K.quarter q).w ∧ (K.quarter q).w < 540 := by
    intro q
    obtain ⟨w1, w2, -⟩ := hg.within k K hUk
    obtain ⟨q1, q2⟩ := rangeQ q
    exact ⟨by linarith [hb.2.1], by linarith [hb.2.2.1]⟩
  have sheetQ : ∀ q, (f q).bounds.longMin = longitudeDomain (K.quarter q).w := by
    intro q
    rw [hlong q]
    have hs := hg.sheet k c K hk hUk
    have hr := range k K hUk
    obtain ⟨t0, t1⟩ := sheet_turn (a := arcOf c.bounds) (t := tk) hKdef hs hr.1 hr.2
    by_cases h : K.w ≤ 180
    · rw [← t0 h]
    · have hK' := t1 (not_le.1 h)
      have e : (K.quarter q).w = ((arcOf c.bounds).quarter q).w + 360 := by rw [hK', Rect.quarter_shift]; rfl
      obtain ⟨q1, q2⟩ := rangeQ q
      obtain ⟨q3, q4⟩ := rangeQ' q
      have h' := not_le.1 h
      rw [domain_past (by linarith) q4, (C01_longitude_domain _).2.2.1 (by linarith) (by linarith)]
      linarith
  obtain ⟨g', e1, e2, e3, e4, e5⟩ := splitGraph_sound planar_laws U m.graph hg.sound k K hUk (childId m.cells.length) fresh (childId_inj _)
    (boundsAt cells') cf
    (fun i r q hi => by
      obtain ⟨c', -, hb, -⟩ := cellB i r hi
      exact (caseE _ _ _ _ hb (bnd_new q)).1)
    (fun i r q hi => by
      obtain ⟨c', -, hb, -⟩ := cellB i r hi
      exact (caseE _ _ _ _ (bnd_new q) hb).1)
    (fun i r q e hi => by
      obtain ⟨c', hl, hb, -⟩ := cellB i r hi
      rw [(caseE _ _ _ _ hb (bnd_new q)).2, (caseE _ _ _ _ (bnd_new q) hb).2,
        neighbourCaseBounds_arc _ _ (sizesN q).1 (sizesN q).2 (sizes i c' hl).1 (sizes i c' hl).2,
        neighbourCaseBounds_arc _ _ (sizes i c' hl).1 (sizes i c' hl).2 (sizesN q).1 (sizesN q).2]
      exact (touches_opp _ _ _).symm)
    (fun i r q d e hi ht hside hcf => by
      obtain ⟨c', hl, hb, t, rfl⟩ := cellB i r hi
      rw [(caseE _ _ _ _ hb (bnd_new q)).2,
        neighbourCaseBounds_arc _ _ (sizes i c' hl).1 (sizes i c' hl).2 (sizesN q).1 (sizesN q).2] at hcf
      obtain ⟨s, hs⟩ := hfK q
      obtain ⟨w1, w2, w3⟩ := hg.within k K hUk
      obtain ⟨v1, v2, v3⟩ := hg.within i _ hi
      have hcf' : Touches e ((arcOf c'.bounds).shift (360 * (t : ℚ))) ((K.quarter q).shift (360 * ((t - s : ℤ) : ℚ))) := by
        rw [hs, Rect.shift_shift]
        have e : 360 * (s : ℚ) + 360 * ((t - s : ℤ) : ℚ) = 360 * (t : ℚ) := by push_cast; ring
        rw [e, touches_shift_both, sub_self, Rect.shift_zero]
        exact hcf
      have hz := turn_zero hw hKpos (hg.sound.pos i _ hi) w1 w2 w3 v1 v2 v3 hside ht hcf'
      rw [hz, Int.cast_zero, mul_zero, Rect.shift_zero] at hcf'
      exact hcf')
  have seen : ∀ i r q e, U i = some r → (r.w ≤ 180 ∧ (K.quarter q).w ≤ 180 ∨ 180 < r.w ∧ 180 < (K.quarter q).w) →
      Touches e (K.quarter q) r → cf (childId m.cells.length q) i = some e := by
    intro i r q e hi hsame ht
    obtain ⟨c', hl, hb', t, hr⟩ := cellB i r hi
    rw [(caseE _ _ _ _ (bnd_new q) hb').2,
      neighbourCaseBounds_arc _ _ (sizesN q).1 (sizesN q).2 (sizes i c' hl).1 (sizes i c' hl).2]
    obtain ⟨s, hs⟩ := hfK q
    have r1 := range i r hi
    obtain ⟨a0, a1⟩ := sheet_turn (a := arcOf c'.bounds) hr (hg.sheet i c' r hl hi) r1.1 r1.2
    obtain ⟨b0, b1⟩ := sheet_turn (a := arcOf (f q).bounds) hs (sheetQ q) (rangeQ' q).1 (rangeQ' q).2
    rcases hsame with ⟨h1, h2⟩ | ⟨h1, h2⟩
    · rw [← a0 h1, ← b0 h2]; exact ht
    · rw [a1 h1, b1 h2, touches_shift_both, sub_self, Rect.shift_zero] at ht
      exact ht
  refine ⟨{ m with cells := cells'.set k none, graph := g' }, replaced U k K (childId m.cells.length), ?_, ?_⟩
  · unfold MeshBuilder.splitAndReplace
    simp only [bind, Except.bind, cellAt_ok_iff.2 hk, hsp, List.map_cons, List.map_nil]
    simp only [childId] at e1
    rw [hcells] at e1 ⊢
    rw [e1]; rfl
  · have hkc : ∀ q, k ≠ childId m.cells.length q := by intro q; cases q <;> simp [childId] <;> omega
    have L := live_after hk (f .nw) (f .ne) (f .sw) (f .se) g'
    have childLive : ∀ q, Live { m with cells := cells'.set k none, graph := g' } (childId m.cells.length q) (f q) := by
      intro q
      cases q <;> exact (L _ _).2 (by simp [childId])
    have other : ∀ i, i < m.cells.length → ∀ q, i ≠ childId m.cells.length q := by
      intro i hi q; cases q <;> simp [childId] <;> omega
    have rep : ∀ i r, replaced U k K (childId m.cells.length) i = some r →
        (∃ q, i = childId m.cells.length q ∧ r = K.quarter q) ∨ (i ≠ k ∧ U i = some r) := by
      intro i r hi
      by_cases h1 : i = k
      · subst h1; rw [replaced_self] at hi; cases hi
      · by_cases h2 : ∃ q, i = childId m.cells.length q
        · obtain ⟨q, rfl⟩ := h2
          rw [replaced_child (childId_inj _) hkc] at hi; cases hi
          exact Or.inl ⟨q, rfl, rfl⟩
        · rw [replaced_other h1 (fun q h => h2 ⟨q, h⟩)] at hi
          exact Or.inr ⟨h1, hi⟩
    constructor
    · exact e2.trans hg.flag
    · intro i c' hl
      rcases (L i c').1 hl with ⟨hik, hl⟩ | h
      · rw [replaced_other hik (other i (live_lt hl))]
        exact hg.live i c' hl
      · have hq : ∃ q, i = childId m.cells.length q ∧ c' = f q := by
          rcases h with ⟨rfl, rfl⟩ | ⟨rfl, rfl⟩ | ⟨rfl, rfl⟩ | ⟨rfl, rfl⟩
          · exact ⟨.nw, rfl, rfl⟩
          · exact ⟨.ne, rfl, rfl⟩
          · exact ⟨.sw, rfl, rfl⟩
          · exact ⟨.se, rfl, rfl⟩
        obtain ⟨q, rfl, rfl⟩ := hq
        rw [replaced_child (childId_inj _) hkc]
        obtain ⟨t, ht⟩ := hfK q
        exact ⟨t, by rw [ht]⟩
    · intro i r hi
      rcases rep i r hi with ⟨q, rfl, -⟩ | ⟨hik, hU⟩
      · exact ⟨f q, childLive q⟩
      · obtain ⟨c', hl⟩ := hg.dead i r hU
        exact ⟨c', (L i c').2 (Or.inl ⟨hik, hl⟩)⟩
    · intro i r hi
      rcases rep i r hi with ⟨q, -, rfl⟩ | ⟨-, hU⟩
      · obtain ⟨w1, w2, w3⟩ := hg.within k K hUk
        obtain ⟨k1, k2⟩ := hKpos
        cases q <;> simp only [Rect.quarter] <;> refine ⟨?_, ?_, ?_⟩ <;> linarith
      · exact hg.within i r hU
    · exact e3
    · intro i c' r hl hi
      rcases (L i c').1 hl with ⟨hik, hl⟩ | h
      · rw [replaced_other hik (other i (live_lt hl))] at hi
        exact hg.sheet i c' r hl hi
      · have hq : ∃ q, i = childId m.cells.length q ∧ c' = f q := by
          rcases h with ⟨rfl, rfl⟩ | ⟨rfl, rfl⟩ | ⟨rfl, rfl⟩ | ⟨rfl, rfl⟩
          · exact ⟨.nw, rfl, rfl⟩
          · exact ⟨.ne, rfl, rfl⟩
          · exact ⟨.sw, rfl, rfl⟩
          · exact ⟨.se, rfl, rfl⟩
        obtain ⟨q, rfl, rfl⟩ := hq
        rw [replaced_child (childId_inj _) hkc] at hi
        cases hi
        exact sheetQ q
    · intro i r hi
      rcases rep i r hi with ⟨q, -, rfl⟩ | ⟨-, hU⟩
      · obtain ⟨n, n1, n2⟩ := hg.cols k K hUk
        obtain ⟨k1, k2⟩ := hKpos
        refine ⟨n, ?_⟩
        cases q <;> simp only [Rect.quarter] <;> refine ⟨?_, ?_⟩ <;> linarith
      · exact hg.cols i r hU
    · refine lists_split hg.sound hg.west hUk fresh (childId_inj _) e3 e4 e5 ?_ ?_
      · intro q hq
        exact (rangeQ q).1.trans hq
      · intro i r q e hi h1 h2 ht
        exact seen i r q e hi (Or.inl ⟨h1, h2⟩) ht
    · refine lists_split hg.sound hg.east hUk fresh (childId_inj _) e3 e4 e5 ?_ ?_
      · rintro q ⟨n, n1, n2⟩
        obtain ⟨n', n3, n4⟩ := hg.cols k K hUk
        refine ⟨n, n1, le_trans ?_ n3⟩
        have h1 : (n : ℚ) * W < (n' + 1) * W := by linarith [(rangeQ q).2]
        have h2 : (n : ℚ) < n' + 1 := lt_of_mul_lt_mul_right h1 hW0.le
        have h3 : n ≤ n' := by
          have : n < n' + 1 := by exact_mod_cast h2
          omega
        have h4 : (n : ℚ) * W ≤ n' * W := mul_le_mul_of_nonneg_right (by exact_mod_cast h3) hW0.le
        linarith
      · rintro i r q e hi ⟨n, n1, n2⟩ ⟨n', n3, n4⟩ ht
        exact seen i r q e hi (Or.inr ⟨by linarith, by linarith⟩) ht

/-- The freshly built mesh, of a region that is not flagged global. -/
theorem SeamOK.init {b : Boundary} {W H : ℚ} (hp : ProperGrid b W H) (hflag : ¬ (b.longMax = 180 ∧ (b.longMin = -180 ∨ b.longMin = 180)))
    {initData : Boundary → D} {depth : ℕ} {m : MeshState D} (h : MeshBuilder.init b W H initData depth = .ok m) :
    ∃ U, SeamOK b W m U := by
  have hfl := C11_flag_partial b W H initData depth m h
  obtain ⟨boxes, g, glob, hval, hb, hcg, rfl⟩ := init_inv h
  obtain ⟨nx, ny, hnx0, hnx, hny⟩ := hp.fits hval
  have hpos := (C04_geometry_partial b hp.valid hp.nondeg).1
  have hW := hp.wpos
  have hH := hp.hpos
  have hW1 : W ≤ 360 := by
    have h1 : (1 : ℚ) ≤ nx := by exact_mod_cast hnx0
    have : 1 * W ≤ nx * W := mul_le_mul_of_nonneg_right h1 hW.le
    linarith [hpos.2]
  have hwe := Boundary.width_eq b
  have hcells := initializeCells_eq b hp.valid hW hH hW1 nx ny (by linarith) hny
  rw [hcells] at hb
  cases hb
  have hgw : b.width / W = nx := by rw [hnx]; field_simp
  have hg : g = Graph.initialise (ny * nx) (nx : ℚ) ∧ glob = false := by
    unfold MeshBuilder.checkGlobalMesh at hcg
    rw [if_neg] at hcg
    · rw [← hgw]
      simp only [List.length_map, List.length_range, Except.ok.injEq, Prod.mk.injEq] at hcg
      exact ⟨hcg.1.symm, hcg.2.symm⟩
    · rintro ⟨h1, h2⟩
      apply hflag
      refine ⟨by linarith, ?_⟩
      rcases abs_cases b.longMin with ⟨h3, _⟩ | ⟨h3, _⟩
      · exact Or.inr (by linarith)
      · exact Or.inl (by linarith)
  obtain ⟨hg, hgl⟩ := hg
  have live : ∀ i c, Live { bounds := b, cells := ((List.range (ny * nx)).map (gridCell b W H nx)).mapIdx (fun i cb => some { bounds := cb, id := i, data := initData cb }), graph := { g with isGlobal := glob }, maxDepth := depth } i c ↔
      i < ny * nx ∧ c = { bounds := gridCell b W H nx i, id := i, data := initData (gridCell b W H nx i) } := by
    intro i c
    rw [live_init]
    simp only [List.getElem?_map]
    by_cases hi : i < ny * nx
    · rw [List.getElem?_range hi]
      simp [hi]
    · rw [List.getElem?_eq_none (by simpa using hi)]
      simp [hi]
  have arc : ∀ r c, c < nx → ∃ k : ℤ, arcOf (gridCell b W H nx (r * nx + c)) = (gridRect b.longMin b.latMin W H r c).shift (360 * k) := by
    intro r c hc
    have e1 : (r * nx + c) % nx = c := by rw [Nat.mul_comm, Nat.mul_add_mod, Nat.mod_eq_of_lt hc]
    have e2 : (r * nx + c) / nx = r := by
      rw [Nat.mul_comm, Nat.mul_add_div (by omega), Nat.div_eq_of_lt hc]; simp
    obtain ⟨-, ⟨k, hk⟩, -⟩ := C01_longitude_domain (b.longMin + c * W)
    refine ⟨k, ?_⟩
    unfold arcOf
    rw [eastEdge_gridCell b hW hW1]
    simp only [gridCell, gridRect, Rect.shift, e1, e2, hk, Rect.mk.injEq, true_and, and_true]
    ring
  have hmem : ∀ r c r' c', c < nx → c' < nx → r < ny → ∀ d, (r' * nx + c' ∈ Graph.initialiseMap (r * nx + c) (nx : ℚ) (ny * nx) d ↔
      r' < ny ∧ Touches d (gridRect b.longMin b.latMin W H r c) (gridRect b.longMin b.latMin W H r' c')) := by
    intro r c r' c' hc hc' hr d
    rw [mem_initialiseMap hc hc' hr, touches_gridRect hW hH]
  have look : ∀ i mm, g.look i = some mm → i < ny * nx ∧ mm = Graph.initialiseMap i (nx : ℚ) (ny * nx) := by
    intro i mm hi
    rw [hg, look_initialise] at hi
    split at hi
    · cases hi; exact ⟨by assumption, rfl⟩
    · cases hi
  have all : ∀ G, Lists G (gridCells b.longMin b.latMin W H nx ny) g.look := by
    intro G i j a a' d mm hi hj _ _ ht hm
    obtain ⟨h1, rfl⟩ := look i mm hm
    obtain ⟨r, c, hc, rfl⟩ := idx_exists hnx0 i
    obtain ⟨r', c', hc', rfl⟩ := idx_exists hnx0 j
    have hr := (idx_lt hc).1 h1
    rw [gridCells_idx hc, if_pos hr] at hi
    rw [gridCells_idx hc'] at hj
    by_cases hr' : r' < ny
    · rw [if_pos hr'] at hj
      cases hi; cases hj
      exact (hmem r c r' c' hc hc' hr d).2 ⟨hr', ht⟩
    · rw [if_neg hr'] at hj
      cases hj
  refine ⟨gridCells b.longMin b.latMin W H nx ny, ?_, ?_, ?_, ?_, ?_, ?_, ?_, all _, all _⟩
  · exact hgl
  · intro i c hl
    obtain ⟨hi, rfl⟩ := (live i c).1 hl
    obtain ⟨r, cc, hc, rfl⟩ := idx_exists hnx0 i
    obtain ⟨k, hk⟩ := arc r cc hc
    refine ⟨-k, ?_⟩
    rw [gridCells_idx hc, if_pos ((idx_lt hc).1 hi)]
    simp only [hk, Rect.shift_shift]
    have e : 360 * (k : ℚ) + 360 * ((-k : ℤ) : ℚ) = 0 := by push_cast; ring
    rw [e, Rect.shift_zero]
  · intro i r hi
    by_cases h : i < ny * nx
    · exact ⟨_, (live i _).2 ⟨h, rfl⟩⟩
    · simp [gridCells, h] at hi
  · intro i r hi
    obtain ⟨rr, cc, hc, rfl⟩ := idx_exists hnx0 i
    rw [gridCells_idx hc] at hi
    split at hi
    · cases hi
      have c0 : 0 ≤ (cc : ℚ) * W := by positivity
      have c1 : ((cc : ℚ) + 1) * W ≤ nx * W := mul_le_mul_of_nonneg_right (by exact_mod_cast hc) hW.le
      simp only [gridRect]
      refine ⟨?_, ?_, ?_⟩ <;> linarith
    · cases hi
  · show Sound _ g.look
    constructor
    · intro i
      rw [hg, look_initialise]
      unfold gridCells
      split <;> simp
    · intro i r hi
      obtain ⟨rr, cc, hc, rfl⟩ := idx_exists hnx0 i
      rw [gridCells_idx hc] at hi
      split at hi
      · cases hi
        simp only [Rect.Pos, gridRect]
        constructor <;> linarith
      · cases hi
    · intro i j a a' hij hi hj
      obtain ⟨r, c, hc, rfl⟩ := idx_exists hnx0 i
      obtain ⟨r', c', hc', rfl⟩ := idx_exists hnx0 j
      rw [gridCells_idx hc] at hi
      rw [gridCells_idx hc'] at hj
      split at hi
      · split at hj
        · cases hi; cases hj
          intro ho
          obtain ⟨rfl, rfl⟩ := gridRect_disjoint hW hH ho
          exact hij rfl
        · cases hj
      · cases hi
    · intro i mm d hi
      obtain ⟨h1, rfl⟩ := look i mm hi
      obtain ⟨r, c, hc, rfl⟩ := idx_exists hnx0 i
      exact nodup_initialiseMap hc d
    · intro i mm d j hi hj
      obtain ⟨h1, rfl⟩ := look i mm hi
      obtain ⟨r, c, hc, rfl⟩ := idx_exists hnx0 i
      obtain ⟨r', c', hc', rfl⟩ := idx_exists hnx0 j
      have hr := (idx_lt hc).1 h1
      obtain ⟨hr', ht⟩ := (hmem r c r' c' hc hc' hr d).1 hj
      exact ⟨_, _, by rw [gridCells_idx hc, if_pos hr], by rw [gridCells_idx hc', if_pos hr'], ht⟩
    · intro i mm d j hi hj
      obtain ⟨h1, rfl⟩ := look i mm hi
      obtain ⟨r, c, hc, rfl⟩ := idx_exists hnx0 i
      obtain ⟨r', c', hc', rfl⟩ := idx_exists hnx0 j
      have hr := (idx_lt hc).1 h1
      obtain ⟨hr', ht⟩ := (hmem r c r' c' hc hc' hr d).1 hj
      refine ⟨Graph.initialiseMap (r' * nx + c') (nx : ℚ) (ny * nx), ?_, ?_⟩
      · rw [hg, look_initialise, if_pos ((idx_lt hc').2 hr')]
      · exact (hmem r' c' r c hc' hc hr' d.opp).2 ⟨hr, (touches_opp _ _ _).2 ht⟩
  · intro i c rr hl hi
    obtain ⟨h1, rfl⟩ := (live i c).1 hl
    obtain ⟨r, cc, hc, rfl⟩ := idx_exists hnx0 i
    have e1 : (r * nx + cc) % nx = cc := by rw [Nat.mul_comm, Nat.mul_add_mod, Nat.mod_eq_of_lt hc]
    rw [gridCells_idx hc, if_pos ((idx_lt hc).1 h1)] at hi
    cases hi
    simp only [gridCell, gridRect, e1]
  · intro i rr hi
    obtain ⟨r, cc, hc, rfl⟩ := idx_exists hnx0 i
    rw [gridCells_idx hc] at hi
    split at hi
    · cases hi
      refine ⟨cc, ?_⟩
      simp only [gridRect]
      exact ⟨le_refl _, by linarith⟩
    · cases hi

/-- Both invariants hold in every reachable mesh of a region that is not flagged global. -/
theorem reach_seam {ops : DataOps D} {b : Boundary} {W H : ℚ} (hp : ProperGrid b W H)
    (hflag : ¬ (b.longMax = 180 ∧ (b.longMin = -180 ∨ b.longMin = 180))) (hcol : b.width = 360 → W ≤ 180)
    {initData : Boundary → D} {depth : ℕ} {m : MeshState D} (h : Reach ops b W H initData depth m) :
    CellsOK b W H m ∧ ∃ U, SeamOK b W m U := by
  refine ⟨reach_cells hp h, ?_⟩
  have hpos := (C04_geometry_partial b hp.valid hp.nondeg).1
  have hw : b.width < 360 ∨ b.width = 360 ∧ W ≤ 180 := by
    rcases lt_or_eq_of_le hpos.2 with h | h
    · exact Or.inl h
    · exact Or.inr ⟨h, hcol h⟩
  obtain ⟨m0, h0, hs⟩ := h
  induction hs with
  | refl => exact SeamOK.init hp hflag h0
  | @step m1 m2 k hs1 he ih =>
    obtain ⟨U, hU⟩ := ih
    obtain ⟨c, _, _, hk, _⟩ := splitAndReplace_inv he
    obtain ⟨m3, U3, h1, h2⟩ := SeamOK.split hp.valid hw ops (reach_cells hp ⟨m0, h0, hs1⟩) hU hk
    rw [he] at h1
    cases h1
    exact ⟨U3, h2⟩

/-! ## The full circle that starts at 180

It is flagged global, so its first and last columns are linked.  Unrolled it starts at -180; cells next to each other only around
the cylinder may be listed, on both sides of each other if there are two columns. -/

/-- The graph is well-formed on the cylinder for unrolled cells `U`. -/
structure RingOK (m : MeshState D) (U : ℕ → Option Rect) : Prop where
  flag : m.graph.isGlobal = true
  live : ∀ i c, Live m i c → -180 < c.bounds.longMin ∧ ∃ t : ℤ, U i = some ((arcOf c.bounds).shift (360 * t))
  dead : ∀ i r, U i = some r → ∃ c, Live m i c
  sound : SoundBy (CellOK true) (Adj true) U m.graph.look

/-- Cells of the cylinder that touch after some number of turns are adjacent. -/
theorem adj_of_turn {a r : Rect} (ha : CellOK true a) (hr : CellOK true r) {e : Dir} {n : ℤ} (h : Touches e a (r.shift (360 * n))) : Adj true e a r := by
  obtain ⟨⟨a1, a2⟩, a3, a4, -⟩ := ha
  obtain ⟨⟨r1, r2⟩, r3, r4, -⟩ := hr
  have h1 := h.1
  have k : (-2 : ℚ) < n ∧ (n : ℚ) < 2 := by
    cases e <;> simp only [hSide, sideRel, Rect.shift] at h1 <;> (constructor <;> linarith)
  have k1 : (-2 : ℤ) < n := by exact_mod_cast k.1
  have k2 : n < (2 : ℤ) := by exact_mod_cast k.2
  refine ⟨360 * n, ?_, h⟩
  have : n = 0 ∨ n = 1 ∨ n = -1 := by omega
  rcases this with rfl | rfl | rfl <;> simp [turns]

/-- `split_and_replace` on any live cell succeeds and keeps the graph well-formed. -/
theorem RingOK.split {b : Boundary} {W H : ℚ} (ops : DataOps D) {m : MeshState D}
    {U : ℕ → Option Rect} {k : ℕ} {c : CellBox D} (hm : CellsOK b W H m) (hg : RingOK m U) (hk : Live m k c) :
    ∃ m' U', MeshBuilder.splitAndReplace ops m k = .ok m' ∧ RingOK m' U' := by
  obtain ⟨hv, hd⟩ := hm.valid k c hk
  obtain ⟨f, hsp, hsz, hlong, hf⟩ := split_arcs ops c m.cells.length hv hd
  have hlt := live_lt hk
  obtain ⟨hk180, tk, hUk⟩ := hg.live k c hk
  have hKok := hg.sound.pos k _ hUk
  set K := (arcOf c.bounds).shift (360 * (tk : ℚ)) with hKdef
  set cells' := m.cells ++ [some (f .nw), some (f .ne), some (f .sw), some (f .se)] with hcells
  have hfK : ∀ q, ∃ t : ℤ, K.quarter q = (arcOf (f q).bounds).shift (360 * t) := by
    intro q
    obtain ⟨t, ht⟩ := hf q
    refine ⟨tk - t, ?_⟩
    rw [ht, Rect.shift_shift, hKdef, Rect.quarter_shift]
    congr 1
    push_cast; ring
  have sizes : ∀ i c', Live m i c' → 0 < c'.bounds.width ∧ 0 < c'.bounds.height ∧ c'.bounds.width ≤ 180 := by
    intro i c' hl
    obtain ⟨-, t, ht⟩ := hg.live i c' hl
    obtain ⟨⟨p1, p2⟩, -, -, p3⟩ := hg.sound.pos i _ ht
    have p4 := p3 rfl
    have := Boundary.width_eq c'.bounds
    simp only [Rect.shift, arcOf] at p1 p2 p4
    refine ⟨by linarith, ?_, by linarith⟩
    unfold Boundary.height; linarith
  have sizesN : ∀ q, 0 < (f q).bounds.width ∧ 0 < (f q).bounds.height := by
    intro q
    rw [(hsz q).1, (hsz q).2]
    have := sizes k c hk
    exact ⟨by linarith [this.1], by linarith [this.2.1]⟩
  -- no quarter starts at -180
  have hN180 : ∀ q, -180 < (f q).bounds.longMin := by
    intro q
    obtain ⟨s1, -, s2⟩ := sizes k c hk
    have e0 := Boundary.width_eq c.bounds
    have hx : c.bounds.longMin ≤ ((arcOf c.bounds).quarter q).w ∧ ((arcOf c.bounds).quarter q).w ≤ c.bounds.longMin + 90 := by
      cases q <;> simp only [Rect.quarter, arcOf] <;> constructor <;> linarith
    rw [hlong q]
    rcases le_or_gt ((arcOf c.bounds).quarter q).w 180 with h | h
    · rw [(C01_longitude_domain _).2.2.1 (by linarith) h]; linarith
    · rw [domain_past h (by linarith [hv.2.2.1])]; linarith
  have bnd_old : ∀ i c', Live m i c' → boundsAt cells' i = .ok c'.bounds := by
    intro i c' hl
    unfold boundsAt cellAt
    rw [hcells, List.getElem?_append_left (live_lt hl), hl]
    rfl
  have bnd_new : ∀ q, boundsAt cells' (childId m.cells.length q) = .ok (f q).bounds := by
    intro q
    unfold boundsAt cellAt childId
    cases q <;> simp [hcells]
  have fresh : ∀ q, U (childId m.cells.length q) = none := by
    intro q
    rcases h : U (childId m.cells.length q) with _ | r
    · rfl
    · obtain ⟨c', hl⟩ := hg.dead _ r h
      have := live_lt hl
      cases q <;> simp [childId] at this
  let cf : ℕ → ℕ → Option Dir := fun i j => match boundsAt cells' i, boundsAt cells' j with
    | .ok a, .ok b => Graph.neighbourCase true a b
    | _, _ => none
  have caseE : ∀ i j a a', boundsAt cells' i = .ok a → boundsAt cells' j = .ok a' → -180 < a.longMin → -180 < a'.longMin →
      Graph.caseAt m.graph.isGlobal (boundsAt cells') i j = .ok (cf i j) ∧ cf i j = Graph.neighbourCaseBounds a a' := by
    intro i j a a' hi hj h1 h2
    constructor
    · unfold Graph.caseAt
      simp only [cf, hi, hj, bind, Except.bind, pure, Except.pure, hg.flag]
    · simp only [cf, hi, hj, Graph.neighbourCase]
      rw [if_neg]
      rintro ⟨-, h | h⟩
      · linarith [h.1]
      · linarith [h.1]
  have cellB : ∀ i r, U i = some r → ∃ c', Live m i c' ∧ boundsAt cells' i = .ok c'.bounds ∧ -180 < c'.bounds.longMin ∧
      ∃ t : ℤ, r = (arcOf c'.bounds).shift (360 * t) := by
    intro i r hi
    obtain ⟨c', hl⟩ := hg.dead i r hi
    obtain ⟨h0, t, ht⟩ := hg.live i c' hl
    rw [hi] at ht
    exact ⟨c', hl, bnd_old i c' hl, h0, t, Option.some.inj ht⟩
  obtain ⟨g', e1, e2, e3, -⟩ := splitGraph_sound ring_laws U m.graph hg.sound k K hUk (childId m.cells.length) fresh (childId_inj _)
    (boundsAt cells') cf
    (fun i r q hi => by
      obtain ⟨c', -, hb, h0, -⟩ := cellB i r hi
      exact (caseE _ _ _ _ hb (bnd_new q) h0 (hN180 q)).1)
    (fun i r q hi => by
      obtain ⟨c', -, hb, h0, -⟩ := cellB i r hi
      exact (caseE _ _ _ _ (bnd_new q) hb (hN180 q) h0).1)
    (fun i r q e hi => by
      obtain ⟨c', hl, hb, h0, -⟩ := cellB i r hi
      rw [(caseE _ _ _ _ hb (bnd_new q) h0 (hN180 q)).2, (caseE _ _ _ _ (bnd_new q) hb (hN180 q) h0).2,
        neighbourCaseBounds_arc _ _ (sizesN q).1 (sizesN q).2 (sizes i c' hl).1 (sizes i c' hl).2.1,
        neighbourCaseBounds_arc _ _ (sizes i c' hl).1 (sizes i c' hl).2.1 (sizesN q).1 (sizesN q).2]
      exact (touches_opp _ _ _).symm)
    (fun i r q d e hi _ _ hcf => by
      obtain ⟨c', hl, hb, h0, t, rfl⟩ := cellB i r hi
      rw [(caseE _ _ _ _ hb (bnd_new q) h0 (hN180 q)).2,
        neighbourCaseBounds_arc _ _ (sizes i c' hl).1 (sizes i c' hl).2.1 (sizesN q).1 (sizesN q).2] at hcf
      obtain ⟨s, hs⟩ := hfK q
      refine adj_of_turn (n := t - s) (hg.sound.pos i _ hi) (quarter_ok hKok q) ?_
      rw [hs, Rect.shift_shift]
      have e : 360 * (s : ℚ) + 360 * ((t - s : ℤ) : ℚ) = 360 * (t : ℚ) := by push_cast; ring
      rw [e, touches_shift_both, sub_self, Rect.shift_zero]
      exact hcf)
  refine ⟨{ m with cells := cells'.set k none, graph := g' }, replaced U k K (childId m.cells.length), ?_, ?_⟩
  · unfold MeshBuilder.splitAndReplace
    simp only [bind, Except.bind, cellAt_ok_iff.2 hk, hsp, List.map_cons, List.map_nil]
    simp only [childId] at e1
    rw [hcells] at e1 ⊢
    rw [e1]; rfl
  · have hkc : ∀ q, k ≠ childId m.cells.length q := by intro q; cases q <;> simp [childId] <;> omega
    have L := live_after hk (f .nw) (f .ne) (f .sw) (f .se) g'
    have childLive : ∀ q, Live { m with cells := cells'.set k none, graph := g' } (childId m.cells.length q) (f q) := by
      intro q
      cases q <;> exact (L _ _).2 (by simp [childId])
    have other : ∀ i, i < m.cells.length → ∀ q, i ≠ childId m.cells.length q := by
      intro i hi q; cases q <;> simp [childId] <;> omega
    constructor
    · exact e2.trans hg.flag
    · intro i c' hl
      rcases (L i c').1 hl with ⟨hik, hl⟩ | h
      · rw [replaced_other hik (other i (live_lt hl))]
        exact hg.live i c' hl
      · have hq : ∃ q, i = childId m.cells.length q ∧ c' = f q := by
          rcases h with ⟨rfl, rfl⟩ | ⟨rfl, rfl⟩ | ⟨rfl, rfl⟩ | ⟨rfl, rfl⟩
          · exact ⟨.nw, rfl, rfl⟩
          · exact ⟨.ne, rfl, rfl⟩
          · exact ⟨.sw, rfl, rfl⟩
          · exact ⟨.se, rfl, rfl⟩
        obtain ⟨q, rfl, rfl⟩ := hq
        rw [replaced_child (childId_inj _) hkc]
        obtain ⟨t, ht⟩ := hfK q
        exact ⟨hN180 q, t, by rw [ht]⟩
    · intro i r hi
      by_cases h1 : i = k
      · subst h1; rw [replaced_self] at hi; cases hi
      · by_cases h2 : ∃ q, i = childId m.cells.length q
        · obtain ⟨q, rfl⟩ := h2
          exact ⟨f q, childLive q⟩
        · rw [replaced_other h1 (fun q h => h2 ⟨q, h⟩)] at hi
          obtain ⟨c', hl⟩ := hg.dead i r hi
          exact ⟨c', (L i c').2 (Or.inl ⟨h1, hl⟩)⟩
    · exact e3

/-- The freshly built mesh over the full circle that starts at 180. -/
theorem RingOK.init {b : Boundary} {W H : ℚ} (hp : ProperGrid b W H) (h180 : b.longMin = 180 ∧ b.longMax = 180) (hcol : W ≤ 180)
    (hval : MeshBuilder.validateBounds b W H = .ok ()) (initData : Boundary → D) (depth : ℕ) :
    ∃ m U, MeshBuilder.init b W H initData depth = .ok m ∧ RingOK m U := by
  obtain ⟨nx, ny, hnx0, hnx, hny⟩ := hp.fits hval
  have hW := hp.wpos
  have hH := hp.hpos
  have hwe := Boundary.width_eq b
  have hw : b.width = 360 := by
    rw [hwe]; unfold eastEdge
    rw [h180.1, h180.2, if_neg (lt_irrefl _)]; norm_num
  have hw360 : (nx : ℚ) * W = 360 := by rw [← hnx, hw]
  have hnx2 : 2 ≤ nx := by
    by_contra h
    have : nx = 1 := by omega
    rw [this] at hw360
    norm_num at hw360
    linarith
  have hcells := initializeCells_eq b hp.valid hW hH (by linarith) nx ny (by linarith) hny
  have hgw : b.width / W = nx := by rw [hnx]; field_simp
  obtain ⟨g', e, hex⟩ := initial_exact_global (y0 := b.latMin) (ny := ny) hW hH hnx2 hw360
  have hcg : MeshBuilder.checkGlobalMesh b (ny * nx) (pyInt (b.width / W)) (Graph.initialise (ny * nx) (b.width / W)) = .ok (g', true) := by
    unfold MeshBuilder.checkGlobalMesh
    rw [if_pos (by rw [h180.1, h180.2]; norm_num), hgw]
    have hp : pyInt (nx : ℚ) = (nx : ℤ) := by
      unfold pyInt
      rw [if_pos (by positivity)]
      exact Int.floor_natCast nx
    simp only [hp]
    have h1 : ¬ ((nx : ℤ) = 0) := by omega
    have h2 : ¬ ((nx : ℤ) < 0) := by omega
    simp only [h1, h2, if_false, Int.toNat_natCast]
    rw [sliceFrom_eq nx ny 0 hnx0, sliceFrom_eq nx ny (nx - 1) (by omega)]
    simp only [List.length_map, List.length_range, bind, Except.bind]
    rw [e]; rfl
  have live : ∀ i c, Live { bounds := b, cells := ((List.range (ny * nx)).map (gridCell b W H nx)).mapIdx (fun i cb => some { bounds := cb, id := i, data := initData cb }), graph := { g' with isGlobal := true }, maxDepth := depth } i c ↔
      i < ny * nx ∧ c = { bounds := gridCell b W H nx i, id := i, data := initData (gridCell b W H nx i) } := by
    intro i c
    rw [live_init]
    simp only [List.getElem?_map]
    by_cases hi : i < ny * nx
    · rw [List.getElem?_range hi]
      simp [hi]
    · rw [List.getElem?_eq_none (by simpa using hi)]
      simp [hi]
  refine ⟨{ bounds := b, cells := ((List.range (ny * nx)).map (gridCell b W H nx)).mapIdx (fun i cb => some { bounds := cb, id := i, data := initData cb }), graph := { g' with isGlobal := true }, maxDepth := depth }, gridCells (-180) b.latMin W H nx ny, ?_, rfl, ?_, ?_, ?_⟩
  · unfold MeshBuilder.init
    simp only [bind, Except.bind, hval, hcells, List.length_map, List.length_range, hcg]
    rfl
  · intro i c hl
    obtain ⟨hi, rfl⟩ := (live i c).1 hl
    obtain ⟨r, cc, hc, rfl⟩ := idx_exists hnx0 i
    have e1 : (r * nx + cc) % nx = cc := by rw [Nat.mul_comm, Nat.mul_add_mod, Nat.mod_eq_of_lt hc]
    have e2 : (r * nx + cc) / nx = r := by
      rw [Nat.mul_comm, Nat.mul_add_div (by omega), Nat.div_eq_of_lt hc]; simp
    obtain ⟨-, ⟨k, hk⟩, -⟩ := C01_longitude_domain (180 + cc * W)
    have c0 : 0 ≤ (cc : ℚ) * W := by positivity
    have c1 : ((cc : ℚ) + 1) * W ≤ nx * W := mul_le_mul_of_nonneg_right (by exact_mod_cast hc) hW.le
    constructor
    · simp only [gridCell, e1]
      rw [h180.1]
      rcases eq_or_lt_of_le c0 with h | h
      · rw [← h, (C01_longitude_domain _).2.2.1 (by norm_num) (by norm_num)]; norm_num
      · rw [domain_past (by linarith) (by linarith)]; linarith
    · refine ⟨-k - 1, ?_⟩
      rw [gridCells_idx hc, if_pos ((idx_lt hc).1 hi)]
      unfold arcOf
      rw [eastEdge_gridCell b hW (by linarith)]
      simp only [gridCell, gridRect, Rect.shift, e1, e2, hk, h180.1, Option.some.injEq, Rect.mk.injEq]
      push_cast
      refine ⟨by ring, by ring, trivial, trivial⟩
  · intro i r hi
    by_cases h : i < ny * nx
    · exact ⟨_, (live i _).2 ⟨h, rfl⟩⟩
    · simp [gridCells, h] at hi
  · have hmem : ∀ i mm, g'.look i = some mm → ∃ a, gridCells (-180) b.latMin W H nx ny i = some a := by
      intro i mm hi
      exact Option.isSome_iff_exists.1 ((hex.keys i).1 (by simp [hi]))
    refine ⟨hex.keys, hex.ok, hex.disjoint, hex.nodup, ?_, ?_⟩
    · intro i mm d j hi hj
      obtain ⟨a, ha⟩ := hmem i mm hi
      obtain ⟨a', ha', h⟩ := (hex.mem i mm d j a hi ha).1 hj
      exact ⟨a, a', ha, ha', h⟩
    · intro i mm d j hi hj
      obtain ⟨a, ha⟩ := hmem i mm hi
      obtain ⟨a', ha', h⟩ := (hex.mem i mm d j a hi ha).1 hj
      obtain ⟨mm', hj'⟩ := Option.isSome_iff_exists.1 ((hex.keys j).2 (by simp [ha']))
      exact ⟨mm', hj', (hex.mem j mm' d.opp i a' hj' ha').2 ⟨a, ha, (adj_opp true d a a').2 h⟩⟩

/-- The invariants hold in every reachable mesh of the full circle that starts at 180. -/
theorem reach_ring {ops : DataOps D} {b : Boundary} {W H : ℚ} (hp : ProperGrid b W H) (h180 : b.longMin = 180 ∧ b.longMax = 180)
    (hcol : b.width = 360 → W ≤ 180) {initData : Boundary → D} {depth : ℕ} {m : MeshState D} (h : Reach ops b W H initData depth m) :
    CellsOK b W H m ∧ ∃ U, RingOK m U := by
  refine ⟨reach_cells hp h, ?_⟩
  have hw : b.width = 360 := by
    rw [Boundary.width_eq b]; unfold eastEdge
    rw [h180.1, h180.2, if_neg (lt_irrefl _)]; norm_num
  obtain ⟨m0, h0, hs⟩ := h
  induction hs with
  | refl =>
    obtain ⟨-, -, -, hval, -⟩ := init_inv h0
    obtain ⟨m1, U, h1, hU⟩ := RingOK.init hp h180 (hcol hw) hval initData depth
    rw [h0] at h1
    cases h1
    exact ⟨U, hU⟩
  | @step m1 m2 k hs1 he ih =>
    obtain ⟨U, hU⟩ := ih
    obtain ⟨c, _, _, hk, _⟩ := splitAndReplace_inv he
    obtain ⟨m3, U3, h1, h2⟩ := RingOK.split ops (reach_cells hp ⟨m0, h0, hs1⟩) hU hk
    rw [he] at h1
    cases h1
    exact ⟨U3, h2⟩

/-- C19 for every region, crossing the antimeridian or not: in every reachable mesh the graph has a node for
exactly the live cells, lists no cell twice or as its own neighbour or after it has been replaced, and is
symmetric under opposite directions.  Excluded: a full circle with a single column. -/
theorem C19_crossing_partial (ops : DataOps D) (b : Boundary) (W H : ℚ) (hp : ProperGrid b W H)
    (hcol : b.width = 360 → W ≤ 180) (initData : Boundary → D) (depth : ℕ)
    (m : MeshState D) (h : Reach ops b W H initData depth m) :
    (∀ i, (nbrs m i).isSome ↔ ∃ c, Live m i c) ∧
    (∀ i f d, nbrs m i = some f → (f d).Nodup ∧ i ∉ f d ∧ ∀ j ∈ f d, ∃ c, Live m j c) ∧
    (∀ i j f f' d, nbrs m i = some f → nbrs m j = some f' → (j ∈ f d ↔ i ∈ f' d.opp)) := by
  have main : ∀ (ok : Rect → Prop) (T : Dir → Rect → Rect → Prop) (U : ℕ → Option Rect), TouchLaws ok T → SoundBy ok T U m.graph.look →
      (∀ i, (U i).isSome ↔ ∃ c, Live m i c) →
      (∀ i, (nbrs m i).isSome ↔ ∃ c, Live m i c) ∧
      (∀ i f d, nbrs m i = some f → (f d).Nodup ∧ i ∉ f d ∧ ∀ j ∈ f d, ∃ c, Live m j c) ∧
      (∀ i j f f' d, nbrs m i = some f → nbrs m j = some f' → (j ∈ f d ↔ i ∈ f' d.opp)) := by
    intro ok T U hT hS live_iff
    have hsymm : ∀ i j f f' d, nbrs m i = some f → nbrs m j = some f' → j ∈ f d → i ∈ f' d.opp := by
      intro i j f f' d hf hf' hj
      obtain ⟨m', h1, h2⟩ := hS.symm i f d j hf hj
      have : some m' = some f' := h1.symm.trans hf'
      cases this; exact h2
    refine ⟨fun i => (hS.keys i).trans (live_iff i), ?_, ?_⟩
    · intro i f d hf
      refine ⟨hS.nodup i f d hf, ?_, ?_⟩
      · intro hi
        obtain ⟨a, a', ha, ha', ht⟩ := hS.touch i f d i hf hi
        rw [ha] at ha'; cases ha'
        exact hT.self (hS.pos i a ha) d ht
      · intro j hj
        obtain ⟨a, a', -, ha', -⟩ := hS.touch i f d j hf hj
        exact (live_iff j).1 (by rw [ha']; rfl)
    · intro i j f f' d hf hf'
      refine ⟨hsymm i j f f' d hf hf', fun h => ?_⟩
      have := hsymm j i f' f d.opp hf' hf h
      rwa [Dir.opp_opp] at this
  by_cases hband : b.longMin = -180 ∧ b.longMax = 180
  · have hlt : b.longMin < b.longMax := by rw [hband.1, hband.2]; norm_num
    refine C19_well_formed_partial ops b W H hp hlt (fun _ => hcol ?_) initData depth m h
    rw [width_of_lt hlt, hband.1, hband.2]; norm_num
  · by_cases hstart : b.longMin = 180 ∧ b.longMax = 180
    · obtain ⟨-, U, hU⟩ := reach_ring hp hstart hcol h
      refine main _ _ U ring_laws hU.sound (fun i => ⟨fun hi => ?_, ?_⟩)
      · obtain ⟨r, hr⟩ := Option.isSome_iff_exists.1 hi
        exact hU.dead i r hr
      · rintro ⟨c, hc⟩
        obtain ⟨-, t, ht⟩ := hU.live i c hc
        rw [ht]; rfl
    · have hflag : ¬ (b.longMax = 180 ∧ (b.longMin = -180 ∨ b.longMin = 180)) := by
        rintro ⟨h1, h2 | h2⟩
        · exact hband ⟨h2, h1⟩
        · exact hstart ⟨h2, h1⟩
      obtain ⟨-, U, hU⟩ := reach_seam hp hflag hcol h
      refine main _ _ U planar_laws hU.sound (fun i => ⟨fun hi => ?_, ?_⟩)
      · obtain ⟨r, hr⟩ := Option.isSome_iff_exists.1 hi
        exact hU.dead i r hr
      · rintro ⟨c, hc⟩
        obtain ⟨t, ht⟩ := hU.live i c hc
        rw [ht]; rfl

/-- C18, the half that survives splits: in every reachable mesh of a region that crosses the antimeridian every
listed neighbour really touches, in that direction, on the cylinder; and splitting any live cell never raises.
Missing: the converse, false by `C18_false`. -/
theorem C18_listed_partial (ops : DataOps D) (b : Boundary) (W H : ℚ) (hp : ProperGrid b W H) (hcr : b.longMax ≤ b.longMin)
    (hcol : b.width = 360 → W ≤ 180) (initData : Boundary → D) (depth : ℕ)
    (m : MeshState D) (h : Reach ops b W H initData depth m) :
    (∀ i c f d j, Live m i c → nbrs m i = some f → j ∈ f d → ∃ c', Live m j c' ∧ CylAdj d c.bounds c'.bounds) ∧
    ∀ k c, Live m k c → ∃ m', MeshBuilder.splitAndReplace ops m k = .ok m' := by
  by_cases hstart : b.longMin = 180 ∧ b.longMax = 180
  · obtain ⟨hm, U, hU⟩ := reach_ring hp hstart hcol h
    constructor
    · intro i c f d j hl hf hj
      obtain ⟨a, a', ha, ha', s, hs, ht⟩ := hU.sound.touch i f d j hf hj
      obtain ⟨c', hl'⟩ := hU.dead j a' ha'
      obtain ⟨-, t, ht1⟩ := hU.live i c hl
      obtain ⟨-, t', ht2⟩ := hU.live j c' hl'
      rw [ha] at ht1
      rw [ha'] at ht2
      cases ht1; cases ht2
      have hn : ∃ n : ℤ, s = 360 * n := by
        simp only [turns, if_true, List.mem_cons, List.not_mem_nil, or_false] at hs
        rcases hs with rfl | rfl | rfl
        · exact ⟨0, by norm_num⟩
        · exact ⟨1, by norm_num⟩
        · exact ⟨-1, by norm_num⟩
      obtain ⟨n, rfl⟩ := hn
      refine ⟨c', hl', t' + n - t, ?_⟩
      rw [Rect.shift_shift, touches_shift_both] at ht
      have e : 360 * ((t' + n - t : ℤ) : ℚ) = 360 * (t' : ℚ) + 360 * (n : ℚ) - 360 * (t : ℚ) := by push_cast; ring
      rw [e]; exact ht
    · intro k c hk
      obtain ⟨m', -, h1, -⟩ := RingOK.split ops hm hU hk
      exact ⟨m', h1⟩
  have hflag : ¬ (b.longMax = 180 ∧ (b.longMin = -180 ∨ b.longMin = 180)) := by
    rintro ⟨h1, h2 | h2⟩
    · linarith
    · exact hstart ⟨h2, h1⟩
  obtain ⟨hm, U, hU⟩ := reach_seam hp hflag hcol h
  have hpos := (C04_geometry_partial b hp.valid hp.nondeg).1
  have hw : b.width < 360 ∨ b.width = 360 ∧ W ≤ 180 := by
    rcases lt_or_eq_of_le hpos.2 with h | h
    · exact Or.inl h
    · exact Or.inr ⟨h, hcol h⟩
  constructor
  · intro i c f d j hl hf hj
    obtain ⟨a, a', ha, ha', ht⟩ := hU.sound.touch i f d j hf hj
    obtain ⟨c', hl'⟩ := hU.dead j a' ha'
    obtain ⟨t, ht1⟩ := hU.live i c hl
    obtain ⟨t', ht2⟩ := hU.live j c' hl'
    rw [ha] at ht1
    rw [ha'] at ht2
    cases ht1; cases ht2
    refine ⟨c', hl', t' - t, ?_⟩
    rw [touches_shift_both] at ht
    have e : 360 * ((t' - t : ℤ) : ℚ) = 360 * (t' : ℚ) - 360 * (t : ℚ) := by push_cast; ring
    rw [e]; exact ht
  · intro k c hk
    obtain ⟨m', -, h1, -⟩ := SeamOK.split hp.valid hw ops hm hU hk
    exact ⟨m', h1⟩

/-- Two cells that start at longitudes `x` and `y` are in one part of a region over the antimeridian: both start west of the antimeridian or
on it, or both are in columns that start east of it. -/
def Spec.SamePart (b : Boundary) (W x y : ℚ) : Prop :=
  b.longMin ≤ x ∧ b.longMin ≤ y ∨
  ∃ n : ℕ, 180 < b.longMin + n * W ∧ b.longMin + n * W - 360 ≤ x ∧ x < b.longMin ∧ b.longMin + n * W - 360 ≤ y ∧ y < b.longMin

/-- C18, where the converse holds: in every reachable mesh of a region that crosses the antimeridian, among the cells that start west of the
antimeridian or on it, and among the cells of the columns that start east of it, neighbours are listed exactly where cells touch.
Lost are only links to and between cells in the eastern part of the column that reaches over the antimeridian or starts on it. -/
theorem C18_parts_partial (ops : DataOps D) (b : Boundary) (W H : ℚ) (hp : ProperGrid b W H) (hcr : b.longMax ≤ b.longMin)
    (hwidth : b.width < 360) (initData : Boundary → D) (depth : ℕ) (m : MeshState D) (h : Reach ops b W H initData depth m)
    (i j : ℕ) (c c' : CellBox D) (f : NMap) (d : Dir) (hi : Live m i c) (hj : Live m j c') (hf : nbrs m i = some f)
    (hpart : SamePart b W c.bounds.longMin c'.bounds.longMin) :
    j ∈ f d ↔ CylAdj d c.bounds c'.bounds := by
  have hstart : ¬ (b.longMin = 180 ∧ b.longMax = 180) := by
    rintro ⟨h1, h2⟩
    have := Boundary.width_eq b
    unfold eastEdge at this
    rw [h1, h2, if_neg (lt_irrefl _)] at this
    linarith
  have hflag : ¬ (b.longMax = 180 ∧ (b.longMin = -180 ∨ b.longMin = 180)) := by
    rintro ⟨h1, h2 | h2⟩
    · linarith
    · exact hstart ⟨h2, h1⟩
  refine ⟨fun hm => ?_, ?_⟩
  · obtain ⟨c'', h1, h2⟩ := (C18_listed_partial ops b W H hp hcr (fun h => absurd h hwidth.ne) initData depth m h).1 i c f d j hi hf hm
    have : c'' = c' := by
      unfold Live at h1 hj
      rw [h1] at hj
      simpa using hj
    rwa [← this]
  · rintro ⟨n, hn⟩
    obtain ⟨hm, U, hU⟩ := reach_seam hp hflag (fun h => absurd h hwidth.ne) h
    obtain ⟨t, ht⟩ := hU.live i c hi
    obtain ⟨t', ht'⟩ := hU.live j c' hj
    set r := (arcOf c.bounds).shift (360 * (t : ℚ)) with hr
    set r' := (arcOf c'.bounds).shift (360 * (t' : ℚ)) with hr'
    obtain ⟨p1, p2, -⟩ := hU.within i r ht
    obtain ⟨p1', p2', -⟩ := hU.within j r' ht'
    obtain ⟨q1, -⟩ := hU.sound.pos i r ht
    obtain ⟨q1', -⟩ := hU.sound.pos j r' ht'
    obtain ⟨-, b1, b2, -⟩ := hp.valid
    have s1 := hU.sheet i c r hi ht
    have s1' := hU.sheet j c' r' hj ht'
    -- a cell starts at or after the region if it starts before the antimeridian
    have side : ∀ (x : ℚ) (l : ℚ), l = longitudeDomain x → b.longMin ≤ x → x < b.longMin + 360 → (x ≤ 180 ∧ l = x) ∨ (180 < x ∧ l = x - 360) := by
      intro x l hl h1 h2
      rcases le_or_gt x 180 with h | h
      · exact Or.inl ⟨h, by rw [hl]; exact (C01_longitude_domain x).2.2.1 (by linarith) h⟩
      · exact Or.inr ⟨h, by rw [hl]; exact domain_past h (by linarith)⟩
    have o1 := side r.w _ s1 p1 (by linarith)
    have o1' := side r'.w _ s1' p1' (by linarith)
    obtain ⟨tw, te⟩ := sheet_turn (a := arcOf c.bounds) hr s1 (by linarith) (by linarith)
    obtain ⟨tw', te'⟩ := sheet_turn (a := arcOf c'.bounds) hr' s1' (by linarith) (by linarith)
    -- unrolled, no turn is left between the two
    have zero : ∀ s : ℤ, Touches d r (r'.shift (360 * s)) → s = 0 := by
      intro s hs
      have h1 := hs.1
      have k1 : (-1 : ℚ) < s ∧ (s : ℚ) < 1 := by
        cases d <;> simp only [hSide, sideRel, Rect.shift] at h1 <;> (constructor <;> linarith)
      have k2 : (-1 : ℤ) < s := by exact_mod_cast k1.1
      have k3 : s < (1 : ℤ) := by exact_mod_cast k1.2
      omega
    rcases hpart with ⟨a1, a2⟩ | ⟨k, a0, a1, a2, a3, a4⟩
    · have w1 : r.w ≤ 180 := by
        rcases o1 with h | ⟨h1, h2⟩
        · exact h.1
        · linarith
      have w2 : r'.w ≤ 180 := by
        rcases o1' with h | ⟨h1, h2⟩
        · exact h.1
        · linarith
      rw [← tw w1, ← tw' w2] at hn
      have := zero n hn
      rw [this, Int.cast_zero, mul_zero, Rect.shift_zero] at hn
      exact hU.west i j r r' d f ht ht' w1 w2 hn hf
    · have w1 : 180 < r.w ∧ c.bounds.longMin = r.w - 360 := by
        rcases o1 with ⟨h1, h2⟩ | h
        · linarith
        · exact h
      have w2 : 180 < r'.w ∧ c'.bounds.longMin = r'.w - 360 := by
        rcases o1' with ⟨h1, h2⟩ | h
        · linarith
        · exact h
      have hn' : Touches d r (r'.shift (360 * (n : ℚ))) := by
        rw [te w1.1, te' w2.1, Rect.shift_shift, touches_shift_both]
        have e : 360 + 360 * (n : ℚ) - 360 = 360 * n := by ring
        rw [e]; exact hn
      have := zero n hn'
      rw [this, Int.cast_zero, mul_zero, Rect.shift_zero] at hn'
      exact hU.east i j r r' d f ht ht' ⟨k, a0, by linarith⟩ ⟨k, a0, by linarith⟩ hn' hf

/-- A crossing mesh after three splits, one of the cell over the antimeridian's quarters. -/
def exCrossSplit : Py (MeshState Unit) := runSplits (MeshBuilder.init exCross 10 5 (fun _ => ()) 3) [1, 2, 7]

example : (∃ m, exCrossSplit = .ok m ∧ Reach unitOps exCross 10 5 (fun _ => ()) 3 m) ∧ ProperGrid exCross 10 5 ∧
    exCross.longMax ≤ exCross.longMin ∧ exCross.width = 30 ∧ listOf exCrossSplit 10 .west = some [15, 17] ∧ listOf exCrossSplit 16 .southWest = some [8] := by
  have hok : (match exCrossSplit with | .ok _ => true | .error _ => false) = true := by decide +kernel
  refine ⟨?_, exCross_proper, by norm_num [exCross], by decide +kernel, by decide +kernel, by decide +kernel⟩
  rcases h : exCrossSplit with e | m
  · rw [h] at hok; cases hok
  · exact ⟨m, rfl, runSplits_reach [1, 2, 7] h⟩

/-- The full circle that starts at 180, with cells split in the first and in the last column. -/
def exRing : Boundary := ⟨-60, -50, 180, 180, []⟩

def exRingSplit : Py (MeshState Unit) := runSplits (MeshBuilder.init exRing 90 5 (fun _ => ()) 3) [0, 3, 9]

example : (∃ m, exRingSplit = .ok m ∧ Reach unitOps exRing 90 5 (fun _ => ()) 3 m) ∧ ProperGrid exRing 90 5 ∧
    exRing.longMax ≤ exRing.longMin ∧ exRing.width = 360 ∧ listOf exRingSplit 13 .east = some [8] ∧ listOf exRingSplit 8 .west = some [13] := by
  have hok : (match exRingSplit with | .ok _ => true | .error _ => false) = true := by decide +kernel
  have hw : exRing.width = 360 := by decide +kernel
  refine ⟨?_, ⟨by norm_num [Valid, exRing], by norm_num [exRing], by norm_num, by norm_num, fun _ => ⟨4, by rw [hw]; norm_num⟩⟩, by norm_num [exRing],
    hw, by decide +kernel, by decide +kernel⟩
  rcases h : exRingSplit with e | m
  · rw [h] at hok; cases hok
  · exact ⟨m, rfl, runSplits_reach [0, 3, 9] h⟩

/-- A crossing mesh with cells split in the first and in the last column. -/
def exCrossParts : Py (MeshState Unit) := runSplits (MeshBuilder.init exCross 10 5 (fun _ => ()) 3) [0, 2, 5]

example : (∃ m, exCrossParts = .ok m ∧ Reach unitOps exCross 10 5 (fun _ => ()) 3 m) ∧ ProperGrid exCross 10 5 ∧
    exCross.longMax ≤ exCross.longMin ∧ exCross.width = 30 ∧ 180 < exCross.longMin + (2 : ℕ) * (10 : ℚ) ∧
    (exCrossParts.map (fun m => [1, 7, 10, 16].map (fun i => (m.cells[i]?.join.map (fun c => c.bounds.longMin)))) : Py (List (Option ℚ))) =
      .ok [some 180, some 175, some (-170), some (-170)] ∧
    listOf exCrossParts 1 .west = some [7, 9] ∧ listOf exCrossParts 10 .north = some [16] ∧ listOf exCrossParts 1 .east = some [] := by
  have hok : (match exCrossParts with | .ok _ => true | .error _ => false) = true := by decide +kernel
  refine ⟨?_, exCross_proper, by norm_num [exCross], by decide +kernel, by norm_num [exCross], by decide +kernel, by decide +kernel, by decide +kernel,
    by decide +kernel⟩
  rcases h : exCrossParts with e | m
  · rw [h] at hok; cases hok
  · exact ⟨m, rfl, runSplits_reach [0, 2, 5] h⟩

/-- C19 is false for the whole band with a single column: every cell is its own eastern neighbour. -/
theorem C19_single_column_false : ∃ b W H m f, ProperGrid b W H ∧ Reach unitOps b W H (fun _ => ()) 3 m ∧
    nbrs m 0 = some f ∧ 0 ∈ f .east := by
  have hok : (match runSplits (MeshBuilder.init exBand 360 5 (fun _ => ()) 3) [] with | .ok _ => true | .error _ => false) = true := by
    decide +kernel
  rcases h : runSplits (MeshBuilder.init exBand 360 5 (fun _ => ()) 3) [] with e | m
  · rw [h] at hok; cases hok
  have n1 : listOf (runSplits (MeshBuilder.init exBand 360 5 (fun _ => ()) 3) []) 0 .east = some [0] := by decide +kernel
  rw [h] at n1
  obtain ⟨f, hf, hf'⟩ := Option.map_eq_some_iff.1 n1
  refine ⟨exBand, 360, 5, m, f, ⟨exBand_proper.valid, exBand_proper.nondeg, by norm_num, by norm_num, ?_⟩, runSplits_reach [] h, hf, ?_⟩
  · intro h; exact ⟨1, by rw [h]; norm_num⟩
  · rw [hf']; simp

/-- C19 is false for a full circle with a single column also when it is not flagged global: the graph loses its
symmetry after two splits. -/
theorem C19_asymmetric_false : ∃ b W H m i j f f' d, ProperGrid b W H ∧ Reach unitOps b W H (fun _ => ()) 3 m ∧
    nbrs m i = some f ∧ nbrs m j = some f' ∧ j ∈ f d ∧ i ∉ f' (d.opp) := by
  let b : Boundary := ⟨-60, -40, 0, 0, []⟩
  have hok : (match runSplits (MeshBuilder.init b 360 5 (fun _ => ()) 3) [0, 5] with | .ok _ => true | .error _ => false) = true := by
    decide +kernel
  rcases h : runSplits (MeshBuilder.init b 360 5 (fun _ => ()) 3) [0, 5] with e | m
  · rw [h] at hok; cases hok
  have n1 : (listOf (runSplits (MeshBuilder.init b 360 5 (fun _ => ()) 3) [0, 5]) 1 .southWest).map (fun l => decide (9 ∈ l)) = some true := by
    decide +kernel
  have n2 : (listOf (runSplits (MeshBuilder.init b 360 5 (fun _ => ()) 3) [0, 5]) 9 .northEast).map (fun l => decide (1 ∈ l)) = some false := by
    decide +kernel
  rw [h] at n1 n2
  obtain ⟨l1, hl1, hl1'⟩ := Option.map_eq_some_iff.1 n1
  obtain ⟨l2, hl2, hl2'⟩ := Option.map_eq_some_iff.1 n2
  obtain ⟨f, hf, rfl⟩ := Option.map_eq_some_iff.1 hl1
  obtain ⟨f', hf', rfl⟩ := Option.map_eq_some_iff.1 hl2
  refine ⟨b, 360, 5, m, 1, 9, f, f', .southWest, ⟨by norm_num [Valid, b], by norm_num [b], by norm_num, by norm_num, ?_⟩,
    runSplits_reach _ h, hf, hf', by simpa using hl1', ?_⟩
  · intro h; exact ⟨1, by rw [h]; norm_num⟩
  · show 1 ∉ f' .northEast
    simpa using hl2'

/-- Two cells split in one order. -/
def exOrder12 : Py (MeshState Unit) := runSplits (MeshBuilder.init exCross 10 5 (fun _ => ()) 3) [1, 2]

/-- The same two cells split in the other order. -/
def exOrder21 : Py (MeshState Unit) := runSplits (MeshBuilder.init exCross 10 5 (fun _ => ()) 3) [2, 1]

/-- C23 is false in a region that crosses the antimeridian: splitting the cells 180:-170 and -170:-160 in either order
leaves the same rectangles, but only one of the two graphs links the new cells across -170. -/
theorem C23_crossing_false : ∃ m m' i i' r f f', Reach unitOps exCross 10 5 (fun _ => ()) 3 m ∧ Reach unitOps exCross 10 5 (fun _ => ()) 3 m' ∧
    (∀ r, (∃ i, liveRect m i = some r) ↔ (∃ i, liveRect m' i = some r)) ∧
    liveRect m i = some r ∧ liveRect m' i' = some r ∧ nbrs m i = some f ∧ nbrs m' i' = some f' ∧
    f .east ≠ [] ∧ f' .east = [] := by
  have ok1 : (match exOrder12 with | .ok _ => true | .error _ => false) = true := by decide +kernel
  have ok2 : (match exOrder21 with | .ok _ => true | .error _ => false) = true := by decide +kernel
  rcases h1 : exOrder12 with e | m
  · rw [h1] at ok1; cases ok1
  rcases h2 : exOrder21 with e | m'
  · rw [h2] at ok2; cases ok2
  have L1 : (exOrder12.map (fun m => m.cells.length) : Py ℕ) = .ok 14 := by decide +kernel
  have L2 : (exOrder21.map (fun m => m.cells.length) : Py ℕ) = .ok 14 := by decide +kernel
  have s12 : (match exOrder12, exOrder21 with
    | .ok m, .ok m' => decide (∀ i ∈ List.range 14, liveRect m i = none ∨ ∃ j ∈ List.range 14, liveRect m i = liveRect m' j)
    | _, _ => false) = true := by decide +kernel
  have s21 : (match exOrder12, exOrder21 with
    | .ok m, .ok m' => decide (∀ i ∈ List.range 14, liveRect m' i = none ∨ ∃ j ∈ List.range 14, liveRect m' i = liveRect m j)
    | _, _ => false) = true := by decide +kernel
  have c1 : (exOrder12.map (fun m => liveRect m 7) : Py (Option Rect)) = .ok (some ⟨-175, -170, -115/2, -55⟩) := by decide +kernel
  have c2 : (exOrder21.map (fun m => liveRect m 11) : Py (Option Rect)) = .ok (some ⟨-175, -170, -115/2, -55⟩) := by decide +kernel
  have n1 : listOf exOrder12 7 .east = some [10] := by decide +kernel
  have n2 : listOf exOrder21 11 .east = some [] := by decide +kernel
  rw [h1] at L1 c1 n1
  rw [h2] at L2 c2 n2
  rw [h1, h2] at s12 s21
  simp only [Except.map, Except.ok.injEq] at L1 L2 c1 c2
  simp only [decide_eq_true_eq] at s12 s21
  obtain ⟨f, hf, hf1⟩ := Option.map_eq_some_iff.1 n1
  obtain ⟨f', hf', hf1'⟩ := Option.map_eq_some_iff.1 n2
  have dom : ∀ (n : MeshState Unit), n.cells.length = 14 → ∀ i r, liveRect n i = some r → i < 14 := by
    intro n hn i r hi
    obtain ⟨c, hl, -⟩ := liveRect_some hi
    have := live_lt hl
    omega
  refine ⟨m, m', 7, 11, _, f, f', runSplits_reach _ h1, runSplits_reach _ h2, ?_, c1, c2, hf, hf', by rw [hf1]; simp, hf1'⟩
  intro r
  constructor
  · rintro ⟨i, hi⟩
    rcases s12 i (List.mem_range.2 (dom m L1 i r hi)) with h | ⟨j, -, h⟩
    · rw [h] at hi; cases hi
    · exact ⟨j, by rw [← h, hi]⟩
  · rintro ⟨i, hi⟩
    rcases s21 i (List.mem_range.2 (dom m' L2 i r hi)) with h | ⟨j, -, h⟩
    · rw [h] at hi; cases hi
    · exact ⟨j, by rw [← h, hi]⟩

end Verif
