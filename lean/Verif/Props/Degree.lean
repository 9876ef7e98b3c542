import Verif.Props.Counting
import Verif.Props.Scaled

/-!
# Where cells can lie, and how many neighbours they can have (C131)

Cells lie on the regular grids that arise from halving the initial cells. So a cell has at most `2 ^ (D - depth)` neighbours on
each side when no cell is deeper than `D`, and at most one at each corner.
-/

namespace Verif.Spec
open Verif

variable {D : Type}

/-- The interval from `l` to `h` is one of the intervals of length `s` that are counted from `a` on. -/
def SlotOf (a s l h : ℚ) : Prop := ∃ z : ℕ, l = a + z * s ∧ h = a + (z + 1) * s

/-- A cell of depth `k` is one of the boxes of the grid with `2 ^ k` times as many columns and rows. -/
def InSlot (b : Boundary) (W H : ℚ) (k : ℕ) (q : Boundary) : Prop :=
  SlotOf b.latMin (H / 2 ^ k) q.latMin q.latMax ∧ SlotOf b.longMin (W / 2 ^ k) q.longMin q.longMax ∧ q.time = b.time

end Verif.Spec

namespace Verif
open Spec

variable {D : Type}

theorem slot_half {a s l h l' h' : ℚ} (hs : SlotOf a s l h) (hh : Half l h l' h') : SlotOf a (s / 2) l' h' := by
  obtain ⟨z, h1, h2⟩ := hs
  rcases hh with ⟨e1, e2⟩ | ⟨e1, e2⟩
  · exact ⟨2 * z, by push_cast; linarith, by push_cast; linarith⟩
  · exact ⟨2 * z + 1, by push_cast; linarith, by push_cast; linarith⟩

/-- Cells lie in the slots of their depth. -/
theorem reach_slots {ops : DataOps D} {b : Boundary} {W H : ℚ} {initData : Boundary → D} {depth : ℕ} (hp : ProperGrid b W H)
    (hcr : b.longMin < b.longMax) {m : MeshState D} (h : Reach ops b W H initData depth m) {i : ℕ} {c : CellBox D} (hl : Live m i c) :
    InSlot b W H c.depth c.bounds := by
  obtain ⟨m0, h0, hs⟩ := h
  have key : ∀ {m' : MeshState D}, Splits ops m0 m' → ∀ i c, Live m' i c → InSlot b W H c.depth c.bounds := by
    intro m' hs'
    induction hs' with
    | refl =>
      intro i c hl
      obtain ⟨boxes, g, glob, hacc, hb, -, rfl⟩ := init_inv h0
      obtain ⟨cb, hcb, rfl⟩ := live_init.1 hl
      obtain ⟨x, y, e, -, -⟩ := (roots_iff hp hcr hacc hb cb).1 (List.mem_of_getElem? hcb)
      simp only
      rw [e]
      refine ⟨⟨y, ?_, ?_⟩, ⟨x, ?_, ?_⟩, rfl⟩ <;> simp only [pow_zero, div_one] <;> ring
    | step k hs'' he ih =>
      rename_i m1 m2
      intro i c hl
      have hok := reach_cells hp ⟨m0, h0, hs''⟩
      obtain ⟨c0, new, g, hk, hsp, -, rfl⟩ := splitAndReplace_inv he
      obtain ⟨hv, hd⟩ := hok.valid k c0 hk
      have hS := ih k c0 hk
      have hlt : c0.bounds.longMin < c0.bounds.longMax := by
        obtain ⟨-, ⟨z, e1, e2⟩, -⟩ := hS
        have := hp.wpos
        have h3 : 0 < W / 2 ^ c0.depth := by positivity
        rw [e1, e2, add_mul, one_mul]
        linarith
      have hparts := split_parts hsp
      obtain ⟨nw, ne, sw, se, rfl, -, -, -, -, hq⟩ := split_shape hsp
      have quad : ∀ q ∈ [nw, ne, sw, se], InSlot b W H q.depth q.bounds := by
        intro q hqm
        have hqq := (mem_quarters_iff _ _).1 ((partOf_iff hv hlt).1 ((hparts q.bounds).2 ⟨q, hqm, rfl⟩))
        obtain ⟨q1, q2, q3⟩ := hqq
        rw [(hq q hqm).1]
        refine ⟨?_, ?_, q3.trans hS.2.2⟩
        · have := slot_half hS.1 q1
          rwa [div_div, ← pow_succ] at this
        · have := slot_half hS.2.1 q2
          rwa [div_div, ← pow_succ] at this
      rcases (live_after hk _ _ _ _ g i c).1 hl with ⟨-, hl⟩ | ⟨-, rfl⟩ | ⟨-, rfl⟩ | ⟨-, rfl⟩ | ⟨-, rfl⟩
      · exact ih i c hl
      all_goals exact quad _ (by simp)
  exact key hs i c hl

/-- Seen on the finest grid. -/
theorem slot_fine {a S l h : ℚ} {k M : ℕ} (hk : k ≤ M) (hs : SlotOf a (S / 2 ^ k) l h) :
    ∃ x y : ℤ, l = a + x * (S / 2 ^ M) ∧ h = a + y * (S / 2 ^ M) ∧ y = x + 2 ^ (M - k) := by
  obtain ⟨z, h1, h2⟩ := hs
  have e : S / 2 ^ k = 2 ^ (M - k) * (S / 2 ^ M) := by
    have : (2 : ℚ) ^ M = 2 ^ (M - k) * 2 ^ k := by rw [← pow_add, Nat.sub_add_cancel hk]
    rw [this]
    field_simp
  refine ⟨z * 2 ^ (M - k), z * 2 ^ (M - k) + 2 ^ (M - k), ?_, ?_, rfl⟩
  · rw [h1, e]; push_cast; ring
  · rw [h2, e]; push_cast; ring

/-- Disjoint intervals of integers that meet a given one are no more than its length. -/
theorem intervals_count (l : List ℕ) (hnd : l.Nodup) (lo hi : ℕ → ℤ) (p q : ℤ) (n : ℕ) (hn : q = p + n)
    (h1 : ∀ j ∈ l, lo j < hi j ∧ lo j < q ∧ p < hi j) (hpq : p < q)
    (h2 : ∀ j ∈ l, ∀ j' ∈ l, j ≠ j' → ¬ (lo j < hi j' ∧ lo j' < hi j)) : l.length ≤ n := by
  have hcard : l.toFinset.card ≤ (Finset.Ico p q).card := by
    refine Finset.card_le_card_of_injOn (fun j => max (lo j) p) ?_ ?_
    · intro j hj
      have hj' : j ∈ l := by simpa using hj
      obtain ⟨a1, a2, a3⟩ := h1 j hj'
      simp only [Finset.coe_Ico, Set.mem_Ico]
      exact ⟨le_max_right _ _, max_lt a2 hpq⟩
    · intro j hj j' hj' e
      have hj : j ∈ l := by simpa using hj
      have hj' : j' ∈ l := by simpa using hj'
      by_contra hne
      obtain ⟨a1, a2, a3⟩ := h1 j hj
      obtain ⟨b1, b2, b3⟩ := h1 j' hj'
      simp only at e
      refine h2 j hj j' hj' hne ⟨?_, ?_⟩
      · exact lt_of_le_of_lt (le_max_left _ _) (e ▸ max_lt b1 b3)
      · exact lt_of_le_of_lt (le_max_left _ p) (e ▸ max_lt a1 a3)
  rw [List.toFinset_card_of_nodup hnd, Int.card_Ico, hn] at hcard
  simpa using hcard

/-- The same for intervals on a grid. -/
theorem slots_count {a S : ℚ} (hS : 0 < S) {M k : ℕ} (l : List ℕ) (hnd : l.Nodup) (lo hi : ℕ → ℚ) (dep : ℕ → ℕ) {u v : ℚ}
    (hk : k ≤ M) (huv : SlotOf a (S / 2 ^ k) u v)
    (h1 : ∀ j ∈ l, dep j ≤ M ∧ SlotOf a (S / 2 ^ dep j) (lo j) (hi j) ∧ lo j < v ∧ u < hi j)
    (h2 : ∀ j ∈ l, ∀ j' ∈ l, j ≠ j' → ¬ (lo j < hi j' ∧ lo j' < hi j)) : l.length ≤ 2 ^ (M - k) := by
  have hs : 0 < S / 2 ^ M := by positivity
  have cmp : ∀ x y : ℤ, a + x * (S / 2 ^ M) < a + y * (S / 2 ^ M) ↔ x < y := by
    intro x y
    rw [add_lt_add_iff_left, mul_lt_mul_iff_left₀ hs]
    exact_mod_cast Iff.rfl
  obtain ⟨p, q, e1, e2, e3⟩ := slot_fine hk huv
  have : ∀ j, ∃ x y : ℤ, j ∈ l → lo j = a + x * (S / 2 ^ M) ∧ hi j = a + y * (S / 2 ^ M) ∧ x < y := by
    intro j
    by_cases hj : j ∈ l
    · obtain ⟨a1, a2, -⟩ := h1 j hj
      obtain ⟨x, y, b1, b2, b3⟩ := slot_fine a1 a2
      exact ⟨x, y, fun _ => ⟨b1, b2, by have : (0 : ℤ) < 2 ^ (M - dep j) := by positivity
                                        omega⟩⟩
    · exact ⟨0, 0, fun h => (hj h).elim⟩
  choose x y hxy using this
  refine intervals_count l hnd x y p q _ (by push_cast; exact e3) ?_ (by have : (0 : ℤ) < 2 ^ (M - k) := by positivity
                                                                         omega) ?_
  · intro j hj
    obtain ⟨b1, b2, b3⟩ := hxy j hj
    obtain ⟨-, -, c1, c2⟩ := h1 j hj
    rw [b1, e2, cmp] at c1
    rw [b2, e1, cmp] at c2
    exact ⟨b3, c1, c2⟩
  · intro j hj j' hj' hne ⟨c1, c2⟩
    obtain ⟨b1, b2, -⟩ := hxy j hj
    obtain ⟨b1', b2', -⟩ := hxy j' hj'
    exact h2 j hj j' hj' hne ⟨by rw [b1, b2', cmp]; exact c1, by rw [b1', b2, cmp]; exact c2⟩

/-- The turn by which a neighbour is seen depends on the direction and the cell only. -/
theorem adj_turn {glob : Bool} {d : Dir} {a : Rect} (ha : CellOK glob a) : ∃ t, (hSide d = .mid → t = 0) ∧
    ∀ b, CellOK glob b → Adj glob d a b → Touches d a (b.shift t) := by
  obtain ⟨⟨a1, a2⟩, a3, a4, -⟩ := ha
  have turn : ∀ t ∈ turns glob, t = 0 ∨ t = 360 ∨ t = -360 := by
    intro t ht
    unfold turns at ht
    split at ht <;> simp at ht <;> tauto
  cases hd : hSide d with
  | hi =>
    by_cases he : a.e = 180 ∧ glob = true
    · refine ⟨360, by simp, fun b hb ⟨t, ht, h1, h2⟩ => ?_⟩
      obtain ⟨⟨b1, b2⟩, b3, b4, -⟩ := hb
      rw [hd] at h1
      simp only [sideRel, Rect.shift] at h1
      rcases turn t ht with rfl | rfl | rfl
      · linarith
      · exact ⟨by rw [hd]; exact h1, h2⟩
      · linarith
    · refine ⟨0, by simp, fun b hb ⟨t, ht, h1, h2⟩ => ?_⟩
      obtain ⟨⟨b1, b2⟩, b3, b4, -⟩ := hb
      rw [hd] at h1
      simp only [sideRel, Rect.shift] at h1
      rcases turn t ht with rfl | rfl | rfl
      · exact ⟨by rw [hd]; exact h1, h2⟩
      · refine (he ⟨by linarith, ?_⟩).elim
        unfold turns at ht
        cases glob
        · simp at ht
        · rfl
      · linarith
  | lo =>
    by_cases he : a.w = -180 ∧ glob = true
    · refine ⟨-360, by simp, fun b hb ⟨t, ht, h1, h2⟩ => ?_⟩
      obtain ⟨⟨b1, b2⟩, b3, b4, -⟩ := hb
      rw [hd] at h1
      simp only [sideRel, Rect.shift] at h1
      rcases turn t ht with rfl | rfl | rfl
      · linarith
      · linarith
      · exact ⟨by rw [hd]; exact h1, h2⟩
    · refine ⟨0, by simp, fun b hb ⟨t, ht, h1, h2⟩ => ?_⟩
      obtain ⟨⟨b1, b2⟩, b3, b4, -⟩ := hb
      rw [hd] at h1
      simp only [sideRel, Rect.shift] at h1
      rcases turn t ht with rfl | rfl | rfl
      · exact ⟨by rw [hd]; exact h1, h2⟩
      · linarith
      · refine (he ⟨by linarith, ?_⟩).elim
        unfold turns at ht
        cases glob
        · simp at ht
        · rfl
  | mid =>
    refine ⟨0, fun _ => rfl, fun b hb ⟨t, ht, h1, h2⟩ => ?_⟩
    obtain ⟨⟨b1, b2⟩, b3, b4, -⟩ := hb
    rw [hd] at h1
    simp only [sideRel, Rect.shift] at h1
    rcases turn t ht with rfl | rfl | rfl
    · exact ⟨by rw [hd]; exact h1, h2⟩
    · linarith
    · linarith

/-- The directions of the sides, and the directions of the corners. -/
def Spec.isCorner (d : Dir) : Prop := hSide d ≠ .mid ∧ vSide d ≠ .mid

/-- C131, where cells lie: a cell of depth `k` is one of the boxes of the grid over the region with cells `2 ^ k` times narrower and
lower than the initial ones. -/
theorem C131_slots (ops : DataOps D) (b : Boundary) (W H : ℚ) (hp : ProperGrid b W H) (hcr : b.longMin < b.longMax)
    (initData : Boundary → D) (depth : ℕ) (m : MeshState D) (h : Reach ops b W H initData depth m) (i : ℕ) (c : CellBox D)
    (hl : Live m i c) : InSlot b W H c.depth c.bounds := reach_slots hp hcr h hl

/-- C131, any sequence of splits: a cell has at most one neighbour in the direction of a corner, and on a side at most
`2 ^ (M - depth)` if no cell is deeper than `M`. -/
theorem C131_neighbours (ops : DataOps D) (b : Boundary) (W H : ℚ) (hp : ProperGrid b W H) (hcr : b.longMin < b.longMax)
    (hcol : b.longMin = -180 ∧ b.longMax = 180 → W ≤ 180) (initData : Boundary → D) (depth M : ℕ) (m : MeshState D)
    (h : Reach ops b W H initData depth m) (hM : ∀ i c, Live m i c → c.depth ≤ M) (i : ℕ) (c : CellBox D) (f : NMap)
    (hl : Live m i c) (hf : nbrs m i = some f) (d : Dir) :
    (isCorner d → (f d).length ≤ 1) ∧ (¬ isCorner d → (f d).length ≤ 2 ^ (M - c.depth)) := by
  have ⟨hC, hG⟩ := reach_graph hp hcr (by intro h; exact hcol (by simpa [globalRegion] using h)) h
  have hE := hG.2
  have hrect := liveRect_of_live hl
  have hok := hE.ok i _ hrect
  obtain ⟨t, htz, ht⟩ := adj_turn (d := d) hok
  have hnd := hE.nodup i f d hf
  have hmem : ∀ j, ∃ c', j ∈ f d → Live m j c' ∧ Touches d (rectOf c.bounds) ((rectOf c'.bounds).shift t) := by
    intro j
    by_cases hj : j ∈ f d
    · obtain ⟨r, hr, had⟩ := (hE.mem i f d j _ hf hrect).1 hj
      obtain ⟨c', hl', rfl⟩ := liveRect_some hr
      exact ⟨c', fun _ => ⟨hl', ht _ (hE.ok j _ hr) had⟩⟩
    · exact ⟨c, fun h => (hj h).elim⟩
  choose e he using hmem
  have hpos : ∀ j, j ∈ f d → (e j).bounds.longMin < (e j).bounds.longMax ∧ (e j).bounds.latMin < (e j).bounds.latMax :=
    fun j hj => hG.noncrossing (he j hj).1
  have hdis : ∀ j, j ∈ f d → ∀ j', j' ∈ f d → j ≠ j' → ¬ (rectOf (e j).bounds).Overlap (rectOf (e j').bounds) :=
    fun j hj j' hj' hne => hE.disjoint j j' _ _ hne (liveRect_of_live (he j hj).1) (liveRect_of_live (he j' hj').1)
  unfold Rect.Overlap rectOf at hdis
  simp only at hdis
  unfold Touches rectOf Rect.shift at he
  simp only at he
  unfold isCorner
  constructor
  · rintro ⟨c1, c2⟩
    by_contra hlen
    obtain ⟨x, y, rest, hxy⟩ : ∃ x y rest, f d = x :: y :: rest := by
      rcases hfd : f d with _ | ⟨x, _ | ⟨y, rest⟩⟩
      · simp [hfd] at hlen
      · simp [hfd] at hlen
      · exact ⟨x, y, rest, rfl⟩
    have hne : x ≠ y := by
      rw [hxy] at hnd
      intro e
      subst e
      simp at hnd
    have hx : x ∈ f d := by rw [hxy]; simp
    have hy : y ∈ f d := by rw [hxy]; simp
    obtain ⟨-, x1, x2⟩ := he x hx
    obtain ⟨-, y1, y2⟩ := he y hy
    obtain ⟨x3, x4⟩ := hpos x hx
    obtain ⟨y3, y4⟩ := hpos y hy
    refine hdis x hx y hy hne ?_
    rcases hh : hSide d with _ | _ | _
    · rcases hv : vSide d with _ | _ | _
      · rw [hh] at x1 y1
        rw [hv] at x2 y2
        simp only [sideRel] at x1 x2 y1 y2
        refine ⟨?_, ?_, ?_, ?_⟩ <;> linarith
      · exact (c2 hv).elim
      · rw [hh] at x1 y1
        rw [hv] at x2 y2
        simp only [sideRel] at x1 x2 y1 y2
        refine ⟨?_, ?_, ?_, ?_⟩ <;> linarith
    · exact (c1 hh).elim
    · rcases hv : vSide d with _ | _ | _
      · rw [hh] at x1 y1
        rw [hv] at x2 y2
        simp only [sideRel] at x1 x2 y1 y2
        refine ⟨?_, ?_, ?_, ?_⟩ <;> linarith
      · exact (c2 hv).elim
      · rw [hh] at x1 y1
        rw [hv] at x2 y2
        simp only [sideRel] at x1 x2 y1 y2
        refine ⟨?_, ?_, ?_, ?_⟩ <;> linarith
  · intro hcorner
    have hslot := reach_slots hp hcr h hl
    have hs : ∀ j, j ∈ f d → InSlot b W H (e j).depth (e j).bounds := fun j hj => reach_slots hp hcr h (he j hj).1
    by_cases hv : vSide d = .mid
    · refine slots_count hp.hpos (f d) hnd (fun j => (e j).bounds.latMin) (fun j => (e j).bounds.latMax) (fun j => (e j).depth) (hM i c hl) hslot.1 ?_ ?_
      · intro j hj
        obtain ⟨k1, -, k2⟩ := he j hj
        rw [hv] at k2
        exact ⟨hM j _ k1, (hs j hj).1, k2.1, k2.2⟩
      · rintro j hj j' hj' hne ⟨o1, o2⟩
        refine hdis j hj j' hj' hne ?_
        have hh : hSide d ≠ .mid := by revert hv; cases d <;> simp [vSide, hSide]
        obtain ⟨-, x1, -⟩ := he j hj
        obtain ⟨-, y1, -⟩ := he j' hj'
        obtain ⟨x3, x4⟩ := hpos j hj
        obtain ⟨y3, y4⟩ := hpos j' hj'
        rcases hh' : hSide d with _ | _ | _
        · rw [hh'] at x1 y1
          simp only [sideRel] at x1 y1
          exact ⟨by linarith, by linarith, o2, o1⟩
        · exact (hh hh').elim
        · rw [hh'] at x1 y1
          simp only [sideRel] at x1 y1
          exact ⟨by linarith, by linarith, o2, o1⟩
    · have hh : hSide d = .mid := by
        by_contra hh
        exact hcorner ⟨hh, hv⟩
      have ht0 : ∀ j ∈ f d, (e j).bounds.longMin < c.bounds.longMax ∧ c.bounds.longMin < (e j).bounds.longMax := by
        intro j hj
        obtain ⟨-, k1, -⟩ := he j hj
        rw [hh, htz hh] at k1
        simpa [sideRel] using k1
      refine slots_count hp.wpos (f d) hnd (fun j => (e j).bounds.longMin) (fun j => (e j).bounds.longMax) (fun j => (e j).depth) (hM i c hl) hslot.2.1 ?_ ?_
      · intro j hj
        obtain ⟨k1, -, k2⟩ := he j hj
        exact ⟨hM j _ k1, (hs j hj).2.1, (ht0 j hj).1, (ht0 j hj).2⟩
      · rintro j hj j' hj' hne ⟨o1, o2⟩
        refine hdis j hj j' hj' hne ?_
        obtain ⟨-, -, x1⟩ := he j hj
        obtain ⟨-, -, y1⟩ := he j' hj'
        obtain ⟨x3, x4⟩ := hpos j hj
        obtain ⟨y3, y4⟩ := hpos j' hj'
        rcases hh' : vSide d with _ | _ | _
        · rw [hh'] at x1 y1
          simp only [sideRel] at x1 y1
          exact ⟨o2, o1, by linarith, by linarith⟩
        · exact (hv hh').elim
        · rw [hh'] at x1 y1
          simp only [sideRel] at x1 y1
          exact ⟨o2, o1, by linarith, by linarith⟩

/-- C131, what `build_environmental_mesh` returns: no cell has more than `2 ^ depth` neighbours on a side, nor more than one at a
corner. -/
theorem C131_built (ops : DataOps D) (agg : CellBox D → Py (Dict String Val)) (config : MeshConfig) (b : Boundary) (W H : ℚ)
    (hp : ProperGrid b W H) (hcr : b.longMin < b.longMax) (hcol : b.longMin = -180 ∧ b.longMax = 180 → W ≤ 180)
    (initData : Boundary → D) (depth fuel : ℕ) (m0 : MeshState D) (em : EnvMesh)
    (h0 : MeshBuilder.init b W H initData depth = .ok m0)
    (h : MeshBuilder.buildEnvironmentalMesh ops agg fuel config m0 = .ok em) (i : ℕ) (f : NMap) (hf : em.graph.nodes.get? i = some f)
    (d : Dir) : (isCorner d → (f d).length ≤ 1) ∧ (f d).length ≤ 2 ^ depth := by
  have hmd : m0.maxDepth = depth := by
    obtain ⟨boxes, g, glob, -, -, -, rfl⟩ := init_inv h0
    rfl
  unfold MeshBuilder.buildEnvironmentalMesh at h
  simp only [bind, Except.bind] at h
  split at h
  · cases h
  · rename_i m hm
    rw [hmd] at hm
    have hd := C21_depth_bound ops b W H initData depth depth fuel m0 m h0 hm
    have hr := splitToDepth_reach h0 hm
    obtain ⟨-, -, hg, -⟩ := toEnvMesh_spec h
    rw [hg] at hf
    have hf' : nbrs m i = some f := hf
    obtain ⟨c, hl⟩ := ((C19_well_formed_partial ops b W H hp hcr hcol initData depth m hr).1 i).1 (by rw [hf']; rfl)
    obtain ⟨k1, k2⟩ := C131_neighbours ops b W H hp hcr hcol initData depth depth m hr hd i c f hl hf' d
    refine ⟨k1, ?_⟩
    by_cases hc : isCorner d
    · exact (k1 hc).trans (Nat.one_le_two_pow)
    · exact (k2 hc).trans (Nat.pow_le_pow_right (by norm_num) (Nat.sub_le _ _))

/-- C131, the bound cannot be improved: after splits of cell 0 and then of its eastern quarters, its neighbour in the east, of depth
0, has four neighbours in the west; none is deeper than 2. -/
theorem C131_bound_reached : ∃ m, runSplits (MeshBuilder.init exRegion 10 5 (fun _ => ()) 3) [0, 5, 7] = .ok m ∧
    Reach unitOps exRegion 10 5 (fun _ => ()) 3 m ∧ (∀ i c, Live m i c → c.depth ≤ 2) ∧
    ∃ c f, Live m 1 c ∧ c.depth = 0 ∧ nbrs m 1 = some f ∧ (f .west).length = 2 ^ (2 - 0) := by
  have h1 : (match runSplits (MeshBuilder.init exRegion 10 5 (fun _ => ()) 3) [0, 5, 7] with
      | .ok m => m.cells.all (fun o => match o with | some c => decide (c.depth ≤ 2) | none => true) &&
          (match m.cells[1]? with | some (some c) => decide (c.depth = 0) | _ => false) &&
          (match nbrs m 1 with | some f => decide ((f .west).length = 4) | none => false)
      | .error _ => false) = true := by decide +kernel
  rcases h : runSplits (MeshBuilder.init exRegion 10 5 (fun _ => ()) 3) [0, 5, 7] with e | m
  · rw [h] at h1; cases h1
  · rw [h] at h1
    simp only [Bool.and_eq_true, List.all_eq_true] at h1
    obtain ⟨⟨k1, k2⟩, k3⟩ := h1
    refine ⟨m, rfl, runSplits_reach [0, 5, 7] h, ?_, ?_⟩
    · intro i c hl
      simpa using k1 _ (List.mem_of_getElem? hl)
    · rcases hc : m.cells[1]? with _ | _ | c
      · simp [hc] at k2
      · simp [hc] at k2
      · rcases hf : nbrs m 1 with _ | f
        · simp [hf] at k3
        · refine ⟨c, f, hc, by simpa [hc] using k2, rfl, ?_⟩
          simpa [hf] using k3

/-- The hypotheses of C131 hold, for a region and for a whole band. -/
example : (∃ m, Reach unitOps exRegion 10 5 (fun _ => ()) 3 m ∧ (∀ i c, Live m i c → c.depth ≤ 2)) ∧ ProperGrid exRegion 10 5 ∧
    exRegion.longMin < exRegion.longMax ∧ ¬ (exRegion.longMin = -180 ∧ exRegion.longMax = 180) ∧
    (∃ m, exGlobe = .ok m ∧ Reach unitOps exBand 90 5 (fun _ => ()) 3 m) ∧ ProperGrid exBand 90 5 := by
  obtain ⟨m, -, h1, h2, -⟩ := C131_bound_reached
  exact ⟨⟨m, h1, h2⟩, exRegion_proper, by norm_num [exRegion], by norm_num [exRegion], exGlobe_ok, exBand_proper⟩

end Verif
