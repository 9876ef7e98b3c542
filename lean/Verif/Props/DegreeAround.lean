import Verif.Props.Degree
import Verif.Props.CrossingGraph
import Verif.Proof.Turning

/-!
# The same over the antimeridian (C131)

There too cells lie on the grids that arise from halving the initial cells, going east past the antimeridian, and have no more
neighbours than elsewhere: links may be missing (C18), but none are too many.
-/

namespace Verif
open Spec

variable {D : Type}

/-- A cell of depth `k` is one of the boxes of the grid with `2 ^ k` times as many columns and rows, counted to the east from the
western edge of the region and brought back from beyond the antimeridian. -/
def Spec.SlotAround (b : Boundary) (W H : ℚ) (k : ℕ) (q : Boundary) : Prop :=
  ∃ z y : ℕ, b.longMin + (z + 1) * (W / 2 ^ k) ≤ eastEdge b ∧
    q = ⟨b.latMin + y * (H / 2 ^ k), b.latMin + (y + 1) * (H / 2 ^ k), turnBack (b.longMin + z * (W / 2 ^ k)),
      turnBack (b.longMin + (z + 1) * (W / 2 ^ k)), b.time⟩

theorem reach_slots_flat {ops : DataOps D} {b : Boundary} {W H : ℚ} {initData : Boundary → D} {depth : ℕ} (hp : ProperGrid b W H)
    (hcol : b.width = 360 → W ≤ 180) {m : MeshState D} (h : Reach ops b W H initData depth m) {i : ℕ} {c : CellBox D} (hl : Live m i c) :
    ∃ q, Flat b q ∧ InSlot (flatOf b) W H c.depth q ∧ c.bounds = turnBox q := by
  obtain ⟨m0, h0, hs⟩ := h
  have hu := unwraps_of hp
  obtain ⟨boxes, g0, glob, hacc, hb, -, hm0⟩ := init_inv h0
  have hsm := cell_small hp hcol hacc
  have hS := around_system hp hcol hacc
  have key : ∀ {m' : MeshState D}, Splits ops m0 m' → ∀ i c, Live m' i c →
      ∃ q, Flat b q ∧ InSlot (flatOf b) W H c.depth q ∧ c.bounds = turnBox q ∧ Around b c.bounds := by
    intro m' hs'
    induction hs' with
    | refl =>
      intro i c hl
      subst hm0
      obtain ⟨cb, hcb, rfl⟩ := live_init.1 hl
      have hg := (hS.roots _ hb cb).1 (List.mem_of_getElem? hcb)
      obtain ⟨q0, hq0, e⟩ := (turnGridBox_iff _).1 hg
      refine ⟨q0, gridBox_flat hp.wpos hp.hpos hsm hq0, ?_, e, hS.first _ hg⟩
      obtain ⟨x, y, e, -, -⟩ := hq0
      rw [e]
      refine ⟨⟨y, ?_, ?_⟩, ⟨x, ?_, ?_⟩, rfl⟩ <;> simp only [pow_zero, div_one] <;> ring
    | step k hs'' he ih =>
      rename_i m1 m2
      intro i c hl
      obtain ⟨c0, new, g, hk, hsp, -, rfl⟩ := splitAndReplace_inv he
      obtain ⟨q0, hF, hI, e0, hA⟩ := ih k c0 hk
      have hparts := split_parts hsp
      obtain ⟨nw, ne, sw, se, rfl, -, -, -, -, hq⟩ := split_shape hsp
      have quad : ∀ q ∈ [nw, ne, sw, se], ∃ q', Flat b q' ∧ InSlot (flatOf b) W H q.depth q' ∧ q.bounds = turnBox q' ∧
          Around b q.bounds := by
        intro q hqm
        have hqq := (hS.part_iff _ _ hA).1 ((hparts q.bounds).2 ⟨q, hqm, rfl⟩)
        have hin := (hS.within _ _ hA hqq).1
        rw [e0, turnQuarters_box hu hF, List.mem_map] at hqq
        obtain ⟨q', hq', e'⟩ := hqq
        refine ⟨q', quarter_flat hF hq', ?_, e'.symm, hin⟩
        obtain ⟨q1, q2, q3⟩ := (mem_quarters_iff _ _).1 hq'
        rw [(hq q hqm).1]
        refine ⟨?_, ?_, q3.trans hI.2.2⟩
        · have := slot_half hI.1 q1
          rwa [div_div, ← pow_succ] at this
        · have := slot_half hI.2.1 q2
          rwa [div_div, ← pow_succ] at this
      rcases (live_after hk _ _ _ _ g i c).1 hl with ⟨-, hl⟩ | ⟨-, rfl⟩ | ⟨-, rfl⟩ | ⟨-, rfl⟩ | ⟨-, rfl⟩
      · exact ih i c hl
      all_goals exact quad _ (by simp)
  obtain ⟨q, h1, h2, h3, -⟩ := key hs i c hl
  exact ⟨q, h1, h2, h3⟩

/-- The rectangles of a grid that touch one of them on a side are no more than fit there, and at a corner there is only one. -/
theorem rects_count {S T x0 y0 : ℚ} (hW : 0 < S) (hH : 0 < T) {d : Dir} {M k : ℕ} (l : List ℕ) (hnd : l.Nodup) (R : ℕ → Rect) (dep : ℕ → ℕ)
    {A : Rect} {t : ℚ} (htz : hSide d = .mid → t = 0) (hk : k ≤ M) (hM : ∀ j ∈ l, dep j ≤ M)
    (hA : SlotOf y0 (T / 2 ^ k) A.s A.n ∧ SlotOf x0 (S / 2 ^ k) A.w A.e)
    (hs : ∀ j ∈ l, SlotOf y0 (T / 2 ^ dep j) (R j).s (R j).n ∧ SlotOf x0 (S / 2 ^ dep j) (R j).w (R j).e)
    (he : ∀ j ∈ l, Touches d A ((R j).shift t)) (hpos : ∀ j ∈ l, (R j).Pos)
    (hdis : ∀ j ∈ l, ∀ j' ∈ l, j ≠ j' → ¬ (R j).Overlap (R j')) :
    (isCorner d → l.length ≤ 1) ∧ (¬ isCorner d → l.length ≤ 2 ^ (M - k)) := by
  unfold Rect.Overlap at hdis
  unfold Touches Rect.shift at he
  unfold Rect.Pos at hpos
  simp only at he
  unfold isCorner
  constructor
  · rintro ⟨c1, c2⟩
    by_contra hlen
    obtain ⟨x, y, rest, hxy⟩ : ∃ x y rest, l = x :: y :: rest := by
      rcases hfd : l with _ | ⟨x, _ | ⟨y, rest⟩⟩
      · simp [hfd] at hlen
      · simp [hfd] at hlen
      · exact ⟨x, y, rest, rfl⟩
    have hne : x ≠ y := by
      rw [hxy] at hnd
      intro e
      subst e
      simp at hnd
    have hx : x ∈ l := by rw [hxy]; simp
    have hy : y ∈ l := by rw [hxy]; simp
    obtain ⟨x1, x2⟩ := he x hx
    obtain ⟨y1, y2⟩ := he y hy
    obtain ⟨x3, x4⟩ := hpos x hx
    obtain ⟨y3, y4⟩ := hpos y hy
    refine hdis x hx y hy hne ?_
    rcases hh : hSide d with _ | _ | _
    · rcases hv : vSide d with _ | _ | _
      · rw [hh] at x1 y1
        rw [hv] at x2 y2
        simp only [sideRel] at x1 x2 y1 y2
        refine ⟨?_, ?_, ?_, ?_⟩ <;> linarith
      · exact (c2 hv).elim
      · rw [hh] at x1 y1
        rw [hv] at x2 y2
        simp only [sideRel] at x1 x2 y1 y2
        refine ⟨?_, ?_, ?_, ?_⟩ <;> linarith
    · exact (c1 hh).elim
    · rcases hv : vSide d with _ | _ | _
      · rw [hh] at x1 y1
        rw [hv] at x2 y2
        simp only [sideRel] at x1 x2 y1 y2
        refine ⟨?_, ?_, ?_, ?_⟩ <;> linarith
      · exact (c2 hv).elim
      · rw [hh] at x1 y1
        rw [hv] at x2 y2
        simp only [sideRel] at x1 x2 y1 y2
        refine ⟨?_, ?_, ?_, ?_⟩ <;> linarith
  · intro hcorner
    by_cases hv : vSide d = .mid
    · refine slots_count hH (l) hnd (fun j => (R j).s) (fun j => (R j).n) dep (hk) hA.1 ?_ ?_
      · intro j hj
        obtain ⟨-, k2⟩ := he j hj
        rw [hv] at k2
        exact ⟨hM j hj, (hs j hj).1, k2.1, k2.2⟩
      · rintro j hj j' hj' hne ⟨o1, o2⟩
        refine hdis j hj j' hj' hne ?_
        have hh : hSide d ≠ .mid := by revert hv; cases d <;> simp [vSide, hSide]
        obtain ⟨x1, -⟩ := he j hj
        obtain ⟨y1, -⟩ := he j' hj'
        obtain ⟨x3, x4⟩ := hpos j hj
        obtain ⟨y3, y4⟩ := hpos j' hj'
        rcases hh' : hSide d with _ | _ | _
        · rw [hh'] at x1 y1
          simp only [sideRel] at x1 y1
          exact ⟨by linarith, by linarith, o2, o1⟩
        · exact (hh hh').elim
        · rw [hh'] at x1 y1
          simp only [sideRel] at x1 y1
          exact ⟨by linarith, by linarith, o2, o1⟩
    · have hh : hSide d = .mid := by
        by_contra hh
        exact hcorner ⟨hh, hv⟩
      have ht0 : ∀ j ∈ l, (R j).w < A.e ∧ A.w < (R j).e := by
        intro j hj
        obtain ⟨k1, -⟩ := he j hj
        rw [hh, htz hh] at k1
        simpa [sideRel] using k1
      refine slots_count hW (l) hnd (fun j => (R j).w) (fun j => (R j).e) dep (hk) hA.2 ?_ ?_
      · intro j hj
        obtain ⟨-, k2⟩ := he j hj
        exact ⟨hM j hj, (hs j hj).2, (ht0 j hj).1, (ht0 j hj).2⟩
      · rintro j hj j' hj' hne ⟨o1, o2⟩
        refine hdis j hj j' hj' hne ?_
        obtain ⟨-, x1⟩ := he j hj
        obtain ⟨-, y1⟩ := he j' hj'
        obtain ⟨x3, x4⟩ := hpos j hj
        obtain ⟨y3, y4⟩ := hpos j' hj'
        rcases hh' : vSide d with _ | _ | _
        · rw [hh'] at x1 y1
          simp only [sideRel] at x1 y1
          exact ⟨o2, o1, by linarith, by linarith⟩
        · exact (hv hh').elim
        · rw [hh'] at x1 y1
          simp only [sideRel] at x1 y1
          exact ⟨o2, o1, by linarith, by linarith⟩


/-- The arc of a cell, after the turns that bring it to the `360` degrees from `x0` on, lies in the slots counted from there. -/
theorem arc_slot {b q : Boundary} {W H : ℚ} {k : ℕ} {x0 : ℚ} {s t : ℤ} (hu : Unwraps b) (hF : Flat b q) (hI : InSlot (flatOf b) W H k q)
    (hx : b.longMin = x0 + 360 * s) {r : Rect} (hr : r = (arcOf (turnBox q)).shift (360 * t)) (h1 : x0 ≤ r.w) (h2 : r.e ≤ x0 + 360) :
    SlotOf b.latMin (H / 2 ^ k) r.s r.n ∧ SlotOf x0 (W / 2 ^ k) r.w r.e := by
  have he := turn_east hu hF
  obtain ⟨u1, u2, u3, u4⟩ := hu
  obtain ⟨f1, f2, f3, f4, -, -, -, -⟩ := hF
  obtain ⟨i1, ⟨z, i2, i3⟩, -⟩ := hI
  have key : ∃ n : ℤ, r.w = q.longMin + 360 * n ∧ r.e = q.longMax + 360 * n := by
    by_cases h : q.longMin ≤ 180
    · refine ⟨t, ?_, ?_⟩
      · rw [hr]; simp [arcOf, Rect.shift, turnBox, turnBack, h]
      · rw [hr]; simp only [arcOf, Rect.shift]; rw [he, if_pos h]
    · refine ⟨t - 1, ?_, ?_⟩
      · rw [hr]; simp only [arcOf, Rect.shift, turnBox, turnBack, if_neg h]; push_cast; ring
      · rw [hr]; simp only [arcOf, Rect.shift]; rw [he, if_neg h]; push_cast; ring
  obtain ⟨n, n1, n2⟩ := key
  have hn : n = -s := by
    have a1 : (n : ℚ) + s < 1 := by linarith
    have a2 : (-1 : ℚ) < n + s := by linarith
    have b1 : n + s < 1 := by exact_mod_cast a1
    have b2 : -1 < n + s := by exact_mod_cast a2
    omega
  subst hn
  push_cast at n1 n2
  refine ⟨by rw [hr]; exact i1, z, ?_, ?_⟩
  · have : q.longMin = b.longMin + z * (W / 2 ^ k) := i2
    linarith
  · have : q.longMax = b.longMin + (z + 1) * (W / 2 ^ k) := i3
    linarith

/-- C131, where cells lie, wherever the region lies: a cell of depth `k` is one of the boxes of the grid over the region with cells
`2 ^ k` times narrower and lower than the initial ones. -/
theorem C131_slots_around (ops : DataOps D) (b : Boundary) (W H : ℚ) (hp : ProperGrid b W H) (hcol : b.width = 360 → W ≤ 180)
    (initData : Boundary → D) (depth : ℕ) (m : MeshState D) (h : Reach ops b W H initData depth m) (i : ℕ) (c : CellBox D)
    (hl : Live m i c) : SlotAround b W H c.depth c.bounds := by
  obtain ⟨q, hF, ⟨⟨y, y1, y2⟩, ⟨z, z1, z2⟩, ht⟩, e⟩ := reach_slots_flat hp hcol h hl
  refine ⟨z, y, ?_, ?_⟩
  · have := hF.hi
    rw [z2] at this
    exact this
  · rw [e]
    unfold turnBox
    rw [y1, y2, z1, z2, ht]
    rfl

/-- C131 over the antimeridian, any sequence of splits: a cell has at most one neighbour in the direction of a corner, and on a side
at most `2 ^ (M - depth)` if no cell is deeper than `M`. -/
theorem C131_neighbours_crossing (ops : DataOps D) (b : Boundary) (W H : ℚ) (hp : ProperGrid b W H) (hcr : b.longMax ≤ b.longMin)
    (hcol : b.width = 360 → W ≤ 180) (initData : Boundary → D) (depth M : ℕ) (m : MeshState D)
    (h : Reach ops b W H initData depth m) (hM : ∀ i c, Live m i c → c.depth ≤ M) (i : ℕ) (c : CellBox D) (f : NMap)
    (hl : Live m i c) (hf : nbrs m i = some f) (d : Dir) :
    (isCorner d → (f d).length ≤ 1) ∧ (¬ isCorner d → (f d).length ≤ 2 ^ (M - c.depth)) := by
  have hu := unwraps_of hp
  -- it is enough to lay the cells out in the plane
  have main : ∀ (x0 : ℚ) (s : ℤ) (U : ℕ → Option Rect) (A : Rect) (t : ℚ), b.longMin = x0 + 360 * s → U i = some A → (hSide d = .mid → t = 0) →
      (∀ i c, Live m i c → ∃ n : ℤ, U i = some ((arcOf c.bounds).shift (360 * n))) → (∀ i r, U i = some r → ∃ c, Live m i c) →
      (∀ i r, U i = some r → x0 ≤ r.w ∧ r.e ≤ x0 + 360 ∧ r.Pos) →
      (∀ i j a b, i ≠ j → U i = some a → U j = some b → ¬ a.Overlap b) → (f d).Nodup →
      (∀ j ∈ f d, ∃ r, U j = some r ∧ Touches d A (r.shift t)) →
      (isCorner d → (f d).length ≤ 1) ∧ (¬ isCorner d → (f d).length ≤ 2 ^ (M - c.depth)) := by
    intro x0 s U A t hx hUi htz hlive hdead hin hdis hnd htouch
    have slot : ∀ j c r, Live m j c → U j = some r → SlotOf b.latMin (H / 2 ^ c.depth) r.s r.n ∧ SlotOf x0 (W / 2 ^ c.depth) r.w r.e := by
      intro j c r hl hr
      obtain ⟨q, hF, hI, e⟩ := reach_slots_flat hp hcol h hl
      obtain ⟨n, hn⟩ := hlive j c hl
      rw [hr] at hn
      obtain ⟨k1, k2, -⟩ := hin j r hr
      exact arc_slot hu hF hI hx (by rw [e] at hn; exact Option.some.inj hn) k1 k2
    have hmem : ∀ j, ∃ (r : Rect) (k : ℕ), j ∈ f d → U j = some r ∧ Touches d A (r.shift t) ∧ k ≤ M ∧
        SlotOf b.latMin (H / 2 ^ k) r.s r.n ∧ SlotOf x0 (W / 2 ^ k) r.w r.e := by
      intro j
      by_cases hj : j ∈ f d
      · obtain ⟨r, hr, ht⟩ := htouch j hj
        obtain ⟨c', hl'⟩ := hdead j r hr
        exact ⟨r, c'.depth, fun _ => ⟨hr, ht, hM j c' hl', slot j c' r hl' hr⟩⟩
      · exact ⟨A, 0, fun h => (hj h).elim⟩
    choose R dep hR using hmem
    exact rects_count hp.wpos hp.hpos (f d) hnd R dep htz (hM i c hl) (fun j hj => (hR j hj).2.2.1) (slot i c A hl hUi)
      (fun j hj => (hR j hj).2.2.2) (fun j hj => (hR j hj).2.1) (fun j hj => (hin j _ (hR j hj).1).2.2)
      (fun j hj j' hj' hne => hdis j j' _ _ hne (hR j hj).1 (hR j' hj').1)
  by_cases hstart : b.longMin = 180 ∧ b.longMax = 180
  · obtain ⟨hm, U, hU⟩ := reach_ring hp hstart hcol h
    obtain ⟨-, n, hn⟩ := hU.live i c hl
    have hok := hU.sound.pos i _ hn
    obtain ⟨t, htz, ht⟩ := adj_turn (d := d) hok
    refine main (-180) 1 U _ t (by rw [hstart.1]; norm_num) hn htz (fun i c hl => (hU.live i c hl).2) hU.dead ?_ hU.sound.disjoint
      (hU.sound.nodup i f d hf) ?_
    · intro j r hr
      obtain ⟨k1, k2, k3, -⟩ := hU.sound.pos j r hr
      exact ⟨k2, by linarith, k1⟩
    · intro j hj
      obtain ⟨a, a', ha, ha', had⟩ := hU.sound.touch i f d j hf hj
      rw [hn] at ha
      cases ha
      exact ⟨a', ha', ht a' (hU.sound.pos j a' ha') had⟩
  · have hflag : ¬ (b.longMax = 180 ∧ (b.longMin = -180 ∨ b.longMin = 180)) := by
      rintro ⟨h1, h2 | h2⟩
      · linarith
      · exact hstart ⟨h2, h1⟩
    obtain ⟨hm, U, hU⟩ := reach_seam hp hflag hcol h
    obtain ⟨n, hn⟩ := hU.live i c hl
    have hpos := (C04_geometry_partial b hp.valid hp.nondeg).1
    refine main b.longMin 0 U _ 0 (by norm_num) hn (fun _ => rfl) hU.live hU.dead ?_ hU.sound.disjoint (hU.sound.nodup i f d hf) ?_
    · intro j r hr
      obtain ⟨k1, k2, -⟩ := hU.within j r hr
      exact ⟨k1, by linarith [hpos.2], hU.sound.pos j r hr⟩
    · intro j hj
      obtain ⟨a, a', ha, ha', had⟩ := hU.sound.touch i f d j hf hj
      rw [hn] at ha
      cases ha
      refine ⟨a', ha', ?_⟩
      simpa [Rect.shift] using had

/-- C131 over the antimeridian, what `build_environmental_mesh` returns: no cell has more than `2 ^ depth` neighbours on a side, nor
more than one at a corner. -/
theorem C131_built_crossing (ops : DataOps D) (agg : CellBox D → Py (Dict String Val)) (config : MeshConfig) (b : Boundary) (W H : ℚ)
    (hp : ProperGrid b W H) (hcr : b.longMax ≤ b.longMin) (hcol : b.width = 360 → W ≤ 180)
    (initData : Boundary → D) (depth fuel : ℕ) (m0 : MeshState D) (em : EnvMesh)
    (h0 : MeshBuilder.init b W H initData depth = .ok m0)
    (h : MeshBuilder.buildEnvironmentalMesh ops agg fuel config m0 = .ok em) (i : ℕ) (f : NMap) (hf : em.graph.nodes.get? i = some f)
    (d : Dir) : (isCorner d → (f d).length ≤ 1) ∧ (f d).length ≤ 2 ^ depth := by
  have hmd : m0.maxDepth = depth := by
    obtain ⟨boxes, g, glob, -, -, -, rfl⟩ := init_inv h0
    rfl
  unfold MeshBuilder.buildEnvironmentalMesh at h
  simp only [bind, Except.bind] at h
  split at h
  · cases h
  · rename_i m hm
    rw [hmd] at hm
    have hd := C21_depth_bound ops b W H initData depth depth fuel m0 m h0 hm
    have hr := splitToDepth_reach h0 hm
    obtain ⟨-, -, hg, -⟩ := toEnvMesh_spec h
    rw [hg] at hf
    have hf' : nbrs m i = some f := hf
    obtain ⟨c, hl⟩ := ((C19_crossing_partial ops b W H hp hcol initData depth m hr).1 i).1 (by rw [hf']; rfl)
    obtain ⟨k1, k2⟩ := C131_neighbours_crossing ops b W H hp hcr hcol initData depth depth m hr hd i c f hl hf' d
    refine ⟨k1, ?_⟩
    by_cases hc : isCorner d
    · exact (k1 hc).trans (Nat.one_le_two_pow)
    · exact (k2 hc).trans (Nat.pow_le_pow_right (by norm_num) (Nat.sub_le _ _))

/-- The hypotheses of C131 hold over the antimeridian, where a cell that starts there has two neighbours in the west, and for a whole
circle from there. -/
example : (∃ m, exCrossParts = .ok m ∧ Reach unitOps exCross 10 5 (fun _ => ()) 3 m) ∧ ProperGrid exCross 10 5 ∧
    exCross.longMax ≤ exCross.longMin ∧ exCross.width = 30 ∧ listOf exCrossParts 1 .west = some [7, 9] ∧
    (∃ m, exRingSplit = .ok m ∧ Reach unitOps exRing 90 5 (fun _ => ()) 3 m) ∧ exRing.longMax ≤ exRing.longMin ∧ exRing.width = 360 := by
  have ok1 : (match exCrossParts with | .ok _ => true | .error _ => false) = true := by decide +kernel
  have ok2 : (match exRingSplit with | .ok _ => true | .error _ => false) = true := by decide +kernel
  refine ⟨?_, exCross_proper, by norm_num [exCross], by decide +kernel, by decide +kernel, ?_, by norm_num [exRing], by decide +kernel⟩
  · rcases h : exCrossParts with e | m
    · rw [h] at ok1; cases ok1
    · exact ⟨m, rfl, runSplits_reach [0, 2, 5] h⟩
  · rcases h : exRingSplit with e | m
    · rw [h] at ok2; cases ok2
    · exact ⟨m, rfl, runSplits_reach [0, 3, 9] h⟩

end Verif
