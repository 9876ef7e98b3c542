import Verif.Props.Mesh

/-!
# Where the data and ancestors of a cell come from
-/

namespace Verif
open Spec

variable {D : Type}

/-- The box `q` lies in the box `p` (on the globe), over the same time range. -/
def Spec.Within (q p : Boundary) : Prop := (∀ x y, HCovers q x y → HCovers p x y) ∧ q.time = p.time

/-- How a cell came about: an initial cell, or a part of an earlier cell whose data it has trimmed.  All
boxes on the way satisfy `P`. -/
inductive Spec.History (ops : DataOps D) (initData : Boundary → D) (P : Boundary → Prop) :
    Boundary → D → List (Boundary × D) → Prop
  | root (b : Boundary) : P b → History ops initData P b (initData b) []
  | child {b : Boundary} {d : D} {anc : List (Boundary × D)} {q : Boundary} :
      History ops initData P b d anc → Within q b → P q → History ops initData P q (ops.trim q d) ((b, d) :: anc)

theorem Spec.Within.trans {a b c : Boundary} (h : Within a b) (h' : Within b c) : Within a c :=
  ⟨fun x y e => h'.1 x y (h.1 x y e), h.2.trans h'.2⟩

theorem Spec.Within.refl (a : Boundary) : Within a a := ⟨fun _ _ h => h, rfl⟩

/-- The box itself satisfies `P`, and so do those of all ancestors; they contain the box. -/
theorem Spec.History.all {ops : DataOps D} {initData : Boundary → D} {P : Boundary → Prop} {b : Boundary} {d : D}
    {anc : List (Boundary × D)} (h : History ops initData P b d anc) :
    P b ∧ ∀ a ∈ anc, P a.1 ∧ Within b a.1 := by
  induction h with
  | root b hb => exact ⟨hb, by simp⟩
  | child _ hw hq ih =>
    refine ⟨hq, ?_⟩
    intro a ha
    rcases List.mem_cons.1 ha with rfl | ha
    · exact ⟨ih.1, hw⟩
    · exact ⟨(ih.2 a ha).1, hw.trans (ih.2 a ha).2⟩

/-- Every live cell has a history, for every property of boxes that initial cells have and that is
inherited by quarters; its depth counts its ancestors. -/
theorem reach_history_gen {ops : DataOps D} {b : Boundary} {W H : ℚ} {initData : Boundary → D} {depth : ℕ}
    (hp : ProperGrid b W H) (P : Boundary → Prop)
    (hinit : ∀ m0 i c, MeshBuilder.init b W H initData depth = .ok m0 → Live m0 i c → P c.bounds)
    (hsplit : ∀ (c0 : CellBox D) n new, Valid c0.bounds → ¬ (c0.bounds.longMin = 180 ∧ c0.bounds.longMax = -180) →
      P c0.bounds → c0.split ops n = .ok new → ∀ q ∈ new, P q.bounds)
    {m : MeshState D} (h : Reach ops b W H initData depth m) {i : ℕ} {c : CellBox D} (hl : Live m i c) :
    History ops initData P c.bounds c.data c.anc ∧ c.depth = c.anc.length := by
  obtain ⟨m0, h0, hs⟩ := h
  obtain ⟨_, _, _, hval, _⟩ := init_inv h0
  obtain ⟨nx, ny, hnx0, hnx, hny⟩ := hp.fits hval
  have hcells := CellsOK.init hp.valid hp.nondeg hp.wpos hp.hpos hnx hny h0
  have key : ∀ {m' : MeshState D}, Splits ops m0 m' → ∀ i c, Live m' i c →
      History ops initData P c.bounds c.data c.anc ∧ c.depth = c.anc.length := by
    intro m' hs'
    induction hs' with
    | refl =>
      intro i c hl
      obtain ⟨hd, ha, hdat⟩ := hcells.2.2 i c hl
      rw [ha, hd, hdat]
      exact ⟨.root _ (hinit m0 i c h0 hl), rfl⟩
    | step k hs'' he ih =>
      rename_i m1 m2
      intro i c hl
      have hok := hcells.1.splits hs''
      obtain ⟨c0, new, g, hk, hsp, -, rfl⟩ := splitAndReplace_inv he
      obtain ⟨hH, hdep⟩ := ih k c0 hk
      obtain ⟨hv, hd⟩ := hok.valid k c0 hk
      obtain ⟨nw, ne, sw, se, hnew, -, -, -, -, hT, hall, -⟩ := C14_cell_split_partial ops c0 m1.cells.length hv hd
      have hP := hsplit c0 _ new hv hd hH.all.1 hsp
      rw [hsp] at hnew
      cases hnew
      have quad : ∀ q ∈ [nw, ne, sw, se], History ops initData P q.bounds q.data q.anc ∧ q.depth = q.anc.length := by
        intro q hq
        obtain ⟨-, -, d1, ht, -, -, d2, d3⟩ := hall q hq
        rw [d1, d2, d3]
        refine ⟨.child hH ⟨fun x y hc => (hT.1 x y).2 ⟨q.bounds, ?_, hc⟩, ht⟩ (hP q hq), by simp [hdep]⟩
        simp only [List.mem_cons, List.not_mem_nil, or_false] at hq ⊢
        rcases hq with rfl | rfl | rfl | rfl <;> simp
      rcases (live_after hk _ _ _ _ g i c).1 hl with ⟨-, hl⟩ | ⟨-, rfl⟩ | ⟨-, rfl⟩ | ⟨-, rfl⟩ | ⟨-, rfl⟩
      · exact ih i c hl
      all_goals exact quad _ (by simp)
  exact key hs i c hl

/-- A box that can be a cell: valid, of positive width and height. -/
def Spec.ProperBox (q : Boundary) : Prop := Valid q ∧ ¬ (q.longMin = 180 ∧ q.longMax = -180) ∧ q.latMin < q.latMax

theorem CellsOK.proper {b : Boundary} {W H : ℚ} {m : MeshState D} (h : CellsOK b W H m) (hH : 0 < H) {i : ℕ} {c : CellBox D}
    (hl : Live m i c) : ProperBox c.bounds := by
  obtain ⟨h1, h2⟩ := h.valid i c hl
  refine ⟨h1, h2, ?_⟩
  have hs := (h.size i c hl).2
  by_contra hc
  have h3 : (0 : ℚ) < 2 ^ c.depth := by positivity
  have h4 : c.bounds.height ≤ 0 := by unfold Boundary.height; linarith
  have := mul_nonpos_of_nonpos_of_nonneg h4 h3.le
  linarith

/-- History of the cells of any mesh. -/
theorem reach_history {ops : DataOps D} {b : Boundary} {W H : ℚ} {initData : Boundary → D} {depth : ℕ}
    (hp : ProperGrid b W H) {m : MeshState D} (h : Reach ops b W H initData depth m) {i : ℕ} {c : CellBox D} (hl : Live m i c) :
    History ops initData (fun q => ProperBox q ∧ Within q b ∧ q.width ≤ W) c.bounds c.data c.anc ∧ c.depth = c.anc.length := by
  refine reach_history_gen hp _ ?_ ?_ h hl
  · intro m0 i c h0 hl
    have hok := reach_cells (ops := ops) hp ⟨m0, h0, .refl m0⟩
    refine ⟨hok.proper hp.hpos hl, ⟨fun x y hc => (hok.cover x y).2 ⟨i, c, hl, hc⟩, hok.time i c hl⟩, ?_⟩
    have hs := (hok.size i c hl).1
    have hw := (C04_geometry_partial _ (hok.valid i c hl).1 (hok.valid i c hl).2).1.1
    have h2 : (1 : ℚ) ≤ 2 ^ c.depth := one_le_pow₀ (by norm_num)
    nlinarith
  · intro c0 n new hv hd hP hsp q hq
    obtain ⟨nw, ne, sw, se, hnew, -, -, -, -, hT, hall, -⟩ := C14_cell_split_partial ops c0 n hv hd
    rw [hsp] at hnew
    cases hnew
    obtain ⟨h1, h2, -, ht, h5, h6, -⟩ := hall q hq
    refine ⟨⟨h1, h2, by have := hP.1.2.2; unfold Boundary.height at h6; linarith⟩, ⟨fun x y hc => hP.2.1.1 x y ((hT.1 x y).2 ⟨q.bounds, ?_, hc⟩), ht.trans hP.2.1.2⟩, ?_⟩
    · simp only [List.mem_cons, List.not_mem_nil, or_false] at hq ⊢
      rcases hq with rfl | rfl | rfl | rfl <;> simp
    · have hw := (C04_geometry_partial _ hv hd).1.1
      rw [h5]; linarith [hP.2.2]

/-- History of the cells of a mesh over a region that does not cross the antimeridian: none of them does. -/
theorem reach_history_noncrossing {ops : DataOps D} {b : Boundary} {W H : ℚ} {initData : Boundary → D} {depth : ℕ}
    (hp : ProperGrid b W H) (hcr : b.longMin < b.longMax) {m : MeshState D} (h : Reach ops b W H initData depth m) {i : ℕ}
    {c : CellBox D} (hl : Live m i c) :
    History ops initData (fun q => ProperBox q ∧ Within q b ∧ q.longMin < q.longMax) c.bounds c.data c.anc ∧
      c.depth = c.anc.length := by
  refine reach_history_gen hp _ ?_ ?_ h hl
  · intro m0 i c h0 hl
    have hok := reach_cells (ops := ops) hp ⟨m0, h0, .refl m0⟩
    refine ⟨hok.proper hp.hpos hl, ⟨fun x y hc => (hok.cover x y).2 ⟨i, c, hl, hc⟩, hok.time i c hl⟩, ?_⟩
    obtain ⟨_, _, _, hval, _⟩ := init_inv h0
    obtain ⟨nx, ny, hnx0, hnx, hny⟩ := hp.fits hval
    have hw := width_of_lt hcr
    obtain ⟨boxes, g, glob, -, hb, -, rfl⟩ := init_inv h0
    rw [initializeCells_eq b hp.valid hp.wpos hp.hpos (by
      have : (1 : ℚ) ≤ nx := by exact_mod_cast hnx0
      have h3 : 1 * W ≤ nx * W := mul_le_mul_of_nonneg_right this hp.wpos.le
      have h4 := hp.valid
      have h5 := h4.2.1
      have h6 := h4.2.2.2.2.1
      linarith) nx ny (by unfold eastEdge; rw [if_pos hcr, ← hnx, hw]) hny] at hb
    cases hb
    obtain ⟨cb, hcb, rfl⟩ := live_init.1 hl
    simp only
    rw [List.getElem?_map] at hcb
    obtain ⟨i', hi', rfl⟩ := Option.map_eq_some_iff.1 hcb
    obtain ⟨hi1, hi2⟩ := List.getElem?_eq_some_iff.1 hi'
    rw [List.getElem_range] at hi2
    subst hi2
    obtain ⟨r, cc, hcc, rfl⟩ := idx_exists hnx0 i
    have hr := rectOf_gridCell (r := r) (H := H) hp.valid hp.wpos (nx := nx) (by
      rw [← hnx, hw]; linarith [hp.valid.2.2.2.2.1]) hcc
    unfold rectOf gridRect at hr
    simp only [Rect.mk.injEq] at hr
    obtain ⟨e1, e2, -, -⟩ := hr
    rw [e1, e2]; linarith [hp.wpos]
  · intro c0 n new hv hd hP hsp q hq
    obtain ⟨nw, ne, sw, se, hnew, -, -, -, -, hT, hall, -⟩ := C14_cell_split_partial ops c0 n hv hd
    obtain ⟨f, hsp', hf⟩ := split_quarters ops c0 n hv hP.2.2
    rw [hsp] at hnew hsp'
    cases hnew
    cases hsp'
    obtain ⟨h1, h2, -, ht, -, h6, -⟩ := hall q hq
    refine ⟨⟨h1, h2, by have := hP.1.2.2; unfold Boundary.height at h6; linarith⟩, ⟨fun x y hc => hP.2.1.1 x y ((hT.1 x y).2 ⟨q.bounds, ?_, hc⟩), ht.trans hP.2.1.2⟩, ?_⟩
    · simp only [List.mem_cons, List.not_mem_nil, or_false] at hq ⊢
      rcases hq with rfl | rfl | rfl | rfl <;> simp
    · obtain ⟨q', rfl⟩ : ∃ q', q = f q' := by
        simp only [List.mem_cons, List.not_mem_nil, or_false] at hq
        rcases hq with rfl | rfl | rfl | rfl
        · exact ⟨.nw, rfl⟩
        · exact ⟨.ne, rfl⟩
        · exact ⟨.sw, rfl⟩
        · exact ⟨.se, rfl⟩
      have hr := hf q'
      have hcr0 := hP.2.2
      unfold rectOf at hr
      cases q' <;> simp only [Rect.quarter, Rect.mk.injEq] at hr <;> obtain ⟨e1, e2, e3, e4⟩ := hr <;> linarith

end Verif
