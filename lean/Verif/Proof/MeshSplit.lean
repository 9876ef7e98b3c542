import Verif.Proof.MeshInit

/-!
# `split_and_replace` succeeds on live cells and keeps the graph exact
-/

namespace Verif
open Spec

variable {D : Type}

/-- The quarters of a cell that does not cross the antimeridian. -/
theorem split_quarters (ops : DataOps D) (c : CellBox D) (start : ℕ) (hv : Valid c.bounds)
    (hcr : c.bounds.longMin < c.bounds.longMax) :
    ∃ f : Spec.Quad → CellBox D, c.split ops start = .ok [f .nw, f .ne, f .sw, f .se] ∧
      ∀ q, rectOf (f q).bounds = (rectOf c.bounds).quarter q := by
  have hw := width_of_lt hcr
  obtain ⟨h1, h2, h3, h4, h5, h6⟩ := hv
  have hm : longitudeDomain (c.bounds.longMin + c.bounds.width / 2) = c.bounds.longMin + c.bounds.width / 2 :=
    (C01_longitude_domain _).2.2.1 (by rw [hw]; linarith) (by rw [hw]; linarith)
  have he : longitudeDomain (c.bounds.longMin + c.bounds.width) = c.bounds.longMin + c.bounds.width :=
    (C01_longitude_domain _).2.2.1 (by rw [hw]; linarith) (by rw [hw]; linarith)
  have mkOk : ∀ a a' x y : ℚ, a ≤ a' → -180 ≤ x → y ≤ 180 →
      Boundary.mk? [a, a'] [x, y] c.bounds.time = .ok ⟨a, a', x, y, c.bounds.time⟩ := by
    intro a a' x y ha hx hy
    exact (C03_construction_table _ _ _ _).2 ⟨_, _, [], _, _, [], rfl, rfl, ha, hx, hy, h6, rfl⟩
  have hh : c.bounds.height = c.bounds.latMax - c.bounds.latMin := rfl
  let mk (q : Boundary) (i : ℕ) : CellBox D := ⟨q, i, c.depth + 1, ops.trim q c.data, (c.bounds, c.data) :: c.anc⟩
  refine ⟨fun q => match q with
    | .nw => mk ⟨c.bounds.latMin + c.bounds.height / 2, c.bounds.latMin + c.bounds.height, c.bounds.longMin,
        c.bounds.longMin + c.bounds.width / 2, c.bounds.time⟩ start
    | .ne => mk ⟨c.bounds.latMin + c.bounds.height / 2, c.bounds.latMin + c.bounds.height,
        c.bounds.longMin + c.bounds.width / 2, c.bounds.longMin + c.bounds.width, c.bounds.time⟩ (start + 1)
    | .sw => mk ⟨c.bounds.latMin, c.bounds.latMin + c.bounds.height / 2, c.bounds.longMin,
        c.bounds.longMin + c.bounds.width / 2, c.bounds.time⟩ (start + 2)
    | .se => mk ⟨c.bounds.latMin, c.bounds.latMin + c.bounds.height / 2,
        c.bounds.longMin + c.bounds.width / 2, c.bounds.longMin + c.bounds.width, c.bounds.time⟩ (start + 3), ?_, ?_⟩
  · unfold CellBox.split CellBox.createSplitted
    simp only [hm, he]
    rw [mkOk _ _ _ _ (by linarith) h2 (by linarith), mkOk _ _ _ _ (by linarith) (by linarith) (by linarith),
      mkOk _ _ _ _ (by linarith) h2 (by linarith), mkOk _ _ _ _ (by linarith) (by linarith) (by linarith)]
    rfl
  · intro q
    cases q <;> simp only [mk, rectOf, Rect.quarter, Rect.mk.injEq, hw, hh] <;> refine ⟨?_, ?_, ?_, ?_⟩ <;> first | trivial | ring

/-- The ids given to the quarters. -/
def childId (n : ℕ) : Spec.Quad → ℕ
  | .nw => n | .ne => n + 1 | .sw => n + 2 | .se => n + 3

theorem childId_inj (n : ℕ) : Function.Injective (childId n) := by
  intro a b h
  cases a <;> cases b <;> simp [childId] at h ⊢

theorem liveRect_some {m : MeshState D} {i : ℕ} {r : Rect} (h : liveRect m i = some r) :
    ∃ c, Live m i c ∧ rectOf c.bounds = r := by
  unfold liveRect at h
  unfold Live
  rcases hc : m.cells[i]? with _ | _ | c
  · rw [hc] at h; cases h
  · rw [hc] at h; cases h
  · rw [hc] at h; cases h; exact ⟨c, rfl, rfl⟩

theorem liveRect_of_live {m : MeshState D} {i : ℕ} {c : CellBox D} (h : Live m i c) : liveRect m i = some (rectOf c.bounds) := by
  unfold Live at h
  unfold liveRect
  rw [h]

/-- The live rectangles after a split. -/
theorem liveRect_after {m : MeshState D} {k : ℕ} {c : CellBox D} (hk : Live m k c) (f : Spec.Quad → CellBox D)
    (hf : ∀ q, rectOf (f q).bounds = (rectOf c.bounds).quarter q) (g : Graph) :
    liveRect { m with cells := (m.cells ++ [some (f .nw), some (f .ne), some (f .sw), some (f .se)]).set k none, graph := g } =
      replaced (liveRect m) k (rectOf c.bounds) (childId m.cells.length) := by
  have hlt := live_lt hk
  funext i
  unfold replaced childId
  simp only
  by_cases h : i = k
  · subst h
    simp only [if_true]
    unfold liveRect
    simp only [List.getElem?_set_self', List.getElem?_append_left hlt]
    rw [hk]; rfl
  · rw [if_neg h]
    have h' : ¬ k = i := fun e => h e.symm
    unfold liveRect
    simp only [List.getElem?_set, h', if_false]
    rcases Nat.lt_or_ge i m.cells.length with hi | hi
    · rw [List.getElem?_append_left hi, if_neg (by omega), if_neg (by omega), if_neg (by omega), if_neg (by omega)]
    · rw [List.getElem?_append_right hi, List.getElem?_eq_none hi]
      obtain ⟨t, rfl⟩ : ∃ t, i = m.cells.length + t := ⟨i - m.cells.length, by omega⟩
      have e : m.cells.length + t - m.cells.length = t := by omega
      rw [e]
      rcases t with _ | _ | _ | _ | t
      · simp [hf]
      · simp [hf]
      · simp [hf]
      · simp [hf]
      · simp

/-- Graph invariant. -/
def GraphOK (glob : Bool) (m : MeshState D) : Prop := m.graph.isGlobal = glob ∧ GraphExact glob m

theorem GraphOK.noncrossing {glob : Bool} {m : MeshState D} (h : GraphOK glob m) {i : ℕ} {c : CellBox D} (hl : Live m i c) :
    c.bounds.longMin < c.bounds.longMax ∧ c.bounds.latMin < c.bounds.latMax :=
  (h.2.ok i _ (liveRect_of_live hl)).1

/-- `split_and_replace` on a live cell succeeds and keeps the graph exact. -/
theorem GraphOK.split {glob : Bool} {b : Boundary} {W H : ℚ} (ops : DataOps D) {m : MeshState D} {k : ℕ} {c : CellBox D}
    (hm : CellsOK b W H m) (hg : GraphOK glob m) (hk : Live m k c) :
    ∃ m', MeshBuilder.splitAndReplace ops m k = .ok m' ∧ GraphOK glob m' := by
  obtain ⟨f, hsp, hf⟩ := split_quarters ops c m.cells.length (hm.valid k c hk).1 (hg.noncrossing hk).1
  have hlt := live_lt hk
  obtain ⟨hgl, hE⟩ := hg
  have bnd_old : ∀ i r, liveRect m i = some r →
      ∃ b, boundsAt (m.cells ++ [some (f .nw), some (f .ne), some (f .sw), some (f .se)]) i = .ok b ∧ rectOf b = r := by
    intro i r hi
    obtain ⟨c', hl, hr⟩ := liveRect_some hi
    refine ⟨c'.bounds, ?_, hr⟩
    unfold boundsAt cellAt
    rw [List.getElem?_append_left (live_lt hl), hl]
    rfl
  have bnd_new : ∀ q, ∃ b, boundsAt (m.cells ++ [some (f .nw), some (f .ne), some (f .sw), some (f .se)]) (childId m.cells.length q) = .ok b ∧
      rectOf b = (rectOf c.bounds).quarter q := by
    intro q
    refine ⟨(f q).bounds, ?_, hf q⟩
    unfold boundsAt cellAt childId
    cases q <;> simp
  have fresh : ∀ q, liveRect m (childId m.cells.length q) = none := by
    intro q
    unfold liveRect
    rw [List.getElem?_eq_none]
    cases q <;> simp [childId]
  obtain ⟨g', e1, e2, e3⟩ := splitGraph_exact glob (liveRect m) m.graph hgl hE k (rectOf c.bounds) (liveRect_of_live hk)
    (childId m.cells.length) fresh (childId_inj _) _ bnd_old bnd_new
  refine ⟨{ m with cells := (m.cells ++ [some (f .nw), some (f .ne), some (f .sw), some (f .se)]).set k none, graph := g' }, ?_, e2, ?_⟩
  · unfold MeshBuilder.splitAndReplace
    simp only [bind, Except.bind, cellAt_ok_iff.2 hk, hsp, List.map_cons, List.map_nil]
    simp only [childId] at e1
    rw [e1]; rfl
  · unfold GraphExact
    rw [liveRect_after hk f hf]
    exact e3

/-- Both invariants hold after any sequence of splits. -/
theorem GraphOK.splits {glob : Bool} {b : Boundary} {W H : ℚ} {ops : DataOps D} {m m' : MeshState D}
    (hm : CellsOK b W H m) (hg : GraphOK glob m) (hs : Splits ops m m') : CellsOK b W H m' ∧ GraphOK glob m' := by
  induction hs with
  | refl => exact ⟨hm, hg⟩
  | step k _ he ih =>
    refine ⟨ih.1.split he, ?_⟩
    obtain ⟨c, _, _, hk, _⟩ := splitAndReplace_inv he
    obtain ⟨m2, h1, h2⟩ := GraphOK.split _ ih.1 ih.2 hk
    rw [he] at h1
    cases h1
    exact h2

end Verif
