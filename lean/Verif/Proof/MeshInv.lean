import Verif.Spec.Mesh
import Verif.Props.CellSplit
import Verif.Props.InitialGrid
import Verif.Proof.InitialExact
import Verif.Proof.SplitExact2

/-!
# Invariants of the mesh builder
-/

namespace Verif
open Spec

variable {D : Type}

/-- Everything about the cells that any sequence of splits keeps, also for crossing regions. -/
structure CellsOK (b : Boundary) (W H : ℚ) (m : MeshState D) : Prop where
  bounds : m.bounds = b
  ids : ∀ i c, Live m i c → c.id = i
  valid : ∀ i c, Live m i c → Valid c.bounds ∧ ¬ (c.bounds.longMin = 180 ∧ c.bounds.longMax = -180)
  time : ∀ i c, Live m i c → c.bounds.time = b.time
  size : ∀ i c, Live m i c → c.bounds.width * 2 ^ c.depth = W ∧ c.bounds.height * 2 ^ c.depth = H
  cover : ∀ x y, HCovers b x y ↔ ∃ i c, Live m i c ∧ HCovers c.bounds x y
  disj : ∀ i j c c' x y, Live m i c → Live m j c' → HCovers c.bounds x y → HCovers c'.bounds x y → i = j
  area : totalArea m = b.width * b.height

theorem live_lt {m : MeshState D} {i : ℕ} {c : CellBox D} (h : Live m i c) : i < m.cells.length := by
  unfold Live at h
  exact (List.getElem?_eq_some_iff.1 h).1

theorem cellAt_ok_iff {m : MeshState D} {i : ℕ} {c : CellBox D} : cellAt m.cells i = .ok c ↔ Live m i c := by
  unfold cellAt Live
  rcases h : m.cells[i]? with _ | _ | c' <;> simp

/-- Taking apart a successful `split_and_replace`. -/
theorem splitAndReplace_inv {ops : DataOps D} {m m' : MeshState D} {k : ℕ} (h : MeshBuilder.splitAndReplace ops m k = .ok m') :
    ∃ c new g, Live m k c ∧ c.split ops m.cells.length = .ok new ∧
      MeshBuilder.splitGraph (boundsAt (m.cells ++ new.map some)) m.graph k m.cells.length (m.cells.length + 1)
        (m.cells.length + 2) (m.cells.length + 3) = .ok g ∧
      m' = { m with cells := (m.cells ++ new.map some).set k none, graph := g } := by
  unfold MeshBuilder.splitAndReplace at h
  simp only [bind, Except.bind, pure, Except.pure] at h
  split at h
  · cases h
  · rename_i c hc
    split at h
    · cases h
    · rename_i new hn
      split at h
      · cases h
      · rename_i g hg
        cases h
        exact ⟨c, new, g, cellAt_ok_iff.1 hc, hn, hg, rfl⟩

/-- What a successful cell split returns, whatever the geometry. -/
theorem split_shape {ops : DataOps D} {c : CellBox D} {n : ℕ} {new : List (CellBox D)} (h : c.split ops n = .ok new) :
    ∃ nw ne sw se : CellBox D, new = [nw, ne, sw, se] ∧ nw.id = n ∧ ne.id = n + 1 ∧ sw.id = n + 2 ∧ se.id = n + 3 ∧
      ∀ q ∈ [nw, ne, sw, se], q.depth = c.depth + 1 ∧ q.data = ops.trim q.bounds c.data ∧ q.anc = (c.bounds, c.data) :: c.anc := by
  unfold CellBox.split at h
  simp only [bind, Except.bind, pure, Except.pure] at h
  split at h
  · cases h
  · rename_i boxes hb
    unfold CellBox.createSplitted at hb
    simp only [bind, Except.bind, pure, Except.pure] at hb
    split at hb
    · cases hb
    · split at hb
      · cases hb
      · split at hb
        · cases hb
        · split at hb
          · cases hb
          · cases hb
            cases h
            refine ⟨_, _, _, _, rfl, rfl, rfl, rfl, rfl, ?_⟩
            intro q hq
            simp only [List.mem_cons, List.not_mem_nil, or_false] at hq
            rcases hq with rfl | rfl | rfl | rfl <;> exact ⟨rfl, rfl, rfl⟩

/-- The live cells after a split. -/
theorem live_after {m : MeshState D} {k : ℕ} {c : CellBox D} (hk : Live m k c) (nw ne sw se : CellBox D) (g : Graph) (i : ℕ)
    (q : CellBox D) :
    Live { m with cells := (m.cells ++ [some nw, some ne, some sw, some se]).set k none, graph := g } i q ↔
      (i ≠ k ∧ Live m i q) ∨ (i = m.cells.length ∧ q = nw) ∨ (i = m.cells.length + 1 ∧ q = ne) ∨
      (i = m.cells.length + 2 ∧ q = sw) ∨ (i = m.cells.length + 3 ∧ q = se) := by
  have hlt := live_lt hk
  unfold Live at *
  simp only
  rw [List.getElem?_set]
  by_cases h : k = i
  · subst h
    simp only [if_true, ne_eq, not_true, false_and, false_or]
    have : k < (m.cells ++ [some nw, some ne, some sw, some se]).length := by simp; omega
    simp only [this, if_true]
    constructor
    · intro h; cases h
    · intro h; omega
  · have h' : i ≠ k := fun e => h e.symm
    simp only [h, if_false, h', ne_eq, not_false_eq_true, true_and]
    rcases Nat.lt_or_ge i m.cells.length with hi | hi
    · rw [List.getElem?_append_left hi]
      constructor
      · intro h; exact Or.inl h
      · intro h
        rcases h with h | h | h | h | h
        · exact h
        all_goals omega
    · rw [List.getElem?_append_right hi]
      have hnone : m.cells[i]? = none := List.getElem?_eq_none hi
      rw [hnone]
      obtain ⟨t, rfl⟩ : ∃ t, i = m.cells.length + t := ⟨i - m.cells.length, by omega⟩
      have e : m.cells.length + t - m.cells.length = t := by omega
      rw [e]
      rcases t with _ | _ | _ | _ | t
      · simp [eq_comm]
      · simp [eq_comm]
      · simp [eq_comm]
      · simp [eq_comm]
      · simp

theorem sum_set_none {α : Type} (f : Option α → ℚ) (hf : f none = 0) (l : List (Option α)) (k : ℕ) (c : α)
    (h : l[k]? = some (some c)) : ((l.set k none).map f).sum = (l.map f).sum - f (some c) := by
  induction l generalizing k with
  | nil => simp at h
  | cons a l ih =>
    cases k with
    | zero => simp at h; subst h; simp [hf]
    | succ k =>
      simp at h
      simp only [List.set_cons_succ, List.map_cons, List.sum_cons]
      rw [ih k h]; ring

/-- Splitting keeps the cell invariant. -/
theorem CellsOK.split {b : Boundary} {W H : ℚ} {ops : DataOps D} {m m' : MeshState D} {k : ℕ} (hm : CellsOK b W H m)
    (h : MeshBuilder.splitAndReplace ops m k = .ok m') : CellsOK b W H m' := by
  obtain ⟨c, new, g, hk, hs, -, rfl⟩ := splitAndReplace_inv h
  obtain ⟨hv, hd⟩ := hm.valid k c hk
  obtain ⟨nw, ne, sw, se, hsp, i1, i2, i3, i4, hT, hq, -⟩ := C14_cell_split_partial ops c m.cells.length hv hd
  rw [hsp] at hs
  cases hs
  simp only [List.map_cons, List.map_nil]
  have L := live_after hk nw ne sw se g
  simp only [List.mem_cons, List.not_mem_nil, or_false, forall_eq_or_imp, forall_eq] at hq
  obtain ⟨⟨v1, d1, p1, t1, w1, h1, -⟩, ⟨v2, d2, p2, t2, w2, h2, -⟩, ⟨v3, d3, p3, t3, w3, h3, -⟩,
    ⟨v4, d4, p4, t4, w4, h4, -⟩⟩ := hq
  obtain ⟨hT1, hT2⟩ := hT
  simp only [List.mem_cons, List.not_mem_nil, or_false, exists_eq_or_imp, exists_eq_left] at hT1
  simp only [List.pairwise_cons, List.mem_cons, List.not_mem_nil, or_false, forall_eq_or_imp, forall_eq,
    false_implies, implies_true, List.Pairwise.nil, and_true] at hT2
  have htime := hm.time k c hk
  have hsize := hm.size k c hk
  have hlt := live_lt hk
  constructor
  · exact hm.bounds
  · intro i q hi
    rcases (L i q).1 hi with ⟨-, hl⟩ | ⟨rfl, rfl⟩ | ⟨rfl, rfl⟩ | ⟨rfl, rfl⟩ | ⟨rfl, rfl⟩
    · exact hm.ids i q hl
    · exact i1
    · exact i2
    · exact i3
    · exact i4
  · intro i q hi
    rcases (L i q).1 hi with ⟨-, hl⟩ | ⟨rfl, rfl⟩ | ⟨rfl, rfl⟩ | ⟨rfl, rfl⟩ | ⟨rfl, rfl⟩
    · exact hm.valid i q hl
    · exact ⟨v1, d1⟩
    · exact ⟨v2, d2⟩
    · exact ⟨v3, d3⟩
    · exact ⟨v4, d4⟩
  · intro i q hi
    rcases (L i q).1 hi with ⟨-, hl⟩ | ⟨rfl, rfl⟩ | ⟨rfl, rfl⟩ | ⟨rfl, rfl⟩ | ⟨rfl, rfl⟩
    · exact hm.time i q hl
    · exact t1.trans htime
    · exact t2.trans htime
    · exact t3.trans htime
    · exact t4.trans htime
  · have key : ∀ q : CellBox D, q.depth = c.depth + 1 → q.bounds.width = c.bounds.width / 2 →
        q.bounds.height = c.bounds.height / 2 → q.bounds.width * 2 ^ q.depth = W ∧ q.bounds.height * 2 ^ q.depth = H := by
      intro q hp hw hh
      rw [hp, hw, hh, ← hsize.1, ← hsize.2, pow_succ]
      constructor <;> ring
    intro i q hi
    rcases (L i q).1 hi with ⟨-, hl⟩ | ⟨rfl, rfl⟩ | ⟨rfl, rfl⟩ | ⟨rfl, rfl⟩ | ⟨rfl, rfl⟩
    · exact hm.size i q hl
    · exact key _ p1 w1 h1
    · exact key _ p2 w2 h2
    · exact key _ p3 w3 h3
    · exact key _ p4 w4 h4
  · intro x y
    rw [hm.cover x y]
    constructor
    · rintro ⟨i, q, hl, hc⟩
      by_cases hik : i = k
      · subst hik
        have hqc : q = c := by
          unfold Live at hl hk; rw [hk] at hl; simpa using hl.symm
        subst hqc
        rcases (hT1 x y).1 hc with hc | hc | hc | hc
        · exact ⟨_, nw, (L _ _).2 (Or.inr (Or.inl ⟨rfl, rfl⟩)), hc⟩
        · exact ⟨_, ne, (L _ _).2 (Or.inr (Or.inr (Or.inl ⟨rfl, rfl⟩))), hc⟩
        · exact ⟨_, sw, (L _ _).2 (Or.inr (Or.inr (Or.inr (Or.inl ⟨rfl, rfl⟩)))), hc⟩
        · exact ⟨_, se, (L _ _).2 (Or.inr (Or.inr (Or.inr (Or.inr ⟨rfl, rfl⟩)))), hc⟩
      · exact ⟨i, q, (L i q).2 (Or.inl ⟨hik, hl⟩), hc⟩
    · rintro ⟨i, q, hl, hc⟩
      rcases (L i q).1 hl with ⟨-, hl⟩ | ⟨rfl, rfl⟩ | ⟨rfl, rfl⟩ | ⟨rfl, rfl⟩ | ⟨rfl, rfl⟩
      · exact ⟨i, q, hl, hc⟩
      · exact ⟨k, c, hk, (hT1 x y).2 (Or.inl hc)⟩
      · exact ⟨k, c, hk, (hT1 x y).2 (Or.inr (Or.inl hc))⟩
      · exact ⟨k, c, hk, (hT1 x y).2 (Or.inr (Or.inr (Or.inl hc)))⟩
      · exact ⟨k, c, hk, (hT1 x y).2 (Or.inr (Or.inr (Or.inr hc)))⟩
  · intro i j q q' x y hi hj hc hc'
    have old : ∀ p r, p ≠ k → Live m p r → HCovers r.bounds x y → HCovers c.bounds x y → False := by
      intro p r hp hl h1 h2
      exact hp (hm.disj p k r c x y hl hk h1 h2)
    obtain ⟨⟨a12, a13, a14⟩, ⟨a23, a24⟩, a34⟩ := hT2
    have sub := (hT1 x y).2
    have newsub : ∀ p (r : CellBox D), (p = m.cells.length ∧ r = nw) ∨ (p = m.cells.length + 1 ∧ r = ne) ∨
      (p = m.cells.length + 2 ∧ r = sw) ∨ (p = m.cells.length + 3 ∧ r = se) → HCovers r.bounds x y →
        HCovers c.bounds x y := by
      rintro p r (⟨-, rfl⟩ | ⟨-, rfl⟩ | ⟨-, rfl⟩ | ⟨-, rfl⟩) h
      · exact sub (Or.inl h)
      · exact sub (Or.inr (Or.inl h))
      · exact sub (Or.inr (Or.inr (Or.inl h)))
      · exact sub (Or.inr (Or.inr (Or.inr h)))
    rcases (L i q).1 hi with ⟨hik, hl⟩ | hin
    · rcases (L j q').1 hj with ⟨hjk, hl'⟩ | hjn
      · exact hm.disj i j q q' x y hl hl' hc hc'
      · exact (old i q hik hl hc (newsub j q' hjn hc')).elim
    · rcases (L j q').1 hj with ⟨hjk, hl'⟩ | hjn
      · exact (old j q' hjk hl' hc' (newsub i q hin hc)).elim
      · rcases hin with ⟨e, e'⟩ | ⟨e, e'⟩ | ⟨e, e'⟩ | ⟨e, e'⟩ <;> rw [e'] at hc <;> clear e' <;>
        rcases hjn with ⟨f, f'⟩ | ⟨f, f'⟩ | ⟨f, f'⟩ | ⟨f, f'⟩ <;> rw [f'] at hc' <;> clear f'
        · exact e.trans f.symm
        · exact (a12 x y ⟨hc, hc'⟩).elim
        · exact (a13 x y ⟨hc, hc'⟩).elim
        · exact (a14 x y ⟨hc, hc'⟩).elim
        · exact (a12 x y ⟨hc', hc⟩).elim
        · exact e.trans f.symm
        · exact (a23 x y ⟨hc, hc'⟩).elim
        · exact (a24 x y ⟨hc, hc'⟩).elim
        · exact (a13 x y ⟨hc', hc⟩).elim
        · exact (a23 x y ⟨hc', hc⟩).elim
        · exact e.trans f.symm
        · exact (a34 x y ⟨hc, hc'⟩).elim
        · exact (a14 x y ⟨hc', hc⟩).elim
        · exact (a24 x y ⟨hc', hc⟩).elim
        · exact (a34 x y ⟨hc', hc⟩).elim
        · exact e.trans f.symm
  · have hA := hm.area
    unfold totalArea at hA ⊢
    simp only
    have hk' : (m.cells ++ [some nw, some ne, some sw, some se])[k]? = some (some c) := by
      rw [List.getElem?_append_left hlt]; exact hk
    rw [sum_set_none _ rfl _ k c hk', List.map_append, List.sum_append, hA]
    simp only [List.map_cons, List.map_nil, List.sum_cons, List.sum_nil, cellArea, w1, w2, w3, w4, h1, h2, h3, h4]
    ring

end Verif
