import Verif.Proof.GraphOps
import Verif.Proof.Quarters

/-!
# `split_and_replace` keeps the neighbour graph exact (graph level)
-/

namespace Verif
open Spec Classical

/-- 1 if the proposition holds, 0 otherwise. -/
noncomputable def ind (p : Prop) : ℕ := if p then 1 else 0

/-- Exactness in terms of multiplicities. -/
theorem Exact.count {g : Bool} {cell : ℕ → Option Rect} {nbrs : ℕ → Option NMap} (h : Exact g cell nbrs)
    {i : ℕ} {m : NMap} {a : Rect} (hm : nbrs i = some m) (ha : cell i = some a) (d : Dir) (x : ℕ) :
    (m d).count x = ind (∃ b, cell x = some b ∧ Adj g d a b) := by
  rw [(h.nodup i m d hm).count, ← h.mem i m d x a hm ha]
  unfold ind
  by_cases hx : x ∈ m d <;> simp [hx]

theorem nodup_mem_of_count {l : List ℕ} {P : ℕ → Prop} (h : ∀ x, l.count x = ind (P x)) :
    l.Nodup ∧ ∀ x, x ∈ l ↔ P x := by
  constructor
  · rw [List.nodup_iff_count]
    intro x; rw [h x]; unfold ind; split <;> omega
  · intro x
    rw [← List.count_pos_iff, h x]
    unfold ind
    by_cases hp : P x <;> simp [hp]

/-- Append `n` in the direction of the case, if any. -/
def addC (c : Option Dir) (n : ℕ) (m : NMap) : NMap :=
  match c with
  | some e => m.append e n
  | none => m

theorem count_addC (c : Option Dir) (n : ℕ) (m : NMap) (e : Dir) (x : ℕ) :
    ((addC c n m) e).count x = (m e).count x + ind (c = some e ∧ x = n) := by
  unfold addC ind
  cases c with
  | none => simp
  | some d =>
    simp only [NMap.append_apply, Option.some.injEq]
    by_cases he : e = d
    · subst he
      simp only [if_true, List.count_append, List.count_singleton, true_and]
      by_cases hx : x = n
      · subst hx; simp
      · have : ¬ n = x := fun h => hx h.symm
        simp [hx, this]
    · have : ¬ d = e := fun h => he h.symm
      simp [he, this]

/-- The effect of `update_neighbours` in direction `d` on one old neighbour. -/
def updEdge (k n0 n1 : ℕ) (d : Dir) (c0 c1 : Option Dir) (m : NMap) : NMap :=
  addC c1 n1 (addC c0 n0 (m.set d.opp ((m d.opp).erase k)))

theorem count_updEdge (k n0 n1 : ℕ) (d : Dir) (c0 c1 : Option Dir) (m : NMap) (e : Dir) (x : ℕ) :
    ((updEdge k n0 n1 d c0 c1 m) e).count x =
      (m e).count x - ind (e = d.opp ∧ x = k) + ind (c0 = some e ∧ x = n0) + ind (c1 = some e ∧ x = n1) := by
  unfold updEdge
  rw [count_addC, count_addC]
  congr 2
  simp only [NMap.set_apply, ind]
  by_cases he : e = d.opp
  · subst he
    simp only [if_true, true_and]
    by_cases hx : x = k
    · subst hx; simp [List.count_erase_self]
    · simp [hx, List.count_erase_of_ne hx]
  · simp [he]

theorem caseAt_ok {glob : Bool} {bnd : ℕ → Py Boundary} {i j : ℕ} {a b : Boundary}
    (ha : bnd i = .ok a) (hb : bnd j = .ok b) :
    Graph.caseAt glob bnd i j = .ok (Graph.neighbourCase glob a b) := by
  simp [Graph.caseAt, ha, hb, bind, Except.bind, pure, Except.pure]

theorem appendCase_ok {glob : Bool} {bnd : ℕ → Py Boundary} {g : Graph} {i n : ℕ} {m : NMap} {c : Option Dir}
    (hg : g.isGlobal = glob) (hm : g.look i = some m) (hc : Graph.caseAt glob bnd i n = .ok c) :
    ∃ g', Graph.appendCase bnd g i n = .ok g' ∧ Graph.SetAt g g' i (addC c n m) := by
  unfold Graph.appendCase
  rw [hg, hc]
  cases c with
  | none =>
    refine ⟨g, rfl, rfl, ?_⟩
    intro j
    by_cases hj : j = i
    · subst hj; simp [addC, hm]
    · simp [hj]
  | some e => exact Graph.addNeighbour_ok hm e n

/-- `update_neighbours`, pointwise. -/
theorem updateNeighbours_ok {glob : Bool} {bnd : ℕ → Py Boundary} {g : Graph} {k n0 n1 : ℕ} {d : Dir} {mk : NMap}
    {cf : ℕ → ℕ → Option Dir}
    (hg : g.isGlobal = glob) (hk : g.look k = some mk) (hnd : (mk d).Nodup) (hself : k ∉ mk d)
    (hnb : ∀ i ∈ mk d, ∃ m, g.look i = some m ∧ k ∈ m d.opp)
    (hc : ∀ i ∈ mk d, Graph.caseAt glob bnd i n0 = .ok (cf i n0) ∧ Graph.caseAt glob bnd i n1 = .ok (cf i n1)) :
    ∃ g', Graph.updateNeighbours bnd g k n0 n1 d = .ok g' ∧ g'.isGlobal = glob ∧
      ∀ j, g'.look j = if j ∈ mk d then (g.look j).map (updEdge k n0 n1 d (cf j n0) (cf j n1)) else g.look j := by
  obtain ⟨g1, h1, hg1, hl1⟩ := Graph.foldlM_pointwise glob (fun _ m => k ∈ m d.opp)
    (fun g idx => g.removeNeighbour idx d.opp k) (fun _ m => m.set d.opp ((m d.opp).erase k)) (mk d)
    (fun g i m _ _ hm hp => Graph.removeNeighbour_ok hm d.opp k hp) hnd g hg hnb
  have hk1 : g1.look k = some mk := by rw [hl1, if_neg hself, hk]
  obtain ⟨g2, h2, hg2, hl2⟩ := Graph.foldlM_pointwise glob (fun _ _ => True)
    (fun g idx => do
      let g ← Graph.appendCase bnd g idx n0
      Graph.appendCase bnd g idx n1) (fun i m => addC (cf i n1) n1 (addC (cf i n0) n0 m)) (mk d)
    (by
      intro g i m hi hg hm _
      obtain ⟨ga, ha, hga, hla⟩ := appendCase_ok hg hm (hc i hi).1
      have hm' : ga.look i = some (addC (cf i n0) n0 m) := by rw [hla]; simp
      obtain ⟨gb, hb, hgb, hlb⟩ := appendCase_ok (hga.trans hg) hm' (hc i hi).2
      refine ⟨gb, ?_, hgb.trans hga, ?_⟩
      · simp [ha, bind, Except.bind, hb]
      · intro j
        rw [hlb, hla]
        by_cases hj : j = i <;> simp [hj]) hnd g1 hg1
    (by
      intro i hi
      obtain ⟨m, hm, -⟩ := hnb i hi
      exact ⟨_, by rw [hl1, if_pos hi, hm]; rfl, trivial⟩)
  refine ⟨g2, ?_, hg2, ?_⟩
  · unfold Graph.updateNeighbours Graph.removeNodeFromNeighbours
    rw [Graph.getNeighbours_ok hk]
    simp only [bind, Except.bind] at h1 ⊢
    rw [h1]
    simp only
    rw [Graph.getNeighbours_ok hk1]
    exact h2
  · intro j
    rw [hl2, hl1]
    by_cases hj : j ∈ mk d
    · simp only [hj, if_true, Option.map_map]; rfl
    · simp [hj]

/-- One corner update, pointwise. -/
theorem updateCorner_ok {glob : Bool} {g : Graph} {k n : ℕ} {d : Dir} {mk : NMap}
    (hg : g.isGlobal = glob) (hk : g.look k = some mk) (huniq : ∀ i ∈ mk d, ∀ j ∈ mk d, i = j)
    (hnb : ∀ i ∈ mk d, ∃ m, g.look i = some m) :
    ∃ g', Graph.updateCorner g k d n = .ok g' ∧ g'.isGlobal = glob ∧
      ∀ j, g'.look j = if j ∈ mk d then (g.look j).map (fun m => m.set d.opp [n]) else g.look j := by
  unfold Graph.updateCorner
  rw [Graph.getNeighbours_ok hk]
  simp only [bind, Except.bind]
  cases hl : mk d with
  | nil => exact ⟨g, rfl, hg, by simp⟩
  | cons i l =>
    have hi : i ∈ mk d := by rw [hl]; simp
    obtain ⟨m, hm⟩ := hnb i hi
    obtain ⟨g', h', hgl, hlook⟩ := Graph.updateNeighbour_ok hm d.opp [n]
    refine ⟨g', h', hgl.trans hg, ?_⟩
    intro j
    rw [hlook]
    by_cases hj : j = i
    · subst hj; simp [hm]
    · have : j ∉ i :: l := by
        rw [← hl]; intro hjm; exact hj (huniq j hjm i hi)
      rw [if_neg hj, if_neg this]

/-- `fill_*_map`, in multiplicities. -/
theorem fillStep_fold {glob : Bool} {bnd : ℕ → Py Boundary} {new : ℕ} {d1 d2 : Dir} (h12 : d1 ≠ d2)
    {cf : ℕ → Option Dir} (l : List ℕ) (hc : ∀ i ∈ l, Graph.caseAt glob bnd new i = .ok (cf i)) (m : NMap) :
    ∃ m', l.foldlM (MeshBuilder.fillStep glob bnd new d1 d2) m = .ok m' ∧
      ∀ e x, (m' e).count x = (m e).count x +
        (if e = d1 ∨ e = d2 then (l.filter (fun i => cf i = some e)).count x else 0) := by
  induction l generalizing m with
  | nil => exact ⟨m, rfl, by simp⟩
  | cons a l ih =>
    have ha := hc a (by simp)
    obtain ⟨m', h', hcnt⟩ := ih (fun i hi => hc i (by simp [hi]))
      (if cf a = some d2 then (if cf a = some d1 then m.append d1 a else m).append d2 a
        else (if cf a = some d1 then m.append d1 a else m))
    refine ⟨m', ?_, ?_⟩
    · rw [List.foldlM_cons]
      simp only [MeshBuilder.fillStep, ha, bind, Except.bind, pure, Except.pure]
      simpa [MeshBuilder.fillStep, bind, Except.bind, pure, Except.pure] using h'
    · intro e x
      rw [hcnt e x]
      by_cases h1 : cf a = some d1
      · have h2 : ¬ cf a = some d2 := by rw [h1]; simpa using h12
        simp only [h1, if_true, Option.some.injEq, h12, if_false, NMap.append_apply]
        by_cases he : e = d1
        · subst he
          simp [h1, List.count_append, List.count_cons]
          omega
        · have : ¬ d1 = e := fun h => he h.symm
          simp [he, h1, this]
      · by_cases h2 : cf a = some d2
        · have h21 : ¬ d2 = d1 := fun h => h12 h.symm
          simp only [h2, if_true, Option.some.injEq, h21, if_false, NMap.append_apply]
          by_cases he : e = d2
          · subst he
            simp [h2, List.count_append, List.count_cons]
            omega
          · have : ¬ d2 = e := fun h => he h.symm
            simp [he, h2, this]
        · simp only [h1, h2, if_false]
          by_cases he : e = d1
          · subst he; simp [h1]
          · by_cases he2 : e = d2
            · subst he2; simp [h2]
            · simp [he, he2]

theorem fillMap_ok {glob : Bool} {bnd : ℕ → Py Boundary} {new : ℕ} {d1 d2 d3 d4 : Dir} (h12 : d1 ≠ d2) (h34 : d3 ≠ d4)
    {cf : ℕ → Option Dir} (l1 l2 : List ℕ) (hc1 : ∀ i ∈ l1, Graph.caseAt glob bnd new i = .ok (cf i))
    (hc2 : ∀ i ∈ l2, Graph.caseAt glob bnd new i = .ok (cf i)) (m : NMap) :
    ∃ m', MeshBuilder.fillMap glob bnd new l1 d1 d2 l2 d3 d4 m = .ok m' ∧
      ∀ e x, (m' e).count x = (m e).count x +
        (if e = d1 ∨ e = d2 then (l1.filter (fun i => cf i = some e)).count x else 0) +
        (if e = d3 ∨ e = d4 then (l2.filter (fun i => cf i = some e)).count x else 0) := by
  obtain ⟨m1, h1, hc1⟩ := fillStep_fold h12 l1 hc1 m
  obtain ⟨m2, h2, hc2⟩ := fillStep_fold h34 l2 hc2 m1
  refine ⟨m2, ?_, ?_⟩
  · unfold MeshBuilder.fillMap
    rw [h1]; exact h2
  · intro e x; rw [hc2, hc1]


theorem not_adj_self {g : Bool} {K : Rect} (hK : CellOK g K) (d : Dir) : ¬ Adj g d K K := by
  obtain ⟨⟨k1, k2⟩, K0, K1, K2⟩ := hK
  rintro ⟨t, ht, h⟩
  cases g with
  | false =>
    simp only [turns, Bool.false_eq_true, if_false, List.mem_singleton] at ht
    subst ht
    revert h
    cases d <;> simp only [Touches, sideRel, hSide, vSide, Rect.shift] <;> grind
  | true =>
    have K3 := K2 rfl
    simp only [turns, if_true, List.mem_cons, List.not_mem_nil, or_false] at ht
    revert h
    cases d <;> simp only [Touches, sideRel, hSide, vSide, Rect.shift] <;> grind

/-- The first child handed to `update_neighbours` in direction `d`. -/
def nbA (ch : Spec.Quad → ℕ) : Dir → ℕ
  | .north => ch .nw | .east => ch .ne | .south => ch .sw | _ => ch .nw

/-- The second child handed to `update_neighbours` in direction `d`. -/
def nbB (ch : Spec.Quad → ℕ) : Dir → ℕ
  | .north => ch .ne | .east => ch .se | .south => ch .se | _ => ch .sw

/-- Effect of `update_neighbours` on cell `j`. -/
noncomputable def stepU (k : ℕ) (ch : Spec.Quad → ℕ) (L : NMap) (cf : ℕ → ℕ → Option Dir) (d : Dir) (j : ℕ) (m : NMap) : NMap :=
  if j ∈ L d then updEdge k (nbA ch d) (nbB ch d) d (cf j (nbA ch d)) (cf j (nbB ch d)) m else m

/-- Effect of one corner update on cell `j`. -/
noncomputable def stepV (ch : Spec.Quad → ℕ) (L : NMap) (q : Spec.Quad) (j : ℕ) (m : NMap) : NMap :=
  if j ∈ L (Quad.corner q) then m.set (Quad.corner q).opp [ch q] else m

/-- Effect of all updates on cell `j`. -/
noncomputable def stepAll (k : ℕ) (ch : Spec.Quad → ℕ) (L : NMap) (cf : ℕ → ℕ → Option Dir) (j : ℕ) (m : NMap) : NMap :=
  stepV ch L .sw j (stepV ch L .se j (stepV ch L .nw j (stepV ch L .ne j
    (stepU k ch L cf .west j (stepU k ch L cf .south j (stepU k ch L cf .east j (stepU k ch L cf .north j m)))))))

theorem count_stepU (k : ℕ) (ch : Spec.Quad → ℕ) (L : NMap) (cf : ℕ → ℕ → Option Dir) (d : Dir) (j : ℕ) (m : NMap) (e : Dir) (x : ℕ) :
    (stepU k ch L cf d j m e).count x =
      (m e).count x - ind (j ∈ L d ∧ e = d.opp ∧ x = k) + ind (j ∈ L d ∧ cf j (nbA ch d) = some e ∧ x = nbA ch d)
        + ind (j ∈ L d ∧ cf j (nbB ch d) = some e ∧ x = nbB ch d) := by
  unfold stepU
  split
  · rename_i h; simp only [h, true_and]; rw [count_updEdge]
  · rename_i h; simp [h, ind]

theorem count_stepV (ch : Spec.Quad → ℕ) (L : NMap) (q : Spec.Quad) (j : ℕ) (m : NMap) (e : Dir) (x : ℕ) :
    (stepV ch L q j m e).count x =
      if j ∈ L (Quad.corner q) ∧ e = (Quad.corner q).opp then ind (x = ch q) else (m e).count x := by
  unfold stepV
  by_cases h : j ∈ L (Quad.corner q)
  · simp only [h, if_true, NMap.set_apply, true_and]
    by_cases he : e = (Quad.corner q).opp
    · simp only [he, if_true, List.count_singleton, ind]
      by_cases hx : x = ch q
      · subst hx; simp
      · have : ¬ ch q = x := fun h => hx h.symm
        simp [hx, this]
    · simp [he]
  · simp [h]

/-- `update_neighbours` on `k`, as a `stepU`. -/
theorem updU {glob : Bool} {bnd : ℕ → Py Boundary} {g : Graph} {k : ℕ} {ch : Spec.Quad → ℕ} {d : Dir} {L : NMap}
    {cf : ℕ → ℕ → Option Dir}
    (hg : g.isGlobal = glob) (hk : g.look k = some L) (hnd : (L d).Nodup) (hself : ∀ d, k ∉ L d)
    (hnb : ∀ i ∈ L d, ∃ m, g.look i = some m ∧ k ∈ m d.opp)
    (hc : ∀ i ∈ L d, ∀ q, Graph.caseAt glob bnd i (ch q) = .ok (cf i (ch q))) :
    ∃ g', Graph.updateNeighbours bnd g k (nbA ch d) (nbB ch d) d = .ok g' ∧ g'.isGlobal = glob ∧ g'.look k = some L ∧
      ∀ j, g'.look j = (g.look j).map (stepU k ch L cf d j) := by
  have hA : ∀ d, ∃ q, nbA ch d = ch q := by
    intro d; cases d <;> exact ⟨_, rfl⟩
  have hB : ∀ d, ∃ q, nbB ch d = ch q := by
    intro d; cases d <;> exact ⟨_, rfl⟩
  obtain ⟨g', h1, h2, h3⟩ := updateNeighbours_ok (n0 := nbA ch d) (n1 := nbB ch d) (cf := cf) hg hk hnd (hself d) hnb
    (fun i hi => by
      obtain ⟨q, hq⟩ := hA d
      obtain ⟨q', hq'⟩ := hB d
      rw [hq, hq']; exact ⟨hc i hi q, hc i hi q'⟩)
  refine ⟨g', h1, h2, by rw [h3, if_neg (hself d), hk], ?_⟩
  intro j
  rw [h3]
  unfold stepU
  by_cases hj : j ∈ L d <;> simp [hj]

theorem updV {glob : Bool} {g : Graph} {k : ℕ} {ch : Spec.Quad → ℕ} {q : Spec.Quad} {L : NMap}
    (hg : g.isGlobal = glob) (hk : g.look k = some L) (hself : ∀ d, k ∉ L d)
    (huniq : ∀ i ∈ L (Quad.corner q), ∀ j ∈ L (Quad.corner q), i = j)
    (hnb : ∀ i ∈ L (Quad.corner q), ∃ m, g.look i = some m) :
    ∃ g', Graph.updateCorner g k (Quad.corner q) (ch q) = .ok g' ∧ g'.isGlobal = glob ∧ g'.look k = some L ∧
      ∀ j, g'.look j = (g.look j).map (stepV ch L q j) := by
  obtain ⟨g', h1, h2, h3⟩ := updateCorner_ok (n := ch q) hg hk huniq hnb
  refine ⟨g', h1, h2, by rw [h3, if_neg (hself _), hk], ?_⟩
  intro j
  rw [h3]
  unfold stepV
  by_cases hj : j ∈ L (Quad.corner q) <;> simp [hj]

/-- The eight updates of `split_and_replace` and the removal of `k`, pointwise. -/
theorem updates_ok {glob : Bool} {bnd : ℕ → Py Boundary} {g : Graph} {k : ℕ} {ch : Spec.Quad → ℕ} {L : NMap}
    {cf : ℕ → ℕ → Option Dir}
    (hg : g.isGlobal = glob) (hk : g.look k = some L) (hnd : ∀ d, (L d).Nodup) (hself : ∀ d, k ∉ L d)
    (hnb : ∀ d, ∀ i ∈ L d, ∃ m, g.look i = some m ∧ k ∈ m d.opp)
    (hkc : ∀ q, k ≠ ch q)
    (huniq : ∀ q, ∀ i ∈ L (Quad.corner q), ∀ j ∈ L (Quad.corner q), i = j)
    (hc : ∀ d, ∀ i ∈ L d, ∀ q, Graph.caseAt glob bnd i (ch q) = .ok (cf i (ch q))) :
    ∃ g', (do
      let g ← g.updateNeighbours bnd k (ch .nw) (ch .ne) .north
      let g ← g.updateNeighbours bnd k (ch .ne) (ch .se) .east
      let g ← g.updateNeighbours bnd k (ch .sw) (ch .se) .south
      let g ← g.updateNeighbours bnd k (ch .nw) (ch .sw) .west
      let g ← g.updateCornerNeighbours k (ch .nw) (ch .ne) (ch .sw) (ch .se)
      g.removeNode k : Py Graph) = .ok g' ∧ g'.isGlobal = glob ∧
      ∀ j, g'.look j = if j = k then none else (g.look j).map (stepAll k ch L cf j) := by
  have hA : ∀ d, nbA ch d ≠ k := by intro d; cases d <;> exact (hkc _).symm
  have hB : ∀ d, nbB ch d ≠ k := by intro d; cases d <;> exact (hkc _).symm
  -- membership of `k` survives the updates of other directions
  have keep : ∀ (d e : Dir) (j : ℕ) (m : NMap), e ≠ d.opp → (k ∈ stepU k ch L cf d j m e ↔ k ∈ m e) := by
    intro d e j m he
    rw [← List.count_pos_iff, ← List.count_pos_iff, count_stepU]
    have h1 : ¬ k = nbA ch d := (hA d).symm
    have h2 : ¬ k = nbB ch d := (hB d).symm
    simp [ind, he, h1, h2]
  obtain ⟨g1, e1, i1, k1, l1⟩ := updU (d := .north) (cf := cf) hg hk (hnd _) hself (hnb _) (hc _)
  obtain ⟨g2, e2, i2, k2, l2⟩ := updU (d := .east) (cf := cf) i1 k1 (hnd _) hself
    (by
      intro i hi
      obtain ⟨m, hm, hkm⟩ := hnb _ i hi
      exact ⟨_, by rw [l1, hm]; rfl, by rw [keep _ _ _ _ (by decide)]; exact hkm⟩) (hc _)
  obtain ⟨g3, e3, i3, k3, l3⟩ := updU (d := .south) (cf := cf) i2 k2 (hnd _) hself
    (by
      intro i hi
      obtain ⟨m, hm, hkm⟩ := hnb _ i hi
      exact ⟨_, by rw [l2, l1, hm]; rfl, by rw [keep _ _ _ _ (by decide), keep _ _ _ _ (by decide)]; exact hkm⟩) (hc _)
  obtain ⟨g4, e4, i4, k4, l4⟩ := updU (d := .west) (cf := cf) i3 k3 (hnd _) hself
    (by
      intro i hi
      obtain ⟨m, hm, hkm⟩ := hnb _ i hi
      exact ⟨_, by rw [l3, l2, l1, hm]; rfl, by
        rw [keep _ _ _ _ (by decide), keep _ _ _ _ (by decide), keep _ _ _ _ (by decide)]; exact hkm⟩) (hc _)
  have nb4 : ∀ d, ∀ i ∈ L d, ∃ m, g4.look i = some m := by
    intro d i hi
    obtain ⟨m, hm, -⟩ := hnb d i hi
    exact ⟨_, by rw [l4, l3, l2, l1, hm]; rfl⟩
  obtain ⟨g5, e5, i5, k5, l5⟩ := updV (q := .ne) (ch := ch) i4 k4 hself (huniq _) (nb4 _)
  have nb5 : ∀ d, ∀ i ∈ L d, ∃ m, g5.look i = some m := by
    intro d i hi
    obtain ⟨m, hm⟩ := nb4 d i hi
    exact ⟨_, by rw [l5, hm]; rfl⟩
  obtain ⟨g6, e6, i6, k6, l6⟩ := updV (q := .nw) (ch := ch) i5 k5 hself (huniq _) (nb5 _)
  have nb6 : ∀ d, ∀ i ∈ L d, ∃ m, g6.look i = some m := by
    intro d i hi
    obtain ⟨m, hm⟩ := nb5 d i hi
    exact ⟨_, by rw [l6, hm]; rfl⟩
  obtain ⟨g7, e7, i7, k7, l7⟩ := updV (q := .se) (ch := ch) i6 k6 hself (huniq _) (nb6 _)
  have nb7 : ∀ d, ∀ i ∈ L d, ∃ m, g7.look i = some m := by
    intro d i hi
    obtain ⟨m, hm⟩ := nb6 d i hi
    exact ⟨_, by rw [l7, hm]; rfl⟩
  obtain ⟨g8, e8, i8, k8, l8⟩ := updV (q := .sw) (ch := ch) i7 k7 hself (huniq _) (nb7 _)
  obtain ⟨g9, e9, i9, l9⟩ := Graph.removeNode_ok k8
  simp only [Quad.corner] at e5 e6 e7 e8
  simp only [nbA, nbB] at e1 e2 e3 e4
  refine ⟨g9, ?_, i9.trans i8, ?_⟩
  · simp only [Graph.updateCornerNeighbours, bind, Except.bind, e1, e2, e3, e4, e5, e6, e7, e8, e9]
  · intro j
    rw [l9]
    by_cases hj : j = k
    · simp [hj]
    · rw [if_neg hj, if_neg hj, l8, l7, l6, l5, l4, l3, l2, l1]
      cases g.look j <;> rfl

/-- The neighbour map built for the quarter `q`. -/
def ChildSpec (ch : Spec.Quad → ℕ) (L : NMap) (cf : ℕ → Option Dir) (q : Spec.Quad) (m : NMap) : Prop :=
  ∀ e x, (m e).count x = if e = Quad.corner q then (L e).count x
    else match Quad.outer q e with
      | some d => ((L d).filter (fun i => cf i = some e)).count x
      | none => ind (∃ q', Quad.inner q q' = some e ∧ x = ch q')

theorem count_one (a x : ℕ) : [a].count x = ind (x = a) := by
  unfold ind
  by_cases hx : x = a
  · subst hx; simp
  · have : ¬ a = x := fun h => hx h.symm
    simp [hx, this]

theorem childMaps_ok {glob : Bool} {bnd : ℕ → Py Boundary} {ch : Spec.Quad → ℕ} {L : NMap}
    {cf : Spec.Quad → ℕ → Option Dir}
    (hc : ∀ q d, ∀ i ∈ L d, Graph.caseAt glob bnd (ch q) i = .ok (cf q i)) :
    (∃ m, MeshBuilder.fillSw glob bnd (ch .sw) (L .south) (L .west)
        (MeshBuilder.mapOf [ch .ne] [ch .se] [] [] (L .southWest) [] [] [ch .nw]) = .ok m ∧ ChildSpec ch L (cf .sw) .sw m) ∧
    (∃ m, MeshBuilder.fillNw glob bnd (ch .nw) (L .north) (L .west)
        (MeshBuilder.mapOf [] [ch .ne] [ch .se] [ch .sw] [] [] (L .northWest) []) = .ok m ∧ ChildSpec ch L (cf .nw) .nw m) ∧
    (∃ m, MeshBuilder.fillNe glob bnd (ch .ne) (L .north) (L .east)
        (MeshBuilder.mapOf (L .northEast) [] [] [ch .se] [ch .sw] [ch .nw] [] []) = .ok m ∧ ChildSpec ch L (cf .ne) .ne m) ∧
    (∃ m, MeshBuilder.fillSe glob bnd (ch .se) (L .south) (L .east)
        (MeshBuilder.mapOf [] [] (L .southEast) [] [] [ch .sw] [ch .nw] [ch .ne]) = .ok m ∧ ChildSpec ch L (cf .se) .se m) := by
  have ex : ∀ (q : Spec.Quad) (e : Dir) (x : ℕ), (∃ q', Quad.inner q q' = some e ∧ x = ch q') ↔
      (Quad.inner q .nw = some e ∧ x = ch .nw) ∨ (Quad.inner q .ne = some e ∧ x = ch .ne) ∨
      (Quad.inner q .sw = some e ∧ x = ch .sw) ∨ (Quad.inner q .se = some e ∧ x = ch .se) := by
    intro q e x
    constructor
    · rintro ⟨q', h⟩; cases q' <;> simp [h]
    · rintro (h | h | h | h) <;> exact ⟨_, h⟩
  refine ⟨?_, ?_, ?_, ?_⟩
  · obtain ⟨m, h1, h2⟩ := fillMap_ok (d1 := .southEast) (d2 := .south) (d3 := .west) (d4 := .northWest) (by decide)
      (by decide) (L .south) (L .west) (hc .sw _) (hc .sw _)
      (MeshBuilder.mapOf [ch .ne] [ch .se] [] [] (L .southWest) [] [] [ch .nw])
    refine ⟨m, h1, ?_⟩
    intro e x
    rw [h2 e x, ex]
    cases e <;> simp [Quad.corner, Quad.outer, Quad.inner, MeshBuilder.mapOf, count_one]
  · obtain ⟨m, h1, h2⟩ := fillMap_ok (d1 := .north) (d2 := .northEast) (d3 := .west) (d4 := .southWest) (by decide)
      (by decide) (L .north) (L .west) (hc .nw _) (hc .nw _)
      (MeshBuilder.mapOf [] [ch .ne] [ch .se] [ch .sw] [] [] (L .northWest) [])
    refine ⟨m, h1, ?_⟩
    intro e x
    rw [h2 e x, ex]
    cases e <;> simp [Quad.corner, Quad.outer, Quad.inner, MeshBuilder.mapOf, count_one]
  · obtain ⟨m, h1, h2⟩ := fillMap_ok (d1 := .north) (d2 := .northWest) (d3 := .east) (d4 := .southEast) (by decide)
      (by decide) (L .north) (L .east) (hc .ne _) (hc .ne _)
      (MeshBuilder.mapOf (L .northEast) [] [] [ch .se] [ch .sw] [ch .nw] [] [])
    refine ⟨m, h1, ?_⟩
    intro e x
    rw [h2 e x, ex]
    cases e <;> simp [Quad.corner, Quad.outer, Quad.inner, MeshBuilder.mapOf, count_one]
  · obtain ⟨m, h1, h2⟩ := fillMap_ok (d1 := .south) (d2 := .southWest) (d3 := .east) (d4 := .northEast) (by decide)
      (by decide) (L .south) (L .east) (hc .se _) (hc .se _)
      (MeshBuilder.mapOf [] [] (L .southEast) [] [] [ch .sw] [ch .nw] [ch .ne])
    refine ⟨m, h1, ?_⟩
    intro e x
    rw [h2 e x, ex]
    cases e <;> simp [Quad.corner, Quad.outer, Quad.inner, MeshBuilder.mapOf, count_one]

end Verif
