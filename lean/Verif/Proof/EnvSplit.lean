import Verif.Model.EnvMesh
import Verif.Proof.SplitExact2

/-!
# `EnvironmentMesh.split_and_replace` keeps the neighbour graph exact (graph level)
-/

namespace Verif
open Spec Classical

theorem sideCase_ok {bnd : ℕ → Py Boundary} {g : Graph} {i n : ℕ} {m : NMap} {c : Option Dir}
    (hm : g.look i = some m) (hc : Graph.caseAt false bnd i n = .ok c) :
    ∃ g', EnvMesh.sideCase bnd g i n = .ok g' ∧ Graph.SetAt g g' i (addC c n m) := by
  unfold EnvMesh.sideCase
  rw [hc]
  cases c with
  | none =>
    refine ⟨g, rfl, rfl, ?_⟩
    intro j
    by_cases hj : j = i
    · subst hj; simp [addC, hm]
    · simp [hj]
  | some e => exact Graph.addNeighbour_ok hm e n

/-- One side, pointwise. -/
theorem sideUpdate_ok {bnd : ℕ → Py Boundary} {g : Graph} {k n0 n1 : ℕ} {d : Dir} {mk : NMap}
    {cf : ℕ → ℕ → Option Dir} (hk : g.look k = some mk) (hnd : (mk d).Nodup)
    (hnb : ∀ i ∈ mk d, ∃ m, g.look i = some m ∧ k ∈ m d.opp)
    (hc : ∀ i ∈ mk d, Graph.caseAt false bnd i n0 = .ok (cf i n0) ∧ Graph.caseAt false bnd i n1 = .ok (cf i n1)) :
    ∃ g', EnvMesh.sideUpdate bnd g k d (mk d) n0 n1 = .ok g' ∧ g'.isGlobal = g.isGlobal ∧
      ∀ j, g'.look j = if j ∈ mk d then (g.look j).map (updEdge k n0 n1 d (cf j n0) (cf j n1)) else g.look j := by
  obtain ⟨g1, h1, hg1, hl1⟩ := Graph.foldlM_pointwise g.isGlobal (fun _ m => k ∈ m d.opp)
    (fun g idx => g.removeNeighbour idx d.opp k) (fun _ m => m.set d.opp ((m d.opp).erase k)) (mk d)
    (fun g i m _ _ hm hp => Graph.removeNeighbour_ok hm d.opp k hp) hnd g rfl hnb
  obtain ⟨g2, h2, hg2, hl2⟩ := Graph.foldlM_pointwise g.isGlobal (fun _ _ => True)
    (fun g idx => do
      let g ← EnvMesh.sideCase bnd g idx n0
      EnvMesh.sideCase bnd g idx n1) (fun i m => addC (cf i n1) n1 (addC (cf i n0) n0 m)) (mk d)
    (by
      intro g i m hi hg hm _
      obtain ⟨ga, ha, hga, hla⟩ := sideCase_ok hm (hc i hi).1
      have hm' : ga.look i = some (addC (cf i n0) n0 m) := by rw [hla]; simp
      obtain ⟨gb, hb, hgb, hlb⟩ := sideCase_ok hm' (hc i hi).2
      refine ⟨gb, ?_, hgb.trans hga, ?_⟩
      · simp [ha, bind, Except.bind, hb]
      · intro j
        rw [hlb, hla]
        by_cases hj : j = i <;> simp [hj]) hnd g1 hg1
    (by
      intro i hi
      obtain ⟨m, hm, -⟩ := hnb i hi
      exact ⟨_, by rw [hl1, if_pos hi, hm]; rfl, trivial⟩)
  refine ⟨g2, ?_, hg2, ?_⟩
  · unfold EnvMesh.sideUpdate Graph.removeNodeFromNeighbours
    rw [Graph.getNeighbours_ok hk]
    simp only [bind, Except.bind] at h1 ⊢
    rw [h1]
    exact h2
  · intro j
    rw [hl2, hl1]
    by_cases hj : j ∈ mk d
    · simp only [hj, if_true, Option.map_map]; rfl
    · simp [hj]

theorem cornerUpdate_ok {g : Graph} {n : ℕ} {e : Dir} {l : List ℕ} (huniq : ∀ i ∈ l, ∀ j ∈ l, i = j)
    (hnb : ∀ i ∈ l, ∃ m, g.look i = some m) :
    ∃ g', EnvMesh.cornerUpdate g l e n = .ok g' ∧ g'.isGlobal = g.isGlobal ∧
      ∀ j, g'.look j = if j ∈ l then (g.look j).map (fun m => m.set e [n]) else g.look j := by
  unfold EnvMesh.cornerUpdate
  cases l with
  | nil => exact ⟨g, rfl, rfl, by simp⟩
  | cons i l =>
    obtain ⟨m, hm⟩ := hnb i (by simp)
    obtain ⟨g', h', hgl, hlook⟩ := Graph.updateNeighbour_ok hm e [n]
    refine ⟨g', h', hgl, ?_⟩
    intro j
    rw [hlook]
    by_cases hj : j = i
    · subst hj; simp [hm]
    · have : j ∉ i :: l := by
        intro hjm; exact hj (huniq j hjm i (by simp))
      rw [if_neg hj, if_neg this]

/-- The children in the order of `environment_mesh.py` 911-967. -/
def nbA' (ch : Spec.Quad → ℕ) : Dir → ℕ
  | .north => ch .ne | .east => ch .ne | .south => ch .se | _ => ch .nw

/-- The second child. -/
def nbB' (ch : Spec.Quad → ℕ) : Dir → ℕ
  | .north => ch .nw | .east => ch .se | .south => ch .sw | _ => ch .sw

/-- Effect of one side update on cell `j`. -/
noncomputable def stepU' (k : ℕ) (ch : Spec.Quad → ℕ) (L : NMap) (cf : ℕ → ℕ → Option Dir) (d : Dir) (j : ℕ) (m : NMap) : NMap :=
  if j ∈ L d then updEdge k (nbA' ch d) (nbB' ch d) d (cf j (nbA' ch d)) (cf j (nbB' ch d)) m else m

/-- Effect of all updates on cell `j`. -/
noncomputable def stepAll' (k : ℕ) (ch : Spec.Quad → ℕ) (L : NMap) (cf : ℕ → ℕ → Option Dir) (j : ℕ) (m : NMap) : NMap :=
  stepU' k ch L cf .west j (stepU' k ch L cf .east j (stepU' k ch L cf .south j (stepU' k ch L cf .north j
    (stepV ch L .sw j (stepV ch L .nw j (stepV ch L .se j (stepV ch L .ne j m)))))))

theorem count_stepU' (k : ℕ) (ch : Spec.Quad → ℕ) (L : NMap) (cf : ℕ → ℕ → Option Dir) (d : Dir) (j : ℕ) (m : NMap) (e : Dir) (x : ℕ) :
    (stepU' k ch L cf d j m e).count x =
      (m e).count x - ind (j ∈ L d ∧ e = d.opp ∧ x = k) + ind (j ∈ L d ∧ cf j (nbA' ch d) = some e ∧ x = nbA' ch d)
        + ind (j ∈ L d ∧ cf j (nbB' ch d) = some e ∧ x = nbB' ch d) := by
  unfold stepU'
  split
  · rename_i h; simp only [h, true_and]; rw [count_updEdge]
  · rename_i h; simp [h, ind]

/-- A cell that neighbours `k` in at most one direction sees the same multiplicities whatever the
order of the updates. -/
theorem count_stepAll' {k : ℕ} {ch : Spec.Quad → ℕ} {L : NMap} {cf : ℕ → ℕ → Option Dir} {j : ℕ} {m : NMap}
    (hu : ∀ d d', j ∈ L d → j ∈ L d' → d = d') (e : Dir) (x : ℕ) :
    (stepAll' k ch L cf j m e).count x = (stepAll k ch L cf j m e).count x := by
  by_cases h : ∃ d, j ∈ L d
  · obtain ⟨d, hd⟩ := h
    have hn : ∀ d', (j ∈ L d') = (d' = d) := by
      intro d'
      apply propext
      exact ⟨fun h => hu d' d h hd, fun h => h ▸ hd⟩
    unfold stepAll' stepAll
    simp only [count_stepV, count_stepU, count_stepU', hn]
    cases d <;> simp [Quad.corner, nbA, nbB, nbA', nbB', ind] <;> omega
  · have hn : ∀ d, j ∉ L d := fun d hd => h ⟨d, hd⟩
    simp [stepAll', stepAll, stepU, stepU', stepV, hn]

theorem sideU {bnd : ℕ → Py Boundary} {g : Graph} {k : ℕ} {ch : Spec.Quad → ℕ} {d : Dir} {L : NMap}
    {cf : ℕ → ℕ → Option Dir}
    (hk : g.look k = some L) (hnd : (L d).Nodup) (hself : ∀ d, k ∉ L d)
    (hnb : ∀ i ∈ L d, ∃ m, g.look i = some m ∧ k ∈ m d.opp)
    (hc : ∀ i ∈ L d, ∀ q, Graph.caseAt false bnd i (ch q) = .ok (cf i (ch q))) :
    ∃ g', EnvMesh.sideUpdate bnd g k d (L d) (nbA' ch d) (nbB' ch d) = .ok g' ∧ g'.isGlobal = g.isGlobal ∧ g'.look k = some L ∧
      ∀ j, g'.look j = (g.look j).map (stepU' k ch L cf d j) := by
  have hA : ∀ d, ∃ q, nbA' ch d = ch q := by
    intro d; cases d <;> exact ⟨_, rfl⟩
  have hB : ∀ d, ∃ q, nbB' ch d = ch q := by
    intro d; cases d <;> exact ⟨_, rfl⟩
  obtain ⟨g', h1, h2, h3⟩ := sideUpdate_ok (n0 := nbA' ch d) (n1 := nbB' ch d) (cf := cf) hk hnd hnb
    (fun i hi => by
      obtain ⟨q, hq⟩ := hA d
      obtain ⟨q', hq'⟩ := hB d
      rw [hq, hq']; exact ⟨hc i hi q, hc i hi q'⟩)
  refine ⟨g', h1, h2, by rw [h3, if_neg (hself d), hk], ?_⟩
  intro j
  rw [h3]
  unfold stepU'
  by_cases hj : j ∈ L d <;> simp [hj]

theorem cornerV {g : Graph} {k : ℕ} {ch : Spec.Quad → ℕ} {q : Spec.Quad} {L : NMap}
    (hk : g.look k = some L) (hself : ∀ d, k ∉ L d)
    (huniq : ∀ i ∈ L (Quad.corner q), ∀ j ∈ L (Quad.corner q), i = j)
    (hnb : ∀ i ∈ L (Quad.corner q), ∃ m, g.look i = some m) :
    ∃ g', EnvMesh.cornerUpdate g (L (Quad.corner q)) (Quad.corner q).opp (ch q) = .ok g' ∧ g'.isGlobal = g.isGlobal ∧
      g'.look k = some L ∧ ∀ j, g'.look j = (g.look j).map (stepV ch L q j) := by
  obtain ⟨g', h1, h2, h3⟩ := cornerUpdate_ok (n := ch q) (e := (Quad.corner q).opp) huniq hnb
  refine ⟨g', h1, h2, by rw [h3, if_neg (hself _), hk], ?_⟩
  intro j
  rw [h3]
  unfold stepV
  by_cases hj : j ∈ L (Quad.corner q) <;> simp [hj]

/-- The eight updates and the removal of `k`, pointwise. -/
theorem envUpdates_ok {bnd : ℕ → Py Boundary} {g : Graph} {k : ℕ} {ch : Spec.Quad → ℕ} {L : NMap}
    {cf : ℕ → ℕ → Option Dir}
    (hk : g.look k = some L) (hnd : ∀ d, (L d).Nodup) (hself : ∀ d, k ∉ L d)
    (hnb : ∀ d, ∀ i ∈ L d, ∃ m, g.look i = some m ∧ k ∈ m d.opp)
    (huniq : ∀ q, ∀ i ∈ L (Quad.corner q), ∀ j ∈ L (Quad.corner q), i = j)
    (hside : ∀ i d d', i ∈ L d → i ∈ L d' → d = d')
    (hc : ∀ d, ∀ i ∈ L d, ∀ q, Graph.caseAt false bnd i (ch q) = .ok (cf i (ch q))) :
    ∃ g', (do
      let g ← EnvMesh.cornerUpdate g (L .northEast) .southWest (ch .ne)
      let g ← EnvMesh.cornerUpdate g (L .southEast) .northWest (ch .se)
      let g ← EnvMesh.cornerUpdate g (L .northWest) .southEast (ch .nw)
      let g ← EnvMesh.cornerUpdate g (L .southWest) .northEast (ch .sw)
      let g ← EnvMesh.sideUpdate bnd g k .north (L .north) (ch .ne) (ch .nw)
      let g ← EnvMesh.sideUpdate bnd g k .south (L .south) (ch .se) (ch .sw)
      let g ← EnvMesh.sideUpdate bnd g k .east (L .east) (ch .ne) (ch .se)
      let g ← EnvMesh.sideUpdate bnd g k .west (L .west) (ch .nw) (ch .sw)
      g.removeNode k : Py Graph) = .ok g' ∧ g'.isGlobal = g.isGlobal ∧
      ∀ j, g'.look j = if j = k then none else (g.look j).map (stepAll' k ch L cf j) := by
  -- membership of `k` survives the updates of other directions
  have keepU : ∀ (d d' : Dir) (j : ℕ) (m : NMap), d ≠ d' → j ∈ L d' → k ∈ m d'.opp → k ∈ stepU' k ch L cf d j m d'.opp := by
    intro d d' j m hd hj hm
    have : j ∉ L d := fun h => hd (hside j d d' h hj)
    simpa [stepU', this] using hm
  have keepV : ∀ (q : Spec.Quad) (d' : Dir) (j : ℕ) (m : NMap), Quad.corner q ≠ d' → j ∈ L d' → k ∈ m d'.opp →
      k ∈ stepV ch L q j m d'.opp := by
    intro q d' j m hd hj hm
    have : j ∉ L (Quad.corner q) := fun h => hd (hside j _ d' h hj)
    simpa [stepV, this] using hm
  have nb : ∀ (g : Graph) (f : ℕ → NMap → NMap) (g' : Graph), (∀ d, ∀ i ∈ L d, ∃ m, g.look i = some m) →
      (∀ j, g'.look j = (g.look j).map (f j)) → ∀ d, ∀ i ∈ L d, ∃ m, g'.look i = some m := by
    intro g f g' h hl d i hi
    obtain ⟨m, hm⟩ := h d i hi
    exact ⟨_, by rw [hl, hm]; rfl⟩
  have nb0 : ∀ d, ∀ i ∈ L d, ∃ m, g.look i = some m := fun d i hi => by
    obtain ⟨m, hm, -⟩ := hnb d i hi; exact ⟨m, hm⟩
  obtain ⟨g1, e1, i1, k1, l1⟩ := cornerV (q := .ne) (ch := ch) hk hself (huniq _) (nb0 _)
  have nb1 := nb _ _ _ nb0 l1
  obtain ⟨g2, e2, i2, k2, l2⟩ := cornerV (q := .se) (ch := ch) k1 hself (huniq _) (nb1 _)
  have nb2 := nb _ _ _ nb1 l2
  obtain ⟨g3, e3, i3, k3, l3⟩ := cornerV (q := .nw) (ch := ch) k2 hself (huniq _) (nb2 _)
  have nb3 := nb _ _ _ nb2 l3
  obtain ⟨g4, e4, i4, k4, l4⟩ := cornerV (q := .sw) (ch := ch) k3 hself (huniq _) (nb3 _)
  have m4 : ∀ d, (∀ q, Quad.corner q ≠ d) → ∀ i ∈ L d, ∃ m, g4.look i = some m ∧ k ∈ m d.opp := by
    intro d hd i hi
    obtain ⟨m, hm, hkm⟩ := hnb d i hi
    refine ⟨_, by rw [l4, l3, l2, l1, hm]; rfl, ?_⟩
    exact keepV _ _ _ _ (hd _) hi (keepV _ _ _ _ (hd _) hi (keepV _ _ _ _ (hd _) hi (keepV _ _ _ _ (hd _) hi hkm)))
  have mU : ∀ (g g' : Graph) (d d' : Dir), d ≠ d' → (∀ j, g'.look j = (g.look j).map (stepU' k ch L cf d j)) →
      (∀ i ∈ L d', ∃ m, g.look i = some m ∧ k ∈ m d'.opp) → ∀ i ∈ L d', ∃ m, g'.look i = some m ∧ k ∈ m d'.opp := by
    intro g g' d d' hd hl h i hi
    obtain ⟨m, hm, hkm⟩ := h i hi
    exact ⟨_, by rw [hl, hm]; rfl, keepU d d' i m hd hi hkm⟩
  have cN : ∀ q, Quad.corner q ≠ .north := by intro q; cases q <;> simp [Quad.corner]
  have cS : ∀ q, Quad.corner q ≠ .south := by intro q; cases q <;> simp [Quad.corner]
  have cE : ∀ q, Quad.corner q ≠ .east := by intro q; cases q <;> simp [Quad.corner]
  have cW : ∀ q, Quad.corner q ≠ .west := by intro q; cases q <;> simp [Quad.corner]
  obtain ⟨g5, e5, i5, k5, l5⟩ := sideU (d := .north) (ch := ch) (cf := cf) k4 (hnd _) hself (m4 _ cN) (hc _)
  obtain ⟨g6, e6, i6, k6, l6⟩ := sideU (d := .south) (ch := ch) (cf := cf) k5 (hnd _) hself
    (mU _ _ .north .south (by decide) l5 (m4 _ cS)) (hc _)
  obtain ⟨g7, e7, i7, k7, l7⟩ := sideU (d := .east) (ch := ch) (cf := cf) k6 (hnd _) hself
    (mU _ _ .south .east (by decide) l6 (mU _ _ .north .east (by decide) l5 (m4 _ cE))) (hc _)
  obtain ⟨g8, e8, i8, k8, l8⟩ := sideU (d := .west) (ch := ch) (cf := cf) k7 (hnd _) hself
    (mU _ _ .east .west (by decide) l7 (mU _ _ .south .west (by decide) l6 (mU _ _ .north .west (by decide) l5 (m4 _ cW))))
    (hc _)
  obtain ⟨g9, e9, i9, l9⟩ := Graph.removeNode_ok k8
  simp only [Quad.corner, Dir.opp] at e1 e2 e3 e4
  simp only [nbA', nbB'] at e5 e6 e7 e8
  refine ⟨g9, ?_, by rw [i9, i8, i7, i6, i5, i4, i3, i2, i1], ?_⟩
  · simp only [bind, Except.bind, e1, e2, e3, e4, e5, e6, e7, e8, e9]
  · intro j
    rw [l9]
    by_cases hj : j = k
    · simp [hj]
    · rw [if_neg hj, if_neg hj, l8, l7, l6, l5, l4, l3, l2, l1]
      cases g.look j <;> rfl

/-- On the plane a rectangle touches another one in at most one direction. -/
theorem adj_dir_unique {a b : Rect} (ha : a.Pos) (hb : b.Pos) {d d' : Dir} (h : Adj false d a b) (h' : Adj false d' a b) :
    d = d' := by
  rw [adj_false_iff] at h h'
  obtain ⟨a1, a2⟩ := ha
  obtain ⟨b1, b2⟩ := hb
  revert h h'
  cases d <;> cases d' <;> simp only [Touches, sideRel, hSide, vSide] <;> grind

/-- **`EnvironmentMesh.split_and_replace` keeps an exact planar neighbour graph exact.** -/
theorem envSplitGraph_exact (cell : ℕ → Option Rect) (g : Graph)
    (hE : Exact false cell g.look) (k : ℕ) (K : Rect) (hk : cell k = some K) (ch : Spec.Quad → ℕ)
    (hfresh : ∀ q, cell (ch q) = none) (hinj : Function.Injective ch) (bnd : ℕ → Py Boundary)
    (hb_old : ∀ i r, cell i = some r → ∃ b, bnd i = .ok b ∧ rectOf b = r)
    (hb_new : ∀ q, ∃ b, bnd (ch q) = .ok b ∧ rectOf b = K.quarter q) :
    ∃ g', EnvMesh.splitGraph bnd g k (ch .nw) (ch .ne) (ch .sw) (ch .se) = .ok g' ∧ g'.isGlobal = g.isGlobal ∧
      Exact false (replaced cell k K ch) g'.look := by
  have hK := hE.ok k K hk
  have hkc : ∀ q, k ≠ ch q := by
    intro q h
    have := hfresh q
    rw [← h, hk] at this; cases this
  obtain ⟨L, hL⟩ : ∃ L, g.look k = some L := Option.isSome_iff_exists.1 ((hE.keys k).2 (by simp [hk]))
  have hLc := fun e x => Exact.count hE hL hk e x
  have hLm := fun e x => hE.mem k L e x K hL hk
  have hdis : ∀ x b, x ≠ k → cell x = some b → ¬ K.Overlap b := fun x b hx hb => hE.disjoint k x K b hx.symm hk hb
  have hself : ∀ d, k ∉ L d := by
    intro d h
    obtain ⟨b, hb, ha⟩ := (hLm d k).1 h
    rw [hk] at hb; cases hb
    exact not_adj_self hK d ha
  -- the case function
  let cf : ℕ → ℕ → Option Dir := fun i n => Graph.neighbourCase false (getB (bnd i)) (getB (bnd n))
  have hcaseON : ∀ i r q, cell i = some r → Graph.caseAt false bnd i (ch q) = .ok (cf i (ch q)) ∧
      ∀ e, cf i (ch q) = some e ↔ Adj false e r (K.quarter q) := by
    intro i r q hi
    obtain ⟨b, hb, hbr⟩ := hb_old i r hi
    obtain ⟨b', hb', hbr'⟩ := hb_new q
    refine ⟨by simp only [cf, hb, hb', getB]; exact caseAt_ok hb hb', ?_⟩
    intro e
    simp only [cf, hb, hb', getB]
    have hr := hE.ok i r hi
    have hq := quarter_ok hK q
    rw [neighbourCase_iff false b b' (by rw [hbr]; exact hr) (by rw [hbr']; exact hq) (by simp), hbr, hbr']
  have hcaseNO : ∀ i r q, cell i = some r → Graph.caseAt false bnd (ch q) i = .ok (cf (ch q) i) ∧
      ∀ e, cf (ch q) i = some e ↔ Adj false e (K.quarter q) r := by
    intro i r q hi
    obtain ⟨b, hb, hbr⟩ := hb_old i r hi
    obtain ⟨b', hb', hbr'⟩ := hb_new q
    refine ⟨by simp only [cf, hb, hb', getB]; exact caseAt_ok hb' hb, ?_⟩
    intro e
    simp only [cf, hb, hb', getB]
    have hr := hE.ok i r hi
    have hq := quarter_ok hK q
    rw [neighbourCase_iff false b' b (by rw [hbr']; exact hq) (by rw [hbr]; exact hr) (by simp), hbr, hbr']
  have hLcell : ∀ d, ∀ i ∈ L d, ∃ r, cell i = some r ∧ Adj false d K r := fun d i hi => (hLm d i).1 hi
  have hside : ∀ i d d', i ∈ L d → i ∈ L d' → d = d' := by
    intro i d d' h h'
    obtain ⟨r, hr, ha⟩ := hLcell d i h
    obtain ⟨r', hr', ha'⟩ := hLcell d' i h'
    rw [hr] at hr'; cases hr'
    exact adj_dir_unique hK.1 (hE.ok i r hr).1 ha ha'
  -- child maps
  obtain ⟨⟨mSw, eSw, cSw⟩, ⟨mNw, eNw, cNw⟩, ⟨mNe, eNe, cNe⟩, ⟨mSe, eSe, cSe⟩⟩ :=
    childMaps_ok (glob := false) (bnd := bnd) (ch := ch) (L := L) (cf := fun q i => cf (ch q) i) (by
      intro q d i hi
      obtain ⟨r, hr, -⟩ := hLcell d i hi
      exact (hcaseNO i r q hr).1)
  -- the graph with the four new nodes
  let g4 := (((g.addNode (ch .sw) mSw).addNode (ch .nw) mNw).addNode (ch .ne) mNe).addNode (ch .se) mSe
  let cm : Spec.Quad → NMap := fun q => match q with | .sw => mSw | .nw => mNw | .ne => mNe | .se => mSe
  have l4_old : ∀ j, (∀ q, j ≠ ch q) → g4.look j = g.look j := by
    intro j hj
    simp [g4, Graph.look_addNode, hj]
  have l4_new : ∀ q, g4.look (ch q) = some (cm q) := by
    intro q
    cases q <;> simp [g4, cm, Graph.look_addNode, hinj.eq_iff]
  have old_ne : ∀ i r, cell i = some r → ∀ q, i ≠ ch q := by
    rintro i r hi q rfl
    rw [hfresh] at hi; cases hi
  have hopp : ∀ i m d r, g.look i = some m → cell i = some r → (i ∈ L d ↔ Adj false d.opp r K) := by
    intro i m d r hm hi
    rw [hLm]
    constructor
    · rintro ⟨b, hb, ha⟩
      rw [hi] at hb; cases hb
      exact (adj_opp false d K r).2 ha
    · intro ha
      exact ⟨r, hi, (adj_opp false d K r).1 ha⟩
  have look_old : ∀ i r, cell i = some r → ∃ m, g.look i = some m := by
    intro i r hi
    exact Option.isSome_iff_exists.1 ((hE.keys i).2 (by simp [hi]))
  have k4 : g4.look k = some L := by rw [l4_old k hkc, hL]
  obtain ⟨g', e', i', l'⟩ := envUpdates_ok (bnd := bnd) (g := g4) (k := k) (ch := ch) (L := L) (cf := cf)
    k4 (fun d => hE.nodup k L d hL) hself
    (by
      intro d i hi
      obtain ⟨r, hr, ha⟩ := hLcell d i hi
      obtain ⟨m, hm⟩ := look_old i r hr
      refine ⟨m, by rw [l4_old i (old_ne i r hr), hm], ?_⟩
      rw [hE.mem i m d.opp k r hm hr]
      exact ⟨K, hk, (adj_opp false d K r).2 ha⟩)
    (by
      intro q i hi j hj
      obtain ⟨r, hr, ha⟩ := hLcell _ i hi
      obtain ⟨r', hr', ha'⟩ := hLcell _ j hj
      by_contra hne
      exact hE.disjoint i j r r' hne hr hr' (corner_unique q (hE.ok i r hr) (hE.ok j r' hr') ha ha'))
    hside
    (by
      intro d i hi q
      obtain ⟨r, hr, -⟩ := hLcell d i hi
      exact (hcaseON i r q hr).1)
  refine ⟨g', ?_, i', ?_⟩
  · -- the code runs through
    unfold EnvMesh.splitGraph
    have gn : ∀ (g : Graph), g.look k = some L → ∀ d, g.getNeighbours k d = .ok (L d) := fun g h d => Graph.getNeighbours_ok h d
    have la : ∀ (g : Graph) (q : Spec.Quad) m, g.look k = some L → (g.addNode (ch q) m).look k = some L := by
      intro g q m h
      rw [Graph.look_addNode, if_neg (hkc q), h]
    rw [gn g hL, gn g hL, gn g hL, gn g hL, gn g hL]
    simp only [bind, Except.bind] at e' ⊢
    have eSw' : EnvMesh.fillSw bnd (ch .sw) (L .south) (L .west)
        (MeshBuilder.mapOf [ch .ne] [ch .se] [] [] (L .southWest) [] [] [ch .nw]) = .ok mSw := eSw
    have eNw' : EnvMesh.fillNw bnd (ch .nw) (L .north) (L .west)
        (MeshBuilder.mapOf [] [ch .ne] [ch .se] [ch .sw] [] [] (L .northWest) []) = .ok mNw := eNw
    have eNe' : EnvMesh.fillNe bnd (ch .ne) (L .north) (L .east)
        (MeshBuilder.mapOf (L .northEast) [] [] [ch .se] [ch .sw] [ch .nw] [] []) = .ok mNe := eNe
    have eSe' : EnvMesh.fillSe bnd (ch .se) (L .south) (L .east)
        (MeshBuilder.mapOf [] [] (L .southEast) [] [] [ch .sw] [ch .nw] [ch .ne]) = .ok mSe := eSe
    rw [eSw']
    simp only
    rw [gn _ (la _ .sw _ hL)]
    simp only
    rw [eNw']
    simp only
    rw [gn _ (la _ .nw _ (la _ .sw _ hL))]
    simp only
    rw [eNe']
    simp only
    rw [gn _ (la _ .ne _ (la _ .nw _ (la _ .sw _ hL)))]
    simp only
    rw [eSe']
    simp only
    have gn4 : ∀ d, ((((g.addNode (ch .sw) mSw).addNode (ch .nw) mNw).addNode (ch .ne) mNe).addNode (ch .se) mSe).getNeighbours k d
        = .ok (L d) := gn _ k4
    simp only [gn4]
    exact e'
  · -- exactness
    have child_notin : ∀ d q, ch q ∉ L d := by
      intro d q h
      obtain ⟨r, hr, -⟩ := hLcell d _ h
      exact old_ne _ r hr q rfl
    have stepAll_child : ∀ q m, stepAll' k ch L cf (ch q) m = m := by
      intro q m
      simp [stepAll', stepU', stepV, child_notin]
    have l_new : ∀ q, g'.look (ch q) = some (cm q) := by
      intro q
      rw [l', if_neg (hkc q).symm, l4_new, Option.map_some, stepAll_child]
    have l_old : ∀ j, j ≠ k → (∀ q, j ≠ ch q) → g'.look j = (g.look j).map (stepAll' k ch L cf j) := by
      intro j h1 h2
      rw [l', if_neg h1, l4_old j h2]
    have l_k : g'.look k = none := by rw [l', if_pos rfl]
    -- what the live cells are
    have live : ∀ i r, replaced cell k K ch i = some r →
        (∃ q, i = ch q ∧ r = K.quarter q) ∨ (i ≠ k ∧ (∀ q, i ≠ ch q) ∧ cell i = some r) := by
      intro i r hi
      by_cases h1 : i = k
      · subst h1; rw [replaced_self] at hi; cases hi
      · by_cases h2 : ∃ q, i = ch q
        · obtain ⟨q, rfl⟩ := h2
          rw [replaced_child hinj hkc] at hi; cases hi
          exact Or.inl ⟨q, rfl, rfl⟩
        · have h2' : ∀ q, i ≠ ch q := fun q h => h2 ⟨q, h⟩
          rw [replaced_other h1 h2'] at hi
          exact Or.inr ⟨h1, h2', hi⟩
    have main : ∀ i m a d, g'.look i = some m → replaced cell k K ch i = some a → ∀ x,
        (m d).count x = ind (∃ b, replaced cell k K ch x = some b ∧ Adj false d a b) := by
      intro i m a d hm ha x
      rcases live i a ha with ⟨q, rfl, rfl⟩ | ⟨h1, h2, hi⟩
      · rw [l_new q] at hm; cases hm
        have hspec : ChildSpec ch L (cf (ch q)) q (cm q) := by
          cases q <;> assumption
        exact child_count hk hK hinj hfresh hdis hE.ok hLc (fun x b e hb => (hcaseNO x b q hb).2 e) hspec d x
      · rw [l_old i h1 h2] at hm
        obtain ⟨m0, hm0⟩ := look_old i a hi
        rw [hm0, Option.map_some] at hm; cases hm
        rw [count_stepAll' (hside i)]
        exact old_count hk hK hinj hfresh (hE.ok i a hi) (hE.disjoint i k a K h1 hi hk) hdis hE.ok
          (fun d => hopp i m0 d a hm0 hi) (fun q e => (hcaseON i a q hi).2 e) (fun e x => Exact.count hE hm0 hi e x) d x
    have keys : ∀ i, (g'.look i).isSome ↔ (replaced cell k K ch i).isSome := by
      intro i
      by_cases h1 : i = k
      · subst h1; rw [l_k, replaced_self]; simp
      · by_cases h2 : ∃ q, i = ch q
        · obtain ⟨q, rfl⟩ := h2
          rw [l_new, replaced_child hinj hkc]; simp
        · have h2' : ∀ q, i ≠ ch q := fun q h => h2 ⟨q, h⟩
          rw [l_old i h1 h2', replaced_other h1 h2', ← hE.keys i]; simp
    constructor
    · exact keys
    · intro i r hi
      rcases live i r hi with ⟨q, -, rfl⟩ | ⟨-, -, hi⟩
      · exact quarter_ok hK q
      · exact hE.ok i r hi
    · intro i j a b hij ha hb
      rcases live i a ha with ⟨q, rfl, rfl⟩ | ⟨h1, h2, hi⟩ <;> rcases live j b hb with ⟨q', rfl, rfl⟩ | ⟨h1', h2', hj⟩
      · exact quarters_disjoint hK.1 (fun h => hij (by rw [h]))
      · exact fun h => hdis j b h1' hj (quarter_overlap hK.1 h)
      · exact fun h => hdis i a h1 hi (quarter_overlap hK.1 (overlap_comm.1 h))
      · exact hE.disjoint i j a b hij hi hj
    · intro i m d hm
      obtain ⟨a, ha⟩ := Option.isSome_iff_exists.1 ((keys i).1 (by simp [hm]))
      exact (nodup_mem_of_count (main i m a d hm ha)).1
    · intro i m d j a hm ha
      exact (nodup_mem_of_count (main i m a d hm ha)).2 j

end Verif
