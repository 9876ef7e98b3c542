import Verif.Proof.SplitExact

/-!
# `split_and_replace` keeps the neighbour graph exact (assembly)
-/

namespace Verif
open Spec Classical

theorem replaced_self (cell : ℕ → Option Rect) (k : ℕ) (K : Rect) (ch : Spec.Quad → ℕ) :
    replaced cell k K ch k = none := by simp [replaced]

theorem replaced_child {cell : ℕ → Option Rect} {k : ℕ} {K : Rect} {ch : Spec.Quad → ℕ} (hinj : Function.Injective ch)
    (hkc : ∀ q, k ≠ ch q) (q : Spec.Quad) : replaced cell k K ch (ch q) = some (K.quarter q) := by
  have h1 := (hkc q).symm
  cases q <;> simp [replaced, h1, hinj.eq_iff]

theorem replaced_other {cell : ℕ → Option Rect} {k : ℕ} {K : Rect} {ch : Spec.Quad → ℕ} {x : ℕ}
    (hk : x ≠ k) (hx : ∀ q, x ≠ ch q) : replaced cell k K ch x = cell x := by
  simp [replaced, hk, hx]

theorem ind_eq {p q : Prop} (h : p ↔ q) : ind p = ind q := by rw [propext h]

/-- Multiplicities in the list of an old cell after the split. -/
theorem old_count {glob : Bool} {cell : ℕ → Option Rect} {k : ℕ} {K : Rect} {ch : Spec.Quad → ℕ}
    (hk : cell k = some K) (hK : CellOK glob K) (hinj : Function.Injective ch) (hfresh : ∀ q, cell (ch q) = none)
    {L : NMap} {cf : ℕ → ℕ → Option Dir} {j : ℕ} {r : Rect} {m : NMap} (hr : CellOK glob r)
    (hno : ¬ r.Overlap K)
    (hdis : ∀ x b, x ≠ k → cell x = some b → ¬ K.Overlap b)
    (hok : ∀ x b, cell x = some b → CellOK glob b)
    (hp : ∀ d, j ∈ L d ↔ Adj glob d.opp r K)
    (hcf : ∀ q e, cf j (ch q) = some e ↔ Adj glob e r (K.quarter q))
    (hm : ∀ e x, (m e).count x = ind (∃ b, cell x = some b ∧ Adj glob e r b)) (e : Dir) (x : ℕ) :
    (stepAll k ch L cf j m e).count x = ind (∃ b, replaced cell k K ch x = some b ∧ Adj glob e r b) := by
  have hkc : ∀ q, k ≠ ch q := by
    intro q h
    have := hfresh q
    rw [← h, hk] at this; cases this
  unfold stepAll
  simp only [count_stepV, count_stepU, hm]
  by_cases hxk : x = k
  · subst hxk
    have hkn : ∀ q, (x = ch q) = False := fun q => by simp [hkc q]
    have hkA : ∀ d, (x = nbA ch d) = False := fun d => by cases d <;> exact hkn _
    have hkB : ∀ d, (x = nbB ch d) = False := fun d => by cases d <;> exact hkn _
    simp only [replaced_self, reduceCtorEq, false_and, exists_false, hkn, hkA, hkB, hk, Option.some.injEq,
      exists_eq_left', and_true, and_false]
    cases e <;> simp [Quad.corner, Dir.opp, ind, hp]
  · by_cases hxc : ∃ q, x = ch q
    · obtain ⟨q, rfl⟩ := hxc
      rw [replaced_child hinj hkc, hfresh]
      simp only [Option.some.injEq, exists_eq_left', reduceCtorEq, false_and, exists_false]
      have hne : (ch q = k) = False := by simp [(hkc q).symm]
      have hcA : ∀ d, (Adj glob d.opp r K ∧ cf j (nbA ch d) = some e ∧ ch q = nbA ch d) ↔
          (ch q = nbA ch d ∧ Adj glob d.opp r K ∧ Adj glob e r (K.quarter q)) := by
        intro d
        constructor
        · rintro ⟨h1, h2, h3⟩
          rw [← h3, hcf] at h2; exact ⟨h3, h1, h2⟩
        · rintro ⟨h3, h1, h2⟩
          rw [← h3, hcf]; exact ⟨h1, h2, rfl⟩
      have hcB : ∀ d, (Adj glob d.opp r K ∧ cf j (nbB ch d) = some e ∧ ch q = nbB ch d) ↔
          (ch q = nbB ch d ∧ Adj glob d.opp r K ∧ Adj glob e r (K.quarter q)) := by
        intro d
        constructor
        · rintro ⟨h1, h2, h3⟩
          rw [← h3, hcf] at h2; exact ⟨h3, h1, h2⟩
        · rintro ⟨h3, h1, h2⟩
          rw [← h3, hcf]; exact ⟨h1, h2, rfl⟩
      simp only [hp, hne, and_false]
      simp only [hcA, hcB]
      have G1 := fun h1 h2 => adj_h_v (g := glob) (q := q) hr.1 hK.1 h1 h2
      have G2 := fun h => adj_quarter (e := e) (q := q) hr hK hno h
      have G3 := fun q0 h => adj_corner_quarter (q0 := q0) hr hK h q
      have hG3 : ∀ q0, Adj glob (Quad.corner q0).opp r K → e = (Quad.corner q0).opp →
          (Adj glob e r (K.quarter q) ↔ q = q0) := by
        rintro q0 h rfl; exact G3 q0 h
      have g1 := hG3 .nw
      have g2 := hG3 .ne
      have g3 := hG3 .sw
      have g4 := hG3 .se
      clear G3 hG3 hcA hcB hne hp hcf hm hok hdis hno hr hkc hfresh hk hxk
      generalize Adj glob e r (K.quarter q) = A at *
      cases q <;> cases e <;>
        simp [Quad.corner, Quad.hDir, Quad.vDir, Dir.opp, ind, nbA, nbB, hinj.eq_iff] at g1 g2 g3 g4 G1 G2 ⊢ <;> grind
    · have hxn : ∀ q, (x = ch q) = False := fun q => by simp; exact fun h => hxc ⟨q, h⟩
      have hxA : ∀ d, (x = nbA ch d) = False := fun d => by cases d <;> exact hxn _
      have hxB : ∀ d, (x = nbB ch d) = False := fun d => by cases d <;> exact hxn _
      rw [replaced_other hxk (by intro q h; exact hxc ⟨q, h⟩)]
      simp only [hxn, hxA, hxB, hxk, and_false]
      have hcu : ∀ q0 : Spec.Quad, Adj glob (Quad.corner q0) r K → e = Quad.corner q0 →
          ¬ ∃ b, cell x = some b ∧ Adj glob e r b := by
        rintro q0 h rfl ⟨b, hb, hb'⟩
        exact hdis x b hxk hb (corner_unique q0 hK (hok x b hb) h hb')
      have c1 := hcu .nw
      have c2 := hcu .ne
      have c3 := hcu .sw
      have c4 := hcu .se
      clear hcu
      generalize (∃ b, cell x = some b ∧ Adj glob e r b) = A at *
      cases e <;> simp [Quad.corner, Dir.opp, ind, hp] at * <;> grind

theorem count_filter_ind {l : List ℕ} {P : Prop} {c : ℕ → Option Dir} {e : Dir} {Q : Prop} (x : ℕ)
    (h : l.count x = ind P) (hQ : (P ∧ c x = some e) ↔ Q) :
    (l.filter (fun i => decide (c i = some e))).count x = ind Q := by
  by_cases hc : c x = some e
  · rw [List.count_filter (by simp [hc]), h]
    exact ind_eq (by rw [← hQ]; simp [hc])
  · rw [List.count_eq_zero_of_not_mem (by simp [hc])]
    simp [hc] at hQ
    simp [ind, hQ]

/-- Multiplicities in the lists of a quarter. -/
theorem child_count {glob : Bool} {cell : ℕ → Option Rect} {k : ℕ} {K : Rect} {ch : Spec.Quad → ℕ}
    (hk : cell k = some K) (hK : CellOK glob K) (hinj : Function.Injective ch) (hfresh : ∀ q, cell (ch q) = none)
    {L : NMap} {cf : ℕ → Option Dir} {q : Spec.Quad} {m : NMap}
    (hdis : ∀ x b, x ≠ k → cell x = some b → ¬ K.Overlap b)
    (hok : ∀ x b, cell x = some b → CellOK glob b)
    (hL : ∀ e x, (L e).count x = ind (∃ b, cell x = some b ∧ Adj glob e K b))
    (hcf : ∀ x b e, cell x = some b → (cf x = some e ↔ Adj glob e (K.quarter q) b))
    (hm : ChildSpec ch L cf q m) (e : Dir) (x : ℕ) :
    (m e).count x = ind (∃ b, replaced cell k K ch x = some b ∧ Adj glob e (K.quarter q) b) := by
  have hkc : ∀ q, k ≠ ch q := by
    intro q h
    have := hfresh q
    rw [← h, hk] at this; cases this
  -- the right-hand side for an old cell
  have old : ∀ x, x ≠ k → (∀ q, x ≠ ch q) → ((∃ b, replaced cell k K ch x = some b ∧ Adj glob e (K.quarter q) b) ↔
      ∃ b, cell x = some b ∧ Adj glob e (K.quarter q) b) := by
    intro x h1 h2; rw [replaced_other h1 h2]
  have sib : ∀ q', (∃ b, replaced cell k K ch (ch q') = some b ∧ Adj glob e (K.quarter q) b) ↔
      Quad.inner q q' = some e := by
    intro q'
    rw [replaced_child hinj hkc]
    simp only [Option.some.injEq, exists_eq_left']
    exact adj_quarters hK q q' e
  have self : ¬ (∃ b, replaced cell k K ch k = some b ∧ Adj glob e (K.quarter q) b) := by
    rw [replaced_self]; simp
  have kself : ∀ d, ¬ (∃ b, cell k = some b ∧ Adj glob d K b) := by
    intro d; rw [hk]; simp only [Option.some.injEq, exists_eq_left']; exact not_adj_self hK d
  have nofresh : ∀ d q', ¬ (∃ b, cell (ch q') = some b ∧ Adj glob d K b) := by
    intro d q'; rw [hfresh]; simp
  have inner_outer : ∀ q', Quad.inner q q' = some e → e ≠ Quad.corner q ∧ Quad.outer q e = none := by
    intro q'; cases q <;> cases q' <;> cases e <;> simp [Quad.inner, Quad.corner, Quad.outer]
  rw [hm e x]
  by_cases hec : e = Quad.corner q
  · rw [if_pos hec, hL]
    apply ind_eq
    by_cases hxk : x = k
    · subst hxk; exact ⟨fun h => absurd h (kself e), fun h => absurd h self⟩
    · by_cases hxc : ∃ q', x = ch q'
      · obtain ⟨q', rfl⟩ := hxc
        rw [sib]
        exact ⟨fun h => absurd h (nofresh e q'), fun h => absurd hec (inner_outer q' h).1⟩
      · rw [old x hxk (by intro q h; exact hxc ⟨q, h⟩)]
        subst hec
        simp only [adj_outer_corner]
  · rw [if_neg hec]
    cases hout : Quad.outer q e with
    | some d =>
      simp only
      refine count_filter_ind x (hL d x) ?_
      by_cases hxk : x = k
      · subst hxk; exact ⟨fun h => absurd h.1 (kself d), fun h => absurd h self⟩
      · by_cases hxc : ∃ q', x = ch q'
        · obtain ⟨q', rfl⟩ := hxc
          rw [sib]
          refine ⟨fun h => absurd h.1 (nofresh d q'), fun h => ?_⟩
          have := (inner_outer q' h).2
          rw [hout] at this; cases this
        · rw [old x hxk (by intro q h; exact hxc ⟨q, h⟩)]
          constructor
          · rintro ⟨⟨b, hb, -⟩, hc⟩
            exact ⟨b, hb, (hcf x b e hb).1 hc⟩
          · rintro ⟨b, hb, ha⟩
            refine ⟨⟨b, hb, ?_⟩, (hcf x b e hb).2 ha⟩
            obtain ⟨d', hd', h'⟩ := adj_of_quarter (hok x b hb) hK (hdis x b hxk hb) ha
            rw [hout] at hd'; cases hd'; exact h'
    | none =>
      simp only
      apply ind_eq
      by_cases hxk : x = k
      · subst hxk
        constructor
        · rintro ⟨q', -, h⟩; exact absurd h (hkc q')
        · exact fun h => absurd h self
      · by_cases hxc : ∃ q', x = ch q'
        · obtain ⟨q', rfl⟩ := hxc
          rw [sib]
          constructor
          · rintro ⟨q'', h1, h2⟩; rw [hinj h2]; exact h1
          · intro h; exact ⟨q', h, rfl⟩
        · rw [old x hxk (by intro q h; exact hxc ⟨q, h⟩)]
          constructor
          · rintro ⟨q', -, h⟩; exact absurd ⟨q', h⟩ hxc
          · rintro ⟨b, hb, ha⟩
            obtain ⟨d', hd', -⟩ := adj_of_quarter (hok x b hb) hK (hdis x b hxk hb) ha
            rw [hout] at hd'; cases hd'

/-- The boundary in a successful result (anything otherwise). -/
def getB : Py Boundary → Boundary
  | .ok b => b
  | .error _ => ⟨0, 0, 0, 0, []⟩

/-- **`split_and_replace` keeps the neighbour graph exact.** -/
theorem splitGraph_exact (glob : Bool) (cell : ℕ → Option Rect) (g : Graph) (hg : g.isGlobal = glob)
    (hE : Exact glob cell g.look) (k : ℕ) (K : Rect) (hk : cell k = some K) (ch : Spec.Quad → ℕ)
    (hfresh : ∀ q, cell (ch q) = none) (hinj : Function.Injective ch) (bnd : ℕ → Py Boundary)
    (hb_old : ∀ i r, cell i = some r → ∃ b, bnd i = .ok b ∧ rectOf b = r)
    (hb_new : ∀ q, ∃ b, bnd (ch q) = .ok b ∧ rectOf b = K.quarter q) :
    ∃ g', MeshBuilder.splitGraph bnd g k (ch .nw) (ch .ne) (ch .sw) (ch .se) = .ok g' ∧ g'.isGlobal = glob ∧
      Exact glob (replaced cell k K ch) g'.look := by
  have hK := hE.ok k K hk
  have hkc : ∀ q, k ≠ ch q := by
    intro q h
    have := hfresh q
    rw [← h, hk] at this; cases this
  obtain ⟨L, hL⟩ : ∃ L, g.look k = some L := Option.isSome_iff_exists.1 ((hE.keys k).2 (by simp [hk]))
  have hLc := fun e x => Exact.count hE hL hk e x
  have hLm := fun e x => hE.mem k L e x K hL hk
  have hdis : ∀ x b, x ≠ k → cell x = some b → ¬ K.Overlap b := fun x b hx hb => hE.disjoint k x K b hx.symm hk hb
  have hself : ∀ d, k ∉ L d := by
    intro d h
    obtain ⟨b, hb, ha⟩ := (hLm d k).1 h
    rw [hk] at hb; cases hb
    exact not_adj_self hK d ha
  -- the case function
  let cf : ℕ → ℕ → Option Dir := fun i n => Graph.neighbourCase glob (getB (bnd i)) (getB (bnd n))
  have sum : ∀ (q : Spec.Quad) (r : Rect), CellOK glob r → glob = true →
      (r.e - r.w) + ((K.quarter q).e - (K.quarter q).w) < 360 := by
    intro q r hr hgl
    have h1 := quarter_width hK q hgl
    have h2 := hr.2.2.2 hgl
    linarith
  have hcaseON : ∀ i r q, cell i = some r → Graph.caseAt glob bnd i (ch q) = .ok (cf i (ch q)) ∧
      ∀ e, cf i (ch q) = some e ↔ Adj glob e r (K.quarter q) := by
    intro i r q hi
    obtain ⟨b, hb, hbr⟩ := hb_old i r hi
    obtain ⟨b', hb', hbr'⟩ := hb_new q
    refine ⟨by simp only [cf, hb, hb', getB]; exact caseAt_ok hb hb', ?_⟩
    intro e
    simp only [cf, hb, hb', getB]
    have hr := hE.ok i r hi
    have hq := quarter_ok hK q
    rw [neighbourCase_iff glob b b' (by rw [hbr]; exact hr) (by rw [hbr']; exact hq)
      (by intro hgl; have := sum q r hr hgl; rw [← hbr, ← hbr'] at this; simpa [rectOf] using this), hbr, hbr']
  have hcaseNO : ∀ i r q, cell i = some r → Graph.caseAt glob bnd (ch q) i = .ok (cf (ch q) i) ∧
      ∀ e, cf (ch q) i = some e ↔ Adj glob e (K.quarter q) r := by
    intro i r q hi
    obtain ⟨b, hb, hbr⟩ := hb_old i r hi
    obtain ⟨b', hb', hbr'⟩ := hb_new q
    refine ⟨by simp only [cf, hb, hb', getB]; exact caseAt_ok hb' hb, ?_⟩
    intro e
    simp only [cf, hb, hb', getB]
    have hr := hE.ok i r hi
    have hq := quarter_ok hK q
    rw [neighbourCase_iff glob b' b (by rw [hbr']; exact hq) (by rw [hbr]; exact hr)
      (by intro hgl; have := sum q r hr hgl; rw [← hbr, ← hbr'] at this; simp only [rectOf] at this ⊢; linarith), hbr, hbr']
  have hLcell : ∀ d, ∀ i ∈ L d, ∃ r, cell i = some r ∧ Adj glob d K r := fun d i hi => (hLm d i).1 hi
  -- child maps
  obtain ⟨⟨mSw, eSw, cSw⟩, ⟨mNw, eNw, cNw⟩, ⟨mNe, eNe, cNe⟩, ⟨mSe, eSe, cSe⟩⟩ :=
    childMaps_ok (glob := glob) (bnd := bnd) (ch := ch) (L := L) (cf := fun q i => cf (ch q) i) (by
      intro q d i hi
      obtain ⟨r, hr, -⟩ := hLcell d i hi
      exact (hcaseNO i r q hr).1)
  -- the graph with the four new nodes
  let g4 := (((g.addNode (ch .sw) mSw).addNode (ch .nw) mNw).addNode (ch .ne) mNe).addNode (ch .se) mSe
  let cm : Spec.Quad → NMap := fun q => match q with | .sw => mSw | .nw => mNw | .ne => mNe | .se => mSe
  have l4_old : ∀ j, (∀ q, j ≠ ch q) → g4.look j = g.look j := by
    intro j hj
    simp [g4, Graph.look_addNode, hj]
  have l4_new : ∀ q, g4.look (ch q) = some (cm q) := by
    intro q
    cases q <;> simp [g4, cm, Graph.look_addNode, hinj.eq_iff]
  have old_ne : ∀ i r, cell i = some r → ∀ q, i ≠ ch q := by
    rintro i r hi q rfl
    rw [hfresh] at hi; cases hi
  have hopp : ∀ i m d r, g.look i = some m → cell i = some r → (i ∈ L d ↔ Adj glob d.opp r K) := by
    intro i m d r hm hi
    rw [hLm]
    constructor
    · rintro ⟨b, hb, ha⟩
      rw [hi] at hb; cases hb
      exact (adj_opp glob d K r).2 ha
    · intro ha
      exact ⟨r, hi, (adj_opp glob d K r).1 ha⟩
  have look_old : ∀ i r, cell i = some r → ∃ m, g.look i = some m := by
    intro i r hi
    exact Option.isSome_iff_exists.1 ((hE.keys i).2 (by simp [hi]))
  obtain ⟨g', e', i', l'⟩ := updates_ok (glob := glob) (bnd := bnd) (g := g4) (k := k) (ch := ch) (L := L) (cf := cf)
    hg (by rw [l4_old k hkc, hL]) (fun d => hE.nodup k L d hL) hself
    (by
      intro d i hi
      obtain ⟨r, hr, ha⟩ := hLcell d i hi
      obtain ⟨m, hm⟩ := look_old i r hr
      refine ⟨m, by rw [l4_old i (old_ne i r hr), hm], ?_⟩
      rw [hE.mem i m d.opp k r hm hr]
      exact ⟨K, hk, (adj_opp glob d K r).2 ha⟩)
    hkc
    (by
      intro q i hi j hj
      obtain ⟨r, hr, ha⟩ := hLcell _ i hi
      obtain ⟨r', hr', ha'⟩ := hLcell _ j hj
      by_contra hne
      exact hE.disjoint i j r r' hne hr hr' (corner_unique q (hE.ok i r hr) (hE.ok j r' hr') ha ha'))
    (by
      intro d i hi q
      obtain ⟨r, hr, -⟩ := hLcell d i hi
      exact (hcaseON i r q hr).1)
  refine ⟨g', ?_, i', ?_⟩
  · -- the code runs through
    unfold MeshBuilder.splitGraph
    have gn : ∀ (g : Graph), g.look k = some L → ∀ d, g.getNeighbours k d = .ok (L d) := fun g h d => Graph.getNeighbours_ok h d
    have la : ∀ (g : Graph) (q : Spec.Quad) m, g.look k = some L → (g.addNode (ch q) m).look k = some L := by
      intro g q m h
      rw [Graph.look_addNode, if_neg (hkc q), h]
    have gl : ∀ (g : Graph) (q : Spec.Quad) m, (g.addNode (ch q) m).isGlobal = g.isGlobal := fun _ _ _ => rfl
    simp only [gl, hg]
    rw [gn g hL, gn g hL, gn g hL, gn g hL, gn g hL]
    simp only [bind, Except.bind] at e' ⊢
    rw [eSw]
    simp only
    rw [gn _ (la _ .sw _ hL)]
    simp only
    rw [eNw]
    simp only
    rw [gn _ (la _ .nw _ (la _ .sw _ hL))]
    simp only
    rw [eNe]
    simp only
    rw [gn _ (la _ .ne _ (la _ .nw _ (la _ .sw _ hL)))]
    simp only
    rw [eSe]
    exact e'
  · -- exactness
    have child_notin : ∀ d q, ch q ∉ L d := by
      intro d q h
      obtain ⟨r, hr, -⟩ := hLcell d _ h
      exact old_ne _ r hr q rfl
    have stepAll_child : ∀ q m, stepAll k ch L cf (ch q) m = m := by
      intro q m
      simp [stepAll, stepU, stepV, child_notin]
    have l_new : ∀ q, g'.look (ch q) = some (cm q) := by
      intro q
      rw [l', if_neg (hkc q).symm, l4_new, Option.map_some, stepAll_child]
    have l_old : ∀ j, j ≠ k → (∀ q, j ≠ ch q) → g'.look j = (g.look j).map (stepAll k ch L cf j) := by
      intro j h1 h2
      rw [l', if_neg h1, l4_old j h2]
    have l_k : g'.look k = none := by rw [l', if_pos rfl]
    -- what the live cells are
    have live : ∀ i r, replaced cell k K ch i = some r →
        (∃ q, i = ch q ∧ r = K.quarter q) ∨ (i ≠ k ∧ (∀ q, i ≠ ch q) ∧ cell i = some r) := by
      intro i r hi
      by_cases h1 : i = k
      · subst h1; rw [replaced_self] at hi; cases hi
      · by_cases h2 : ∃ q, i = ch q
        · obtain ⟨q, rfl⟩ := h2
          rw [replaced_child hinj hkc] at hi; cases hi
          exact Or.inl ⟨q, rfl, rfl⟩
        · have h2' : ∀ q, i ≠ ch q := fun q h => h2 ⟨q, h⟩
          rw [replaced_other h1 h2'] at hi
          exact Or.inr ⟨h1, h2', hi⟩
    have main : ∀ i m a d, g'.look i = some m → replaced cell k K ch i = some a → ∀ x,
        (m d).count x = ind (∃ b, replaced cell k K ch x = some b ∧ Adj glob d a b) := by
      intro i m a d hm ha x
      rcases live i a ha with ⟨q, rfl, rfl⟩ | ⟨h1, h2, hi⟩
      · rw [l_new q] at hm; cases hm
        have hspec : ChildSpec ch L (cf (ch q)) q (cm q) := by
          cases q <;> assumption
        exact child_count hk hK hinj hfresh hdis hE.ok hLc (fun x b e hb => (hcaseNO x b q hb).2 e) hspec d x
      · rw [l_old i h1 h2] at hm
        obtain ⟨m0, hm0⟩ := look_old i a hi
        rw [hm0, Option.map_some] at hm; cases hm
        exact old_count hk hK hinj hfresh (hE.ok i a hi) (hE.disjoint i k a K h1 hi hk) hdis hE.ok
          (fun d => hopp i m0 d a hm0 hi) (fun q e => (hcaseON i a q hi).2 e) (fun e x => Exact.count hE hm0 hi e x) d x
    have keys : ∀ i, (g'.look i).isSome ↔ (replaced cell k K ch i).isSome := by
      intro i
      by_cases h1 : i = k
      · subst h1; rw [l_k, replaced_self]; simp
      · by_cases h2 : ∃ q, i = ch q
        · obtain ⟨q, rfl⟩ := h2
          rw [l_new, replaced_child hinj hkc]; simp
        · have h2' : ∀ q, i ≠ ch q := fun q h => h2 ⟨q, h⟩
          rw [l_old i h1 h2', replaced_other h1 h2', ← hE.keys i]; simp
    constructor
    · exact keys
    · intro i r hi
      rcases live i r hi with ⟨q, -, rfl⟩ | ⟨-, -, hi⟩
      · exact quarter_ok hK q
      · exact hE.ok i r hi
    · intro i j a b hij ha hb
      rcases live i a ha with ⟨q, rfl, rfl⟩ | ⟨h1, h2, hi⟩ <;> rcases live j b hb with ⟨q', rfl, rfl⟩ | ⟨h1', h2', hj⟩
      · exact quarters_disjoint hK.1 (fun h => hij (by rw [h]))
      · exact fun h => hdis j b h1' hj (quarter_overlap hK.1 h)
      · exact fun h => hdis i a h1 hi (quarter_overlap hK.1 (overlap_comm.1 h))
      · exact hE.disjoint i j a b hij hi hj
    · intro i m d hm
      obtain ⟨a, ha⟩ := Option.isSome_iff_exists.1 ((keys i).1 (by simp [hm]))
      exact (nodup_mem_of_count (main i m a d hm ha)).1
    · intro i m d j a hm ha
      exact (nodup_mem_of_count (main i m a d hm ha)).2 j

end Verif
