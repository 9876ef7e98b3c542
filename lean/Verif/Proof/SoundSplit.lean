import Verif.Proof.SplitExact2

/-!
# `split_and_replace` keeps a well-formed graph well-formed

Unlike `SplitExact`, nothing is assumed about which neighbours the code can see: it only has to be right
about those it sees.  Needed for regions that cross the antimeridian.
-/

namespace Verif
open Spec Classical

namespace Spec

/-- A well-formed neighbour graph for a mesh whose live cells are given by `cell`: it has a node for
exactly the live cells, which are pairwise interior-disjoint; no neighbour is listed twice under one direction;
every listed neighbour is a live cell that touches in that direction, and lists the cell in the opposite direction.
Touching is in the sense of `T`, on rectangles that satisfy `ok`. -/
structure SoundBy (ok : Rect → Prop) (T : Dir → Rect → Rect → Prop) (cell : ℕ → Option Rect) (nbrs : ℕ → Option NMap) : Prop where
  keys : ∀ i, (nbrs i).isSome ↔ (cell i).isSome
  pos : ∀ i r, cell i = some r → ok r
  disjoint : ∀ i j a b, i ≠ j → cell i = some a → cell j = some b → ¬ a.Overlap b
  nodup : ∀ i m d, nbrs i = some m → (m d).Nodup
  touch : ∀ i m d j, nbrs i = some m → j ∈ m d → ∃ a b, cell i = some a ∧ cell j = some b ∧ T d a b
  symm : ∀ i m d j, nbrs i = some m → j ∈ m d → ∃ m', nbrs j = some m' ∧ i ∈ m' d.opp

/-- A well-formed neighbour graph in the plane. -/
abbrev Sound (cell : ℕ → Option Rect) (nbrs : ℕ → Option NMap) : Prop := SoundBy Rect.Pos Touches cell nbrs

end Spec

theorem touches_unique {a b : Rect} (ha : a.Pos) (hb : b.Pos) {d d' : Dir} (h : Touches d a b) (h' : Touches d' a b) : d = d' := by
  obtain ⟨a1, a2⟩ := ha
  obtain ⟨b1, b2⟩ := hb
  revert h h'
  cases d <;> cases d' <;> simp only [Touches, sideRel, hSide, vSide, reduceCtorEq, imp_false, implies_true] <;> grind

theorem touches_corner_unique {K r r' : Rect} (q : Spec.Quad) (hr : r.Pos) (hr' : r'.Pos)
    (h : Touches (Quad.corner q) K r) (h' : Touches (Quad.corner q) K r') : r.Overlap r' := by
  obtain ⟨r1, r2⟩ := hr
  obtain ⟨r1', r2'⟩ := hr'
  simp only [Rect.Overlap]
  revert h h'
  cases q <;> simp only [Quad.corner, Touches, sideRel, hSide, vSide] <;> grind

theorem not_touches_self {K : Rect} (hK : K.Pos) (d : Dir) : ¬ Touches d K K := by
  obtain ⟨k1, k2⟩ := hK
  cases d <;> simp only [Touches, sideRel, hSide, vSide] <;> grind

theorem touches_inner {K : Rect} (hK : K.Pos) {q q' : Spec.Quad} {e : Dir} (h : Quad.inner q q' = some e) :
    Touches e (K.quarter q) (K.quarter q') := by
  obtain ⟨k1, k2⟩ := hK
  revert h
  cases q <;> cases q' <;> cases e <;>
    simp only [Quad.inner, Touches, sideRel, hSide, vSide, Rect.quarter, Option.some.injEq, reduceCtorEq] <;> grind

theorem touches_outer_corner {K r : Rect} (q : Spec.Quad) :
    Touches (Quad.corner q) (K.quarter q) r ↔ Touches (Quad.corner q) K r := by
  cases q <;> simp only [Quad.corner, Touches, sideRel, hSide, vSide, Rect.quarter]

theorem inner_opp {q q' : Spec.Quad} {e : Dir} (h : Quad.inner q q' = some e) : Quad.inner q' q = some e.opp := by
  revert h
  cases q <;> cases q' <;> cases e <;> simp [Quad.inner, Dir.opp]

theorem inner_outer_none {q q' : Spec.Quad} {e : Dir} (h : Quad.inner q q' = some e) : e ≠ Quad.corner q ∧ Quad.outer q e = none := by
  revert h
  cases q <;> cases q' <;> cases e <;> simp [Quad.inner, Quad.corner, Quad.outer]

theorem outer_side {q : Spec.Quad} {e d : Dir} (h : Quad.outer q e = some d) (hc : e ≠ Quad.corner q) :
    d = Quad.hDir q ∨ d = Quad.vDir q := by
  revert h hc
  cases q <;> cases e <;> cases d <;> simp [Quad.outer, Quad.corner, Quad.hDir, Quad.vDir]

/-- A direction in which the neighbours of the parent seen from the quarter `q` lie. -/
def Quad.On (q : Spec.Quad) (d : Dir) : Prop := d = Quad.corner q ∨ d = Quad.hDir q ∨ d = Quad.vDir q

theorem outer_on {q : Spec.Quad} {e d : Dir} (h : Quad.outer q e = some d) : Quad.On q d := by
  revert h
  unfold Quad.On
  cases q <;> cases e <;> cases d <;> simp [Quad.outer, Quad.corner, Quad.hDir, Quad.vDir]

/-- A direction with east and west exchanged. -/
def Dir.mirror : Dir → Dir
  | .north => .north | .south => .south | .east => .west | .west => .east
  | .northEast => .northWest | .northWest => .northEast | .southEast => .southWest | .southWest => .southEast

theorem on_mirror {q : Spec.Quad} {d : Dir} (h : Quad.On q d) (h' : Quad.On q d.mirror) : d = d.mirror := by
  revert h h'
  unfold Quad.On
  cases q <;> cases d <;> simp [Dir.mirror, Quad.corner, Quad.hDir, Quad.vDir]

/-- What is needed of the sense of touching for splits to keep graphs well-formed. -/
structure TouchLaws (ok : Rect → Prop) (T : Dir → Rect → Rect → Prop) : Prop where
  pos : ∀ {r}, ok r → r.Pos
  quarter : ∀ {K} q, ok K → ok (K.quarter q)
  opp : ∀ d a b, T d.opp b a ↔ T d a b
  self : ∀ {K}, ok K → ∀ d, ¬ T d K K
  corner : ∀ {K r r'} q, ok r → ok r' → T (Quad.corner q) K r → T (Quad.corner q) K r' → r.Overlap r'
  apart : ∀ {K r d d'}, ok K → ok r → d' ≠ d.mirror → T d K r → T d' K r → d = d'
  inner : ∀ {K q q' e}, ok K → Quad.inner q q' = some e → T e (K.quarter q) (K.quarter q')
  outer_corner : ∀ {K r} q, T (Quad.corner q) (K.quarter q) r ↔ T (Quad.corner q) K r
  of_quarter : ∀ {e K r q}, ok r → ok K → ¬ K.Overlap r → T e (K.quarter q) r → ∃ d, Quad.outer q e = some d ∧ T d K r

theorem planar_laws : TouchLaws Rect.Pos Touches where
  pos h := h
  quarter q h := quarter_pos h q
  opp := touches_opp
  self h d := not_touches_self h d
  corner q h h' := touches_corner_unique q h h'
  apart hK hr _ h h' := touches_unique hK hr h h'
  inner h hi := touches_inner h hi
  outer_corner q := touches_outer_corner q
  of_quarter hr hK hno h := touches_of_quarter _ _ _ _ hr hK hno h

/-- Around the cylinder a cell may be seen east and west of another at once, but not, for instance, north and north-east of it. -/
theorem adj_apart {K r : Rect} {d d' : Dir} (hK : CellOK true K) (hr : CellOK true r) (hd : d' ≠ d.mirror)
    (h : Adj true d K r) (h' : Adj true d' K r) : d = d' := by
  obtain ⟨⟨k1, k2⟩, k3, k4, k5⟩ := hK
  obtain ⟨⟨r1, r2⟩, r3, r4, r5⟩ := hr
  have k6 := k5 rfl
  have r6 := r5 rfl
  obtain ⟨t, ht, h⟩ := h
  obtain ⟨t', ht', h'⟩ := h'
  simp only [turns, if_true, List.mem_cons, List.not_mem_nil, or_false] at ht ht'
  obtain ⟨h1, h2⟩ := h
  obtain ⟨h1', h2'⟩ := h'
  cases d <;> cases d' <;> (try rfl) <;> (try exact absurd rfl hd)
  all_goals exfalso
  all_goals simp only [sideRel, hSide, vSide, Rect.shift] at h1 h2 h1' h2'
  all_goals first
    | linarith
    | (rcases ht with rfl | rfl | rfl <;> rcases ht' with rfl | rfl | rfl <;> linarith)

theorem ring_laws : TouchLaws (CellOK true) (Adj true) where
  pos h := h.1
  quarter q h := quarter_ok h q
  opp := adj_opp true
  self h d := not_adj_self h d
  corner q h h' := corner_unique q h h'
  apart := adj_apart
  inner h hi := (adj_quarters h _ _ _).2 hi
  outer_corner q := adj_outer_corner q
  of_quarter hr hK hno h := adj_of_quarter hr hK hno h

/-- The old cell `j` lists the quarter `q` under `e` after the split. -/
def OldEdge (L : NMap) (cfj : Option Dir) (j : ℕ) (e : Dir) (q : Spec.Quad) : Prop :=
  (e = (Quad.corner q).opp ∧ j ∈ L (Quad.corner q)) ∨ ((j ∈ L (Quad.hDir q) ∨ j ∈ L (Quad.vDir q)) ∧ cfj = some e)

/-- Multiplicities in the list of an old cell after the split. -/
theorem old_count_sound {k : ℕ} {ch : Spec.Quad → ℕ} (hinj : Function.Injective ch) (hkc : ∀ q, k ≠ ch q)
    {L : NMap} {cf : ℕ → ℕ → Option Dir} {j : ℕ} {m : NMap}
    (hu : ∀ d d', d' ≠ d.mirror → j ∈ L d → j ∈ L d' → d = d')
    (hmk : ∀ e, (m e).count k = ind (j ∈ L e.opp))
    (hfr : ∀ e q, (m e).count (ch q) = 0)
    (hcorner : ∀ q x, x ≠ k → j ∈ L (Quad.corner q) → (m (Quad.corner q).opp).count x = 0) (e : Dir) (x : ℕ) :
    (x = k → (stepAll k ch L cf j m e).count x = 0) ∧
    (∀ q, x = ch q → (stepAll k ch L cf j m e).count x = ind (OldEdge L (cf j (ch q)) j e q)) ∧
    (x ≠ k → (∀ q, x ≠ ch q) → (stepAll k ch L cf j m e).count x = (m e).count x) := by
  unfold stepAll
  simp only [count_stepV, count_stepU]
  refine ⟨?_, ?_, ?_⟩
  · rintro rfl
    have hkn : ∀ q, (x = ch q) = False := fun q => by simp [hkc q]
    have hkA : ∀ d, (x = nbA ch d) = False := fun d => by cases d <;> exact hkn _
    have hkB : ∀ d, (x = nbB ch d) = False := fun d => by cases d <;> exact hkn _
    simp only [hkn, hkA, hkB, hmk, and_true, and_false]
    cases e <;> simp [Quad.corner, Dir.opp, ind] <;> grind
  · rintro q rfl
    have hne : (ch q = k) = False := by simp [(hkc q).symm]
    simp only [hne, hfr, and_false]
    have hcA : ∀ d, (j ∈ L d ∧ cf j (nbA ch d) = some e ∧ ch q = nbA ch d) ↔
        (ch q = nbA ch d ∧ j ∈ L d ∧ cf j (ch q) = some e) := by
      intro d
      constructor
      · rintro ⟨h1, h2, h3⟩; exact ⟨h3, h1, h3 ▸ h2⟩
      · rintro ⟨h3, h1, h2⟩; exact ⟨h1, h3 ▸ h2, h3⟩
    have hcB : ∀ d, (j ∈ L d ∧ cf j (nbB ch d) = some e ∧ ch q = nbB ch d) ↔
        (ch q = nbB ch d ∧ j ∈ L d ∧ cf j (ch q) = some e) := by
      intro d
      constructor
      · rintro ⟨h1, h2, h3⟩; exact ⟨h3, h1, h3 ▸ h2⟩
      · rintro ⟨h3, h1, h2⟩; exact ⟨h1, h3 ▸ h2, h3⟩
    simp only [hcA, hcB]
    unfold OldEdge
    have u : ∀ d d', d' ≠ d.mirror → d ≠ d' → j ∈ L d → j ∉ L d' := fun d d' h1 h2 h h' => h2 (hu d d' h1 h h')
    have u1 := u .north .east (by decide) (by decide)
    have u2 := u .north .west (by decide) (by decide)
    have u3 := u .south .east (by decide) (by decide)
    have u4 := u .south .west (by decide) (by decide)
    have v1 := fun q => u (Quad.corner q) .north (by cases q <;> decide) (by cases q <;> decide)
    have v2 := fun q => u (Quad.corner q) .east (by cases q <;> decide) (by cases q <;> decide)
    have v3 := fun q => u (Quad.corner q) .south (by cases q <;> decide) (by cases q <;> decide)
    have v4 := fun q => u (Quad.corner q) .west (by cases q <;> decide) (by cases q <;> decide)
    have w1 := v1 .nw
    have w2 := v1 .ne
    have w3 := v1 .sw
    have w4 := v1 .se
    have w5 := v2 .nw
    have w6 := v2 .ne
    have w7 := v2 .sw
    have w8 := v2 .se
    have x1 := v3 .nw
    have x2 := v3 .ne
    have x3 := v3 .sw
    have x4 := v3 .se
    have x5 := v4 .nw
    have x6 := v4 .ne
    have x7 := v4 .sw
    have x8 := v4 .se
    clear v1 v2 v3 v4 u
    simp only [Quad.corner] at w1 w2 w3 w4 w5 w6 w7 w8 x1 x2 x3 x4 x5 x6 x7 x8
    generalize (cf j (ch q) = some e) = A
    clear hcA hcB hne hu hmk hfr hcorner
    cases q <;> cases e <;> simp [Quad.corner, Quad.hDir, Quad.vDir, Dir.opp, ind, nbA, nbB, hinj.eq_iff] <;> grind
  · intro hxk hxc
    have hxn : ∀ q, (x = ch q) = False := fun q => by simp [hxc q]
    have hxA : ∀ d, (x = nbA ch d) = False := fun d => by cases d <;> exact hxn _
    have hxB : ∀ d, (x = nbB ch d) = False := fun d => by cases d <;> exact hxn _
    simp only [hxn, hxA, hxB, hxk, and_false]
    have c1 := hcorner .nw x hxk
    have c2 := hcorner .ne x hxk
    have c3 := hcorner .sw x hxk
    have c4 := hcorner .se x hxk
    cases e <;> simp [Quad.corner, Dir.opp, ind] at * <;> grind

/-- **`split_and_replace` keeps the neighbour graph well-formed**, if the neighbour cases the code computes
for the quarters and the old neighbours are right when there is one, and the same from both sides. -/
theorem splitGraph_sound {ok : Rect → Prop} {T : Dir → Rect → Rect → Prop} (hT : TouchLaws ok T) (cell : ℕ → Option Rect) (g : Graph)
    (hE : SoundBy ok T cell g.look) (k : ℕ) (K : Rect) (hk : cell k = some K)
    (ch : Spec.Quad → ℕ) (hfresh : ∀ q, cell (ch q) = none) (hinj : Function.Injective ch) (bnd : ℕ → Py Boundary)
    (cf : ℕ → ℕ → Option Dir)
    (hcON : ∀ i r q, cell i = some r → Graph.caseAt g.isGlobal bnd i (ch q) = .ok (cf i (ch q)))
    (hcNO : ∀ i r q, cell i = some r → Graph.caseAt g.isGlobal bnd (ch q) i = .ok (cf (ch q) i))
    (hsym : ∀ i r q e, cell i = some r → (cf (ch q) i = some e ↔ cf i (ch q) = some e.opp))
    (hright : ∀ i r q d e, cell i = some r → T d K r → (d = Quad.hDir q ∨ d = Quad.vDir q) → cf i (ch q) = some e →
      T e r (K.quarter q)) :
    ∃ g', MeshBuilder.splitGraph bnd g k (ch .nw) (ch .ne) (ch .sw) (ch .se) = .ok g' ∧ g'.isGlobal = g.isGlobal ∧
      SoundBy ok T (replaced cell k K ch) g'.look ∧
      (∀ i m d j, i ≠ k → (∀ q, i ≠ ch q) → g.look i = some m → j ≠ k → j ∈ m d → ∃ m', g'.look i = some m' ∧ j ∈ m' d) ∧
      (∀ L, g.look k = some L → ∀ q, ∃ m', g'.look (ch q) = some m' ∧ ∀ e x,
        (x ∈ L (Quad.corner q) ∧ e = Quad.corner q) ∨
        (e ≠ Quad.corner q ∧ ∃ d, Quad.outer q e = some d ∧ x ∈ L d ∧ cf (ch q) x = some e) ∨
        (∃ q', Quad.inner q q' = some e ∧ x = ch q') → x ∈ m' e) := by
  have hK := hE.pos k K hk
  have hkc : ∀ q, k ≠ ch q := by
    intro q h
    have := hfresh q
    rw [← h, hk] at this; cases this
  obtain ⟨L, hL⟩ : ∃ L, g.look k = some L := Option.isSome_iff_exists.1 ((hE.keys k).2 (by simp [hk]))
  have hdis : ∀ x b, x ≠ k → cell x = some b → ¬ K.Overlap b := fun x b hx hb => hE.disjoint k x K b hx.symm hk hb
  have hLcell : ∀ d, ∀ i ∈ L d, ∃ r, cell i = some r ∧ T d K r := by
    intro d i hi
    obtain ⟨a, b, ha, hb, ht⟩ := hE.touch k L d i hL hi
    rw [hk] at ha; cases ha
    exact ⟨b, hb, ht⟩
  have hself : ∀ d, k ∉ L d := by
    intro d h
    obtain ⟨r, hr, ht⟩ := hLcell d k h
    rw [hk] at hr; cases hr
    exact hT.self hK d ht
  have look_old : ∀ i r, cell i = some r → ∃ m, g.look i = some m := by
    intro i r hi
    exact Option.isSome_iff_exists.1 ((hE.keys i).2 (by simp [hi]))
  have old_ne : ∀ i r, cell i = some r → ∀ q, i ≠ ch q := by
    rintro i r hi q rfl
    rw [hfresh] at hi; cases hi
  have hopp : ∀ i m d, g.look i = some m → (k ∈ m d ↔ i ∈ L d.opp) := by
    intro i m d hm
    constructor
    · intro h
      obtain ⟨m', h1, h2⟩ := hE.symm i m d k hm h
      rw [hL] at h1; cases h1; exact h2
    · intro h
      obtain ⟨m', h1, h2⟩ := hE.symm k L d.opp i hL h
      rw [hm] at h1; cases h1
      rwa [Dir.opp_opp] at h2
  have hLu : ∀ j d d', d' ≠ d.mirror → j ∈ L d → j ∈ L d' → d = d' := by
    intro j d d' hd h h'
    obtain ⟨r, hr, ht⟩ := hLcell d j h
    obtain ⟨r', hr', ht'⟩ := hLcell d' j h'
    rw [hr] at hr'; cases hr'
    exact hT.apart hK (hE.pos j r hr) hd ht ht'
  obtain ⟨⟨mSw, eSw, cSw⟩, ⟨mNw, eNw, cNw⟩, ⟨mNe, eNe, cNe⟩, ⟨mSe, eSe, cSe⟩⟩ :=
    childMaps_ok (glob := g.isGlobal) (bnd := bnd) (ch := ch) (L := L) (cf := fun q i => cf (ch q) i) (by
      intro q d i hi
      obtain ⟨r, hr, -⟩ := hLcell d i hi
      exact hcNO i r q hr)
  let g4 := (((g.addNode (ch .sw) mSw).addNode (ch .nw) mNw).addNode (ch .ne) mNe).addNode (ch .se) mSe
  let cm : Spec.Quad → NMap := fun q => match q with | .sw => mSw | .nw => mNw | .ne => mNe | .se => mSe
  have l4_old : ∀ j, (∀ q, j ≠ ch q) → g4.look j = g.look j := by
    intro j hj
    simp [g4, Graph.look_addNode, hj]
  have l4_new : ∀ q, g4.look (ch q) = some (cm q) := by
    intro q
    cases q <;> simp [g4, cm, Graph.look_addNode, hinj.eq_iff]
  obtain ⟨g', e', i', l'⟩ := updates_ok (glob := g.isGlobal) (bnd := bnd) (g := g4) (k := k) (ch := ch) (L := L) (cf := cf)
    rfl (by rw [l4_old k hkc, hL]) (fun d => hE.nodup k L d hL) hself
    (by
      intro d i hi
      obtain ⟨r, hr, ha⟩ := hLcell d i hi
      obtain ⟨m, hm⟩ := look_old i r hr
      refine ⟨m, by rw [l4_old i (old_ne i r hr), hm], ?_⟩
      rw [hopp i m _ hm, Dir.opp_opp]; exact hi)
    hkc
    (by
      intro q i hi j hj
      obtain ⟨r, hr, ha⟩ := hLcell _ i hi
      obtain ⟨r', hr', ha'⟩ := hLcell _ j hj
      by_contra hne
      exact hE.disjoint i j r r' hne hr hr' (hT.corner q (hE.pos i r hr) (hE.pos j r' hr') ha ha'))
    (by
      intro d i hi q
      obtain ⟨r, hr, -⟩ := hLcell d i hi
      exact hcON i r q hr)
  refine ⟨g', ?_, i', ?_⟩
  · unfold MeshBuilder.splitGraph
    have gn : ∀ (g : Graph), g.look k = some L → ∀ d, g.getNeighbours k d = .ok (L d) := fun g h d => Graph.getNeighbours_ok h d
    have la : ∀ (g : Graph) (q : Spec.Quad) m, g.look k = some L → (g.addNode (ch q) m).look k = some L := by
      intro g q m h
      rw [Graph.look_addNode, if_neg (hkc q), h]
    have gl : ∀ (g : Graph) (q : Spec.Quad) m, (g.addNode (ch q) m).isGlobal = g.isGlobal := fun _ _ _ => rfl
    simp only [gl]
    rw [gn g hL, gn g hL, gn g hL, gn g hL, gn g hL]
    simp only [bind, Except.bind] at e' ⊢
    rw [eSw]
    simp only
    rw [gn _ (la _ .sw _ hL)]
    simp only
    rw [eNw]
    simp only
    rw [gn _ (la _ .nw _ (la _ .sw _ hL))]
    simp only
    rw [eNe]
    simp only
    rw [gn _ (la _ .ne _ (la _ .nw _ (la _ .sw _ hL)))]
    simp only
    rw [eSe]
    exact e'
  · have child_notin : ∀ d q, ch q ∉ L d := by
      intro d q h
      obtain ⟨r, hr, -⟩ := hLcell d _ h
      exact old_ne _ r hr q rfl
    have stepAll_child : ∀ q m, stepAll k ch L cf (ch q) m = m := by
      intro q m
      simp [stepAll, stepU, stepV, child_notin]
    have l_new : ∀ q, g'.look (ch q) = some (cm q) := by
      intro q
      rw [l', if_neg (hkc q).symm, l4_new, Option.map_some, stepAll_child]
    have l_old : ∀ j, j ≠ k → (∀ q, j ≠ ch q) → g'.look j = (g.look j).map (stepAll k ch L cf j) := by
      intro j h1 h2
      rw [l', if_neg h1, l4_old j h2]
    have l_k : g'.look k = none := by rw [l', if_pos rfl]
    have keys : ∀ i, (g'.look i).isSome ↔ (replaced cell k K ch i).isSome := by
      intro i
      by_cases h1 : i = k
      · subst h1; rw [l_k, replaced_self]; simp
      · by_cases h2 : ∃ q, i = ch q
        · obtain ⟨q, rfl⟩ := h2
          rw [l_new, replaced_child hinj hkc]; simp
        · have h2' : ∀ q, i ≠ ch q := fun q h => h2 ⟨q, h⟩
          rw [l_old i h1 h2', replaced_other h1 h2', ← hE.keys i]; simp
    have live : ∀ i r, replaced cell k K ch i = some r →
        (∃ q, i = ch q ∧ r = K.quarter q) ∨ (i ≠ k ∧ (∀ q, i ≠ ch q) ∧ cell i = some r) := by
      intro i r hi
      by_cases h1 : i = k
      · subst h1; rw [replaced_self] at hi; cases hi
      · by_cases h2 : ∃ q, i = ch q
        · obtain ⟨q, rfl⟩ := h2
          rw [replaced_child hinj hkc] at hi; cases hi
          exact Or.inl ⟨q, rfl, rfl⟩
        · have h2' : ∀ q, i ≠ ch q := fun q h => h2 ⟨q, h⟩
          rw [replaced_other h1 h2'] at hi
          exact Or.inr ⟨h1, h2', hi⟩
    -- the lists of an old cell
    have oldList : ∀ i m0 r, g.look i = some m0 → cell i = some r → i ≠ k → ∀ e,
        (stepAll k ch L cf i m0 e).Nodup ∧ ∀ x, x ∈ stepAll k ch L cf i m0 e ↔
          (x ≠ k ∧ (∀ q, x ≠ ch q) ∧ x ∈ m0 e) ∨ ∃ q, x = ch q ∧ OldEdge L (cf i (ch q)) i e q := by
      intro i m0 r hm hi hik e
      have hcnt := fun x => old_count_sound (m := m0) (j := i) (cf := cf) hinj hkc (L := L) (fun d d' => hLu i d d')
        (by
          intro e
          rw [(hE.nodup i m0 e hm).count]
          unfold ind
          by_cases h : k ∈ m0 e
          · rw [if_pos h, if_pos ((hopp i m0 e hm).1 h)]
          · rw [if_neg h, if_neg (fun h' => h ((hopp i m0 e hm).2 h'))])
        (by
          intro e q
          rw [List.count_eq_zero]
          intro h
          obtain ⟨a, b, -, hb, -⟩ := hE.touch i m0 e _ hm h
          rw [hfresh] at hb; cases hb)
        (by
          intro q x hx hc
          rw [List.count_eq_zero]
          intro h
          obtain ⟨a, b, ha, hb, ht⟩ := hE.touch i m0 _ x hm h
          rw [hi] at ha; cases ha
          obtain ⟨r', hr', ht'⟩ := hLcell _ i hc
          rw [hi] at hr'; cases hr'
          have ht'' := (hT.opp _ _ _).2 ht'
          have hov : b.Overlap K := by
            have hq : ∃ q', (Quad.corner q).opp = Quad.corner q' := by
              cases q
              · exact ⟨.se, rfl⟩
              · exact ⟨.sw, rfl⟩
              · exact ⟨.ne, rfl⟩
              · exact ⟨.nw, rfl⟩
            obtain ⟨q', hq'⟩ := hq
            rw [hq'] at ht ht''
            exact hT.corner q' (hE.pos x b hb) hK ht ht''
          exact hE.disjoint x k b K hx hb hk hov) e x
      constructor
      · rw [List.nodup_iff_count]
        intro x
        by_cases h1 : x = k
        · rw [(hcnt x).1 h1]; omega
        · by_cases h2 : ∃ q, x = ch q
          · obtain ⟨q, hq⟩ := h2
            rw [(hcnt x).2.1 q hq]; unfold ind; split <;> omega
          · rw [(hcnt x).2.2 h1 (fun q h => h2 ⟨q, h⟩)]
            exact List.nodup_iff_count.1 (hE.nodup i m0 e hm) x
      · intro x
        rw [← List.count_pos_iff]
        by_cases h1 : x = k
        · rw [(hcnt x).1 h1]
          subst h1
          simp only [lt_self_iff_false, ne_eq, not_true, false_and, false_or, false_iff, not_exists, not_and]
          intro q hq; exact absurd hq (hkc q)
        · by_cases h2 : ∃ q, x = ch q
          · obtain ⟨q, rfl⟩ := h2
            rw [(hcnt (ch q)).2.1 q rfl]
            unfold ind
            constructor
            · intro h
              right
              refine ⟨q, rfl, ?_⟩
              by_contra hc
              rw [if_neg hc] at h; omega
            · rintro (⟨-, h, -⟩ | ⟨q', h, ho⟩)
              · exact absurd rfl (h q)
              · rw [hinj h, if_pos ho]; omega
          · have h2' : ∀ q, x ≠ ch q := fun q h => h2 ⟨q, h⟩
            rw [(hcnt x).2.2 h1 h2', List.count_pos_iff]
            constructor
            · intro h; exact Or.inl ⟨h1, h2', h⟩
            · rintro (⟨-, -, h⟩ | ⟨q, h, -⟩)
              · exact h
              · exact absurd h (h2' q)
    -- the lists of a quarter
    have hspec : ∀ q, ChildSpec ch L (cf (ch q)) q (cm q) := by
      intro q
      cases q <;> assumption
    have newList : ∀ q e, (cm q e).Nodup ∧ ∀ x, x ∈ cm q e ↔
        (x ∈ L (Quad.corner q) ∧ e = Quad.corner q) ∨
        (e ≠ Quad.corner q ∧ ∃ d, Quad.outer q e = some d ∧ x ∈ L d ∧ cf (ch q) x = some e) ∨
        (∃ q', Quad.inner q q' = some e ∧ x = ch q') := by
      intro q e
      have hc := hspec q e
      by_cases h1 : e = Quad.corner q
      · simp only [h1, if_true] at hc ⊢
        constructor
        · rw [List.nodup_iff_count]; intro x; rw [hc x]; exact List.nodup_iff_count.1 (hE.nodup k L _ hL) x
        · intro x
          rw [← List.count_pos_iff, hc x, List.count_pos_iff]
          simp only [ne_eq, not_true, false_and, and_true, false_or]
          constructor
          · exact Or.inl
          · rintro (h | ⟨q', h, -⟩)
            · exact h
            · exact absurd rfl (inner_outer_none h).1
      · simp only [h1, if_false] at hc
        rcases ho : Quad.outer q e with _ | d
        · simp only [ho] at hc
          obtain ⟨n1, n2⟩ := nodup_mem_of_count hc
          refine ⟨n1, fun x => ?_⟩
          rw [n2 x]
          simp [h1]
        · simp only [ho] at hc
          constructor
          · rw [List.nodup_iff_count]; intro x; rw [hc x]
            exact List.nodup_iff_count.1 ((hE.nodup k L d hL).filter _) x
          · intro x
            rw [← List.count_pos_iff, hc x, List.count_pos_iff, List.mem_filter]
            simp only [h1, and_false, false_or, ne_eq, not_false_eq_true, true_and, Option.some.injEq, exists_eq_left', decide_eq_true_eq]
            constructor
            · exact Or.inl
            · rintro (h | ⟨q', h, -⟩)
              · exact h
              · have := (inner_outer_none h).2
                rw [ho] at this; cases this
    -- edges between an old cell and a quarter, from both sides
    have edge : ∀ i r q e, cell i = some r → (OldEdge L (cf i (ch q)) i e q ↔ i ∈ cm q e.opp) := by
      intro i r q e hi
      have hnot : ∀ q', i ≠ ch q' := old_ne i r hi
      rw [(newList q e.opp).2 i]
      unfold OldEdge
      have hcop : Quad.outer q (Quad.corner q) = some (Quad.corner q) := by cases q <;> rfl
      constructor
      · rintro (⟨rfl, h⟩ | ⟨h, hcf⟩)
        · exact Or.inl ⟨h, by rw [Dir.opp_opp]⟩
        · right; left
          have hd : ∃ d, i ∈ L d ∧ (d = Quad.hDir q ∨ d = Quad.vDir q) := by
            rcases h with h | h
            · exact ⟨_, h, Or.inl rfl⟩
            · exact ⟨_, h, Or.inr rfl⟩
          obtain ⟨d, hid, hside⟩ := hd
          obtain ⟨r', hr', ht⟩ := hLcell d i hid
          rw [hi] at hr'; cases hr'
          have hTe := hright i r q d e hi ht hside hcf
          have hTe' := (hT.opp _ _ _).2 hTe
          have hik : i ≠ k := by rintro rfl; exact hself d hid
          obtain ⟨d', ho, ht'⟩ := hT.of_quarter (hE.pos i r hi) hK (hdis i r hik hi) hTe'
          have hdd : d = d' := by
            have hon : Quad.On q d := hside.elim (fun h => Or.inr (Or.inl h)) (fun h => Or.inr (Or.inr h))
            by_cases hm : d' = d.mirror
            · rw [hm]; exact on_mirror hon (hm ▸ outer_on ho)
            · exact hT.apart hK (hE.pos i r hi) hm ht ht'
          subst hdd
          refine ⟨?_, d, ho, hid, ?_⟩
          · intro hc
            rw [hc, hcop] at ho
            rw [← Option.some.inj ho] at hside
            revert hside
            cases q <;> simp [Quad.corner, Quad.hDir, Quad.vDir]
          · rw [hsym i r q _ hi, Dir.opp_opp]; exact hcf
      · rintro (⟨h, hc⟩ | ⟨hc, d, ho, hid, hcf⟩ | ⟨q', -, h⟩)
        · exact Or.inl ⟨by rw [← hc, Dir.opp_opp], h⟩
        · right
          rw [hsym i r q _ hi, Dir.opp_opp] at hcf
          refine ⟨?_, hcf⟩
          rcases outer_side ho hc with rfl | rfl
          · exact Or.inl hid
          · exact Or.inr hid
        · exact absurd h (hnot q')
    have edgeTouch : ∀ i r q e, cell i = some r → OldEdge L (cf i (ch q)) i e q → T e r (K.quarter q) := by
      intro i r q e hi h
      rcases h with ⟨rfl, h⟩ | ⟨h, hcf⟩
      · obtain ⟨r', hr', ht⟩ := hLcell _ i h
        rw [hi] at hr'; cases hr'
        exact (hT.opp _ _ _).2 ((hT.outer_corner q).2 ht)
      · rcases h with h | h
        · obtain ⟨r', hr', ht⟩ := hLcell _ i h
          rw [hi] at hr'; cases hr'
          exact hright i r q _ e hi ht (Or.inl rfl) hcf
        · obtain ⟨r', hr', ht⟩ := hLcell _ i h
          rw [hi] at hr'; cases hr'
          exact hright i r q _ e hi ht (Or.inr rfl) hcf
    -- what a quarter lists
    have newCases : ∀ q e x, x ∈ cm q e → (∃ q', Quad.inner q q' = some e ∧ x = ch q') ∨
        (∃ r, cell x = some r ∧ x ≠ k ∧ OldEdge L (cf x (ch q)) x e.opp q) := by
      intro q e x hx
      have hL' : ∀ d, x ∈ L d → ∃ r, cell x = some r ∧ x ≠ k ∧ OldEdge L (cf x (ch q)) x e.opp q := by
        intro d hd
        obtain ⟨r, hr, -⟩ := hLcell d x hd
        refine ⟨r, hr, by rintro rfl; exact hself d hd, ?_⟩
        rw [edge x r q e.opp hr, Dir.opp_opp]; exact hx
      rcases ((newList q e).2 x).1 hx with ⟨h, -⟩ | ⟨-, d, -, h, -⟩ | h
      · exact Or.inr (hL' _ h)
      · exact Or.inr (hL' _ h)
      · exact Or.inl h
    have cases_node : ∀ i m, g'.look i = some m → (∃ q, i = ch q ∧ m = cm q) ∨
        (i ≠ k ∧ (∀ q, i ≠ ch q) ∧ ∃ m0 r, g.look i = some m0 ∧ cell i = some r ∧ m = stepAll k ch L cf i m0) := by
      intro i m hm
      obtain ⟨r, hr⟩ := Option.isSome_iff_exists.1 ((keys i).1 (by simp [hm]))
      rcases live i r hr with ⟨q, rfl, -⟩ | ⟨h1, h2, hi⟩
      · rw [l_new] at hm; cases hm; exact Or.inl ⟨q, rfl, rfl⟩
      · obtain ⟨m0, hm0⟩ := look_old i r hi
        rw [l_old i h1 h2, hm0] at hm
        cases hm
        exact Or.inr ⟨h1, h2, m0, r, hm0, hi, rfl⟩
    refine ⟨?_, ?_, ?_⟩
    case refine_2 =>
      intro i m d j h1 h2 hm hjk hj
      obtain ⟨r, hr⟩ := Option.isSome_iff_exists.1 ((hE.keys i).1 (by simp [hm]))
      obtain ⟨-, b, -, hb, -⟩ := hE.touch i m d j hm hj
      exact ⟨_, by rw [l_old i h1 h2, hm]; rfl, ((oldList i m r hm hr h1 d).2 j).2 (Or.inl ⟨hjk, old_ne j b hb, hj⟩)⟩
    case refine_3 =>
      intro L' hL' q
      rw [hL] at hL'
      cases hL'
      exact ⟨cm q, l_new q, fun e x h => ((newList q e).2 x).2 h⟩
    constructor
    · exact keys
    · intro i r hi
      rcases live i r hi with ⟨q, -, rfl⟩ | ⟨-, -, hi⟩
      · exact hT.quarter q hK
      · exact hE.pos i r hi
    · intro i j a b hij ha hb
      rcases live i a ha with ⟨q, rfl, rfl⟩ | ⟨h1, h2, hi⟩ <;> rcases live j b hb with ⟨q', rfl, rfl⟩ | ⟨h1', h2', hj⟩
      · exact quarters_disjoint (hT.pos hK) (fun h => hij (by rw [h]))
      · exact fun h => hdis j b h1' hj (quarter_overlap (hT.pos hK) h)
      · exact fun h => hdis i a h1 hi (quarter_overlap (hT.pos hK) (overlap_comm.1 h))
      · exact hE.disjoint i j a b hij hi hj
    · intro i m d hm
      rcases cases_node i m hm with ⟨q, rfl, rfl⟩ | ⟨h1, h2, m0, r, hm0, hi, rfl⟩
      · exact (newList q d).1
      · exact (oldList i m0 r hm0 hi h1 d).1
    · intro i m d j hm hj
      rcases cases_node i m hm with ⟨q, rfl, rfl⟩ | ⟨h1, h2, m0, r, hm0, hi, rfl⟩
      · refine ⟨K.quarter q, ?_⟩
        rcases newCases q d j hj with ⟨q', hq', rfl⟩ | ⟨r, hr, hjk, ho⟩
        · exact ⟨K.quarter q', replaced_child hinj hkc q, replaced_child hinj hkc q', hT.inner hK hq'⟩
        · refine ⟨r, replaced_child hinj hkc q, by rw [replaced_other hjk (old_ne j r hr), hr], ?_⟩
          have := (hT.opp _ _ _).2 (edgeTouch j r q _ hr ho)
          rwa [Dir.opp_opp] at this
      · refine ⟨r, ?_⟩
        rcases ((oldList i m0 r hm0 hi h1 d).2 j).1 hj with ⟨hjk, hjc, hj⟩ | ⟨q, rfl, ho⟩
        · obtain ⟨a, b, ha, hb, ht⟩ := hE.touch i m0 d j hm0 hj
          rw [hi] at ha; cases ha
          exact ⟨b, by rw [replaced_other h1 h2, hi], by rw [replaced_other hjk hjc, hb], ht⟩
        · exact ⟨K.quarter q, by rw [replaced_other h1 h2, hi], replaced_child hinj hkc q, edgeTouch i r q d hi ho⟩
    · intro i m d j hm hj
      rcases cases_node i m hm with ⟨q, rfl, rfl⟩ | ⟨h1, h2, m0, r, hm0, hi, rfl⟩
      · rcases newCases q d j hj with ⟨q', hq', rfl⟩ | ⟨r, hr, hjk, ho⟩
        · exact ⟨cm q', l_new q', ((newList q' d.opp).2 _).2 (Or.inr (Or.inr ⟨q, inner_opp hq', rfl⟩))⟩
        · obtain ⟨m0, hm0⟩ := look_old j r hr
          exact ⟨_, by rw [l_old j hjk (old_ne j r hr), hm0]; rfl, ((oldList j m0 r hm0 hr hjk d.opp).2 _).2 (Or.inr ⟨q, rfl, ho⟩)⟩
      · rcases ((oldList i m0 r hm0 hi h1 d).2 j).1 hj with ⟨hjk, hjc, hj⟩ | ⟨q, rfl, ho⟩
        · obtain ⟨m1, hm1, hi1⟩ := hE.symm i m0 d j hm0 hj
          obtain ⟨a, b, -, hb, -⟩ := hE.touch i m0 d j hm0 hj
          exact ⟨_, by rw [l_old j hjk hjc, hm1]; rfl, ((oldList j m1 b hm1 hb hjk d.opp).2 i).2 (Or.inl ⟨h1, h2, hi1⟩)⟩
        · exact ⟨cm q, l_new q, (edge i r q d hi).1 ho⟩

/-- Between cells whose rectangles satisfy `G`, every touching cell is listed. -/
def Spec.Lists (G : Rect → Prop) (cell : ℕ → Option Rect) (nbrs : ℕ → Option NMap) : Prop :=
  ∀ i j a b d m, cell i = some a → cell j = some b → G a → G b → Touches d a b → nbrs i = some m → j ∈ m d

/-- Quarters that touch each other are those the code links. -/
theorem inner_of_touches {K : Rect} (hK : K.Pos) {q q' : Spec.Quad} {e : Dir} (h : Touches e (K.quarter q) (K.quarter q')) :
    Quad.inner q q' = some e := by
  obtain ⟨k1, k2⟩ := hK
  revert h
  cases q <;> cases q' <;> cases e <;>
    simp only [Quad.inner, Touches, sideRel, hSide, vSide, Rect.quarter, Option.some.injEq, reduceCtorEq] <;> grind

/-- What a split leaves listed, between cells that satisfy `G`: enough is that the parent of a quarter with `G` has `G`, and that the code sees
the neighbours with `G` of a quarter with `G`. -/
theorem lists_split {G : Rect → Prop} {cell : ℕ → Option Rect} {g g' : Graph} {k : ℕ} {K : Rect} {ch : Spec.Quad → ℕ} {cf : ℕ → ℕ → Option Dir}
    (hE : Sound cell g.look) (hF : Lists G cell g.look) (hk : cell k = some K) (hfresh : ∀ q, cell (ch q) = none) (hinj : Function.Injective ch)
    (hS : Sound (replaced cell k K ch) g'.look)
    (hold : ∀ i m d j, i ≠ k → (∀ q, i ≠ ch q) → g.look i = some m → j ≠ k → j ∈ m d → ∃ m', g'.look i = some m' ∧ j ∈ m' d)
    (hnew : ∀ L, g.look k = some L → ∀ q, ∃ m', g'.look (ch q) = some m' ∧ ∀ e x,
      (x ∈ L (Quad.corner q) ∧ e = Quad.corner q) ∨
      (e ≠ Quad.corner q ∧ ∃ d, Quad.outer q e = some d ∧ x ∈ L d ∧ cf (ch q) x = some e) ∨
      (∃ q', Quad.inner q q' = some e ∧ x = ch q') → x ∈ m' e)
    (hpar : ∀ q, G (K.quarter q) → G K)
    (hsee : ∀ i r q e, cell i = some r → G r → G (K.quarter q) → Touches e (K.quarter q) r → cf (ch q) i = some e) :
    Lists G (replaced cell k K ch) g'.look := by
  have hK := hE.pos k K hk
  have hkc : ∀ q, k ≠ ch q := by
    intro q h
    have := hfresh q
    rw [← h, hk] at this; cases this
  obtain ⟨L, hL⟩ : ∃ L, g.look k = some L := Option.isSome_iff_exists.1 ((hE.keys k).2 (by simp [hk]))
  have live : ∀ i r, replaced cell k K ch i = some r →
      (∃ q, i = ch q ∧ r = K.quarter q) ∨ (i ≠ k ∧ (∀ q, i ≠ ch q) ∧ cell i = some r) := by
    intro i r hi
    by_cases h1 : i = k
    · subst h1; rw [replaced_self] at hi; cases hi
    · by_cases h2 : ∃ q, i = ch q
      · obtain ⟨q, rfl⟩ := h2
        rw [replaced_child hinj hkc] at hi; cases hi
        exact Or.inl ⟨q, rfl, rfl⟩
      · have h2' : ∀ q, i ≠ ch q := fun q h => h2 ⟨q, h⟩
        rw [replaced_other h1 h2'] at hi
        exact Or.inr ⟨h1, h2', hi⟩
  -- a quarter lists an old cell
  have main : ∀ q j b d m, cell j = some b → j ≠ k → G (K.quarter q) → G b → Touches d (K.quarter q) b → g'.look (ch q) = some m → j ∈ m d := by
    intro q j b d m hj hjk hq hb ht hm
    obtain ⟨d', ho, ht'⟩ := touches_of_quarter d K b q (hE.pos j b hj) hK (hE.disjoint k j K b hjk.symm hk hj) ht
    have hjL : j ∈ L d' := hF k j K b d' L hk hj (hpar q hq) hb ht' hL
    obtain ⟨m', h1, h2⟩ := hnew L hL q
    rw [hm] at h1
    cases h1
    apply h2 d j
    by_cases hc : d = Quad.corner q
    · left
      refine ⟨?_, hc⟩
      have hcop : Quad.outer q (Quad.corner q) = some (Quad.corner q) := by cases q <;> rfl
      rw [hc, hcop] at ho
      rwa [Option.some.inj ho]
    · exact Or.inr (Or.inl ⟨hc, d', ho, hjL, hsee j b q d hj hb hq ht⟩)
  intro i j a b d m hi hj ha hb ht hm
  rcases live i a hi with ⟨q, rfl, rfl⟩ | ⟨h1, h2, hi'⟩ <;> rcases live j b hj with ⟨q', rfl, rfl⟩ | ⟨h1', h2', hj'⟩
  · obtain ⟨m', e1, e2⟩ := hnew L hL q
    rw [hm] at e1
    cases e1
    exact e2 d _ (Or.inr (Or.inr ⟨q', inner_of_touches hK ht, rfl⟩))
  · exact main q j b d m hj' h1' ha hb ht hm
  · obtain ⟨m', e1, -⟩ := hnew L hL q'
    have := main q' i a d.opp m' hi' h1 hb ha ((touches_opp _ _ _).2 ht) e1
    obtain ⟨m2, e2, e3⟩ := hS.symm _ _ _ _ e1 this
    rw [hm] at e2
    cases e2
    rwa [Dir.opp_opp] at e3
  · obtain ⟨m0, hm0⟩ := Option.isSome_iff_exists.1 ((hE.keys i).2 (by simp [hi']))
    obtain ⟨m', e1, e2⟩ := hold i m0 d j h1 h2 hm0 h1' (hF i j a b d m0 hi' hj' ha hb ht hm0)
    rw [hm] at e1
    cases e1
    exact e2

end Verif
