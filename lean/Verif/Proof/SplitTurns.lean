import Verif.Proof.FaithfulValues

/-!
# Depth-limited splitting, one data source after the other

What one pass over the cells makes of them, and what all passes together do, also where sources prevent splitting.
-/

namespace Verif
open Spec

variable {D : Type}

/-! ## Specification -/

/-- The boxes that come about from `cells` by dividing, above the depth `sd`, what is to be divided; with their depths. -/
inductive Spec.DividedFrom (parts : Boundary → List Boundary) (wants : Boundary → Prop) (sd : ℕ) (cells : ℕ → Boundary → Prop) : ℕ → Boundary → Prop
  | cell {k : ℕ} {q : Boundary} : cells k q → DividedFrom parts wants sd cells k q
  | quarter {k : ℕ} {q q' : Boundary} : DividedFrom parts wants sd cells k q → k < sd → wants q → q' ∈ parts q → DividedFrom parts wants sd cells (k + 1) q'

/-- The boxes that are left at the end of this. -/
def Spec.turn (parts : Boundary → List Boundary) (wants : Boundary → Prop) (sd : ℕ) (cells : ℕ → Boundary → Prop) (k : ℕ) (q : Boundary) : Prop :=
  DividedFrom parts wants sd cells k q ∧ (sd ≤ k ∨ ¬ wants q)

/-- The sources take turns: in the turn of a source the boxes are divided as it and those `before` it want it together. -/
def Spec.byTurns {σ : Type} (parts : Boundary → List Boundary) (wants : List σ → Boundary → Prop) (sd : ℕ) :
    List σ → List σ → (ℕ → Boundary → Prop) → ℕ → Boundary → Prop
  | _, [], cells => cells
  | before, s :: rest, cells => byTurns parts wants sd (before ++ [s]) rest (turn parts (wants (before ++ [s])) sd cells)

/-! ## One pass -/

/-- The chains of boxes that come about from given ones. -/
inductive Grown (ops : DataOps D) (asks : Boundary → D → Prop) (sd : ℕ) (cells : List (Boundary × D) → Prop) : List (Boundary × D) → Prop
  | cell {t : List (Boundary × D)} : cells t → Grown ops asks sd cells t
  | part {b q : Boundary} {d : D} {t : List (Boundary × D)} : Grown ops asks sd cells ((b, d) :: t) → t.length < sd →
      asks b d → PartOf q b → Grown ops asks sd cells ((q, ops.trim q d) :: (b, d) :: t)

/-- The chains of the cells of a mesh. -/
def chainsOf (m : MeshState D) (t : List (Boundary × D)) : Prop := ∃ j c, Live m j c ∧ c.chain = t

/-- The chains that are left at the end. -/
def Ended (ops : DataOps D) (asks : Boundary → D → Prop) (sd : ℕ) (cells : List (Boundary × D) → Prop) (t : List (Boundary × D)) : Prop :=
  Grown ops asks sd cells t ∧ ∀ q d u, t = (q, d) :: u → sd ≤ u.length ∨ ¬ asks q d

/-- What is known of a mesh during a pass. -/
structure Turning (ops : DataOps D) (asks : Boundary → D → Prop) (sd : ℕ) (cells : List (Boundary × D) → Prop) (m : MeshState D) : Prop where
  sound : ∀ j c, Live m j c → c.depth = c.anc.length ∧ Grown ops asks sd cells c.chain
  start : ∀ t, cells t → Visited m t
  closed : ∀ b d t, Grown ops asks sd cells ((b, d) :: t) → Visited m ((b, d) :: t) → (∃ j c, Live m j c ∧ c.chain = (b, d) :: t) ∨
    ∀ q, PartOf q b → Visited m ((q, ops.trim q d) :: (b, d) :: t)

theorem Turning.split {ops : DataOps D} {asks : Boundary → D → Prop} {sd : ℕ} {cells : List (Boundary × D) → Prop}
    {m m1 : MeshState D} {k : ℕ} {c : CellBox D} (hm : Turning ops asks sd cells m) (hk : Live m k c) (hd : c.depth < sd)
    (ha : asks c.bounds c.data) (hs : MeshBuilder.splitAndReplace ops m k = .ok m1) : Turning ops asks sd cells m1 := by
  obtain ⟨h1, h2, h3⟩ := split_chains hk hs
  obtain ⟨k1, k3⟩ := hm.sound k c hk
  have hsome : ∃ q, PartOf q c.bounds := by
    obtain ⟨c', new, g, hk', hsp, -, -⟩ := splitAndReplace_inv hs
    have : c' = c := by unfold Live at hk hk'; rw [hk] at hk'; simpa using hk'.symm
    subst this
    have hparts := split_parts hsp
    obtain ⟨nw, ne, sw, se, rfl, -⟩ := split_shape hsp
    exact ⟨nw.bounds, (hparts _).2 ⟨nw, by simp, rfl⟩⟩
  have hmono : ∀ t, Visited m t → Visited m1 t := by
    rintro t ⟨j, x, hl, ht⟩
    by_cases hj : j = k
    · subst hj
      have : x = c := by unfold Live at hk hl; rw [hk] at hl; simpa using hl.symm
      subst this
      obtain ⟨q, hq⟩ := hsome
      obtain ⟨j', y, hy, hch⟩ := h3 q hq
      refine ⟨j', y, hy, ?_⟩
      rw [hch]
      exact ht.trans (List.suffix_cons ..)
    · exact ⟨j, x, h2 j x hj hl, ht⟩
  refine ⟨?_, fun b hb => hmono _ (hm.start b hb), ?_⟩
  · intro j q hl
    rcases h1 j q hl with ⟨-, hl'⟩ | ⟨hp, hdep, hch⟩
    · exact hm.sound j q hl'
    · have e : q.anc = c.chain := by
        have := congrArg List.tail hch
        simpa [CellBox.chain] using this
      refine ⟨by rw [hdep, e, k1]; simp [CellBox.chain], ?_⟩
      rw [hch]
      exact .part k3 (by omega) ha hp
  · intro b d t hg hv
    have key : Visited m ((b, d) :: t) → (∃ j c, Live m1 j c ∧ c.chain = (b, d) :: t) ∨
        ∀ q, PartOf q b → Visited m1 ((q, ops.trim q d) :: (b, d) :: t) := by
      intro hv'
      rcases hm.closed b d t hg hv' with ⟨j, x, hl, hch⟩ | h
      · by_cases hj : j = k
        · subst hj
          have : x = c := by unfold Live at hk hl; rw [hk] at hl; simpa using hl.symm
          subst this
          right
          intro q hq
          have e : (b, d) = (x.bounds, x.data) := by
            have := congrArg List.head? hch
            simpa [CellBox.chain] using this.symm
          cases e
          obtain ⟨j', y, hy, hch'⟩ := h3 q hq
          exact ⟨j', y, hy, by rw [hch', hch]⟩
        · exact Or.inl ⟨j, x, h2 j x hj hl, hch⟩
      · exact Or.inr (fun q hq => hmono _ (h q hq))
    obtain ⟨j, x, hl, ht⟩ := hv
    rcases h1 j x hl with ⟨-, hl'⟩ | ⟨hp, -, hch⟩
    · exact key ⟨j, x, hl', ht⟩
    · rw [hch] at ht
      rcases List.suffix_cons_iff.1 ht with h | h
      · exact Or.inl ⟨j, x, hl, by rw [hch, h]⟩
      · exact key ⟨k, c, hk, h⟩

/-- One pass, exactly. -/
theorem splitPass_exact {ops : DataOps D} {sd index fuel : ℕ} {m m' : MeshState D}
    (hdep : ∀ j c, Live m j c → c.depth = c.anc.length)
    (hanti : ∀ t u, chainsOf m t → chainsOf m u → t <:+ u → t = u)
    (h : MeshBuilder.splitPass ops sd index fuel 0 m = .ok m') (t : List (Boundary × D)) :
    chainsOf m' t ↔ Ended ops (fun q d => ops.shouldSplit (index + 1) q d = .ok true) sd (chainsOf m) t := by
  have hT : Turning ops (fun q d => ops.shouldSplit (index + 1) q d = .ok true) sd (chainsOf m) m' := by
    refine splitPass_induct (P := Turning ops (fun q d => ops.shouldSplit (index + 1) q d = .ok true) sd (chainsOf m)) ?_ fuel 0 m m' ?_ h
    · intro m k c m1 hP hl hd hask hs
      exact hP.split hl hd hask hs
    · refine ⟨fun j c hl => ⟨hdep j c hl, .cell ⟨j, c, hl, rfl⟩⟩, ?_, ?_⟩
      · rintro t ⟨j, c, hl, rfl⟩
        exact ⟨j, c, hl, List.suffix_refl _⟩
      · rintro b d t hg ⟨j, c, hl, ht⟩
        -- a grown chain that is part of a cell's chain is that chain
        have : ∀ u, Grown ops (fun q d => ops.shouldSplit (index + 1) q d = .ok true) sd (chainsOf m) u → ∃ v, chainsOf m v ∧ v <:+ u := by
          intro u hu
          induction hu with
          | cell h => exact ⟨_, h, List.suffix_refl _⟩
          | part _ _ _ _ ih =>
            obtain ⟨v, h1, h2⟩ := ih
            exact ⟨v, h1, h2.trans (List.suffix_cons ..)⟩
        obtain ⟨v, hv, hvt⟩ := this _ hg
        have e := hanti v c.chain hv ⟨j, c, hl, rfl⟩ (hvt.trans ht)
        refine Or.inl ⟨j, c, hl, ?_⟩
        rw [← e] at ht ⊢
        exact hvt.eq_of_length (le_antisymm hvt.length_le ht.length_le)
  have hset := splitPass_settled fuel 0 m m' (by intro j c h; omega) h
  have hgrown : ∀ u, Grown ops (fun q d => ops.shouldSplit (index + 1) q d = .ok true) sd (chainsOf m) u →
      ∃ v, chainsOf m v ∧ v <:+ u ∧ ∀ q d w, (q, d) :: w <:+ u.tail → v <:+ (q, d) :: w →
        w.length < sd ∧ ops.shouldSplit (index + 1) q d = .ok true := by
    intro u hu
    induction hu with
    | @cell t h =>
      refine ⟨t, h, List.suffix_refl _, ?_⟩
      intro q d w h1 h2
      exfalso
      have l1 := h1.length_le
      have l2 := h2.length_le
      obtain ⟨j, c, -, rfl⟩ := h
      simp only [CellBox.chain, List.tail_cons, List.length_cons] at l1 l2
      omega
    | @part b q' d' t' hch hlt ha hq ih =>
      obtain ⟨v, h1, h2, h3⟩ := ih
      refine ⟨v, h1, h2.trans (List.suffix_cons ..), ?_⟩
      intro q d w h4 h5
      rcases List.suffix_cons_iff.1 h4 with h'' | h''
      · cases h''; exact ⟨hlt, ha⟩
      · exact h3 q d w h'' h5
  constructor
  · rintro ⟨j, c, hl, rfl⟩
    obtain ⟨s1, s2⟩ := hT.sound j c hl
    refine ⟨s2, ?_⟩
    intro q d u e
    simp only [CellBox.chain, List.cons.injEq, Prod.mk.injEq] at e
    obtain ⟨⟨rfl, rfl⟩, rfl⟩ := e
    rcases hset j c hl with h' | h'
    · left; rw [← s1]; exact h'
    · right; show ¬ ops.shouldSplit _ _ _ = _; rw [h']; simp
  · rintro ⟨hch, hend⟩
    have hvis : ∀ t, Grown ops (fun q d => ops.shouldSplit (index + 1) q d = .ok true) sd (chainsOf m) t → Visited m' t := by
      intro t ht
      induction ht with
      | cell hb => exact hT.start _ hb
      | @part b q d t hch hlt ha hq ih =>
        rcases hT.closed b d t hch ih with ⟨j, c, hl, hc⟩ | h'
        · exfalso
          obtain ⟨s1, -⟩ := hT.sound j c hl
          have e : (c.bounds, c.data) = (b, d) ∧ c.anc = t := by simpa [CellBox.chain] using hc
          obtain ⟨e1, e2⟩ := e
          cases e1
          rcases hset j c hl with h'' | h''
          · rw [s1, e2] at h''; omega
          · rw [ha] at h''; cases h''
        · exact h' q hq
    obtain ⟨j, c, hl, hsuf⟩ := hvis _ hch
    rcases List.suffix_cons_iff.1 hsuf with h' | h'
    · exact ⟨j, c, hl, h'.symm⟩
    · exfalso
      obtain ⟨s1, s2⟩ := hT.sound j c hl
      obtain ⟨v, v1, v2, v3⟩ := hgrown _ s2
      obtain ⟨v', v1', v2', -⟩ := hgrown _ hch
      have hne : t ≠ [] := by
        rintro rfl
        have : v' = [] := by simpa using v2'
        subst this
        obtain ⟨j, c, -, e⟩ := v1'
        cases e
      obtain ⟨⟨q, d⟩, u, rfl⟩ := List.exists_cons_of_ne_nil hne
      have hvv : v <:+ (q, d) :: u := by
        rcases List.suffix_or_suffix_of_suffix v2 hsuf with h | h
        · exact h
        · have := hanti v' v v1' v1 (v2'.trans h)
          subst this
          exact v2'
      obtain ⟨k1, k2⟩ := v3 q d u (by simpa [CellBox.chain] using h') hvv
      rcases hend q d u rfl with h'' | h''
      · omega
      · exact h'' k2

/-- What all passes make of the chains. -/
def chainTurns (ops : DataOps D) (sd : ℕ) : List ℕ → ℕ → (List (Boundary × D) → Prop) → List (Boundary × D) → Prop
  | [], _, cells => cells
  | n :: rest, index, cells => chainTurns ops sd rest (index + 1)
      (if n > 0 then Ended ops (fun q d => ops.shouldSplit (index + 1) q d = .ok true) sd cells else cells)

theorem splitSources_exact {ops : DataOps D} {sd fuel : ℕ} {J : MeshState D → Prop}
    (hJ : ∀ m k m1, J m → MeshBuilder.splitAndReplace ops m k = .ok m1 → J m1)
    (hdep : ∀ m, J m → ∀ j c, Live m j c → c.depth = c.anc.length)
    (hanti : ∀ m, J m → ∀ t u, chainsOf m t → chainsOf m u → t <:+ u → t = u) :
    ∀ (conds : List ℕ) (index : ℕ) (m m' : MeshState D), J m → MeshBuilder.splitSources ops sd fuel conds index m = .ok m' →
      chainsOf m' = chainTurns ops sd conds index (chainsOf m) := by
  intro conds
  induction conds with
  | nil => intro index m m' _ h; cases h; rfl
  | cons n rest ih =>
    intro index m m' hm h
    unfold MeshBuilder.splitSources at h
    simp only [bind, Except.bind] at h
    unfold chainTurns
    by_cases hn : n > 0
    · simp only [hn, if_true] at h ⊢
      rcases hp : MeshBuilder.splitPass ops sd index fuel 0 m with e | m1
      · rw [hp] at h; cases h
      · rw [hp] at h
        have hm1 : J m1 := splitPass_induct (fun m k c m1 hP _ _ _ hs => hJ m k m1 hP hs) fuel 0 m m1 hm hp
        rw [ih (index + 1) m1 m' hm1 h]
        congr 1
        funext t
        exact propext (splitPass_exact (hdep m hm) (hanti m hm) hp t)
    · simp only [hn, if_false] at h ⊢
      exact ih (index + 1) m m' hm h

/-! ## Sources whose verdicts are known -/

variable {S C : Type}

/-- Some of the sources finds the box inhomogeneous, and none of them prevents splitting it. -/
def Divides (verdict : Source S C → Boundary → C → Verdict) (l : List (Source S C)) (q : Boundary) : Prop :=
  (∀ s ∈ l, ∀ c ∈ s.conds, verdict s q c = .clr ∨ verdict s q c = .het) ∧ Wants verdict l q

theorem proper_point {q : Boundary} (h : ProperBox q) : ∃ x y, HCovers q x y := by
  obtain ⟨⟨v1, v2, v3, v4, v5, -⟩, hn, hl⟩ := h
  refine ⟨eastEdge q, q.latMax, ⟨0, ?_, by simp⟩, hl, le_rfl⟩
  unfold eastEdge
  split_ifs with hlt
  · simpa using hlt
  · have : q.longMin < q.longMax + 360 := by
      by_contra hge
      exact hn ⟨by linarith [not_lt.1 hge], by linarith [not_lt.1 hge]⟩
    simpa using this

section Generic

variable {b : Boundary} {W H : ℚ} {In start : Boundary → Prop} {parts : Boundary → List Boundary} {full : List (Source S C)} {verdict : Source S C → Boundary → C → Verdict}

theorem decision_divides (hf : ∀ s ∈ full, FaithfulOn In s (verdict s)) {q : Boundary} (hq : In q) (n : ℕ) (hn : n ≤ full.length) :
    shouldSplit n q (trimSources q full) = .ok true ↔ Divides verdict (full.take n) q := by
  obtain ⟨r, hr, -⟩ := faithful_decision hf hq n hn
  have htake : (trimSources q full).take n = (full.take n).map (fun s => { s with subset := s.loader.trim q s.subset }) := by
    unfold trimSources; rw [List.map_take]
  have hverd : ∀ s ∈ full, ∀ c ∈ s.conds, s.loader.homCond q c (s.loader.trim q s.subset) = .ok (verdict s q c) :=
    fun s hs c hc => (hf s hs).decides q hq c hc
  rw [hr, Except.ok.injEq, (C28_split_iff hr).2, htake]
  constructor
  · rintro ⟨h1, s', hs', c, hc, v, hv, hne⟩
    have hall : ∀ s ∈ full.take n, ∀ c ∈ s.conds, verdict s q c = .clr ∨ verdict s q c = .het := by
      intro s hs c hc
      have hsf := List.mem_of_mem_take hs
      have hno : ¬ (verdict s q c = .hom ∨ verdict s q c = .min) := by
        intro h
        refine h1 ⟨_, List.mem_map.2 ⟨s, hs, rfl⟩, c, hc, ?_⟩
        show s.loader.homCond q c (s.loader.trim q s.subset) = _ ∨ s.loader.homCond q c (s.loader.trim q s.subset) = _
        rw [hverd s hsf c hc]
        rcases h with h | h <;> rw [h] <;> simp
      cases hvv : verdict s q c <;> simp_all
    refine ⟨hall, ?_⟩
    obtain ⟨s, hs, rfl⟩ := List.mem_map.1 hs'
    have hsf := List.mem_of_mem_take hs
    simp only at hc hv
    rw [hverd s hsf c hc] at hv
    cases hv
    exact ⟨s, hs, c, hc, (hall s hs c hc).resolve_left hne⟩
  · rintro ⟨h1, s, hs, c, hc, hv⟩
    have hsf := List.mem_of_mem_take hs
    refine ⟨?_, _, List.mem_map.2 ⟨s, hs, rfl⟩, c, hc, .het, ?_, by simp⟩
    · rintro ⟨s', hs', c', hc', h⟩
      obtain ⟨s, hs, rfl⟩ := List.mem_map.1 hs'
      have hsf' := List.mem_of_mem_take hs
      simp only at hc' h
      rw [hverd s hsf' c' hc'] at h
      rcases h1 s hs c' hc' with h' | h' <;> rw [h'] at h <;> rcases h with h | h <;> cases h
    · rw [hverd s hsf c hc, hv]

/-- A set of chains and a set of boxes with depths say the same. -/
def SameBoxes (In : Boundary → Prop) (full : List (Source S C)) (X : List (Boundary × List (Source S C)) → Prop) (Y : ℕ → Boundary → Prop) : Prop :=
  (∀ t, X t → ∃ q u, t = (q, trimSources q full) :: u ∧ In q ∧ Y u.length q) ∧
    ∀ k q, Y k q → In q ∧ ∃ u, u.length = k ∧ X ((q, trimSources q full) :: u)

theorem SameBoxes.ended (hf : ∀ s ∈ full, FaithfulOn In s (verdict s)) (hS : BoxSystem b W H In start parts) {sd : ℕ}
    {X : List (Boundary × List (Source S C)) → Prop} {Y : ℕ → Boundary → Prop} (h : SameBoxes In full X Y)
    {asks : Boundary → List (Source S C) → Prop} {wants : Boundary → Prop} (haw : ∀ q, In q → (asks q (trimSources q full) ↔ wants q)) :
    SameBoxes In full (Ended (sourceOps S C) asks sd X) (turn parts wants sd Y) := by
  have h1 : ∀ t, Grown (sourceOps S C) asks sd X t → ∃ q u, t = (q, trimSources q full) :: u ∧ In q ∧ DividedFrom parts wants sd Y u.length q := by
    intro t ht
    induction ht with
    | cell hx =>
      obtain ⟨q, u, e, hq, hy⟩ := h.1 _ hx
      exact ⟨q, u, e, hq, .cell hy⟩
    | @part p q d t hch hlt ha hq ih =>
      obtain ⟨p', u, e, hp', hd⟩ := ih
      simp only [List.cons.injEq, Prod.mk.injEq] at e
      obtain ⟨⟨rfl, rfl⟩, rfl⟩ := e
      have hq' := (hS.part_iff _ _ hp').1 hq
      obtain ⟨k1, k2⟩ := hS.within _ _ hp' hq'
      refine ⟨q, (p, trimSources p full) :: t, ?_, k1, .quarter hd hlt ((haw p hp').1 ha) hq'⟩
      rw [← faithful_part hf hp' k1 k2]
      rfl
  have h2 : ∀ k q, DividedFrom parts wants sd Y k q → In q ∧ ∃ u, u.length = k ∧ Grown (sourceOps S C) asks sd X ((q, trimSources q full) :: u) := by
    intro k q hd
    induction hd with
    | cell hy =>
      obtain ⟨hq, u, e, hx⟩ := h.2 _ _ hy
      exact ⟨hq, u, e, .cell hx⟩
    | @quarter k q q' _ hk hw hq' ih =>
      obtain ⟨hq, u, e, hg⟩ := ih
      obtain ⟨k1, k2⟩ := hS.within _ _ hq hq'
      refine ⟨k1, (q, trimSources q full) :: u, by simp [e], ?_⟩
      rw [← faithful_part hf hq k1 k2]
      exact .part hg (by omega) ((haw q hq).2 hw) ((hS.part_iff _ _ hq).2 hq')
  constructor
  · rintro t ⟨ht, hend⟩
    obtain ⟨q, u, rfl, hq, hd⟩ := h1 t ht
    exact ⟨q, u, rfl, hq, hd, (hend _ _ _ rfl).imp id (fun h h' => h ((haw q hq).2 h'))⟩
  · rintro k q ⟨hd, hend⟩
    obtain ⟨hq, u, rfl, hg⟩ := h2 k q hd
    refine ⟨hq, u, rfl, hg, ?_⟩
    intro q' d' u' e
    simp only [List.cons.injEq, Prod.mk.injEq] at e
    obtain ⟨⟨rfl, rfl⟩, rfl⟩ := e
    exact hend.imp id (fun h h' => h ((haw q hq).1 h'))

/-- A turn in which nothing is divided. -/
theorem turn_idle {wants : Boundary → Prop} {sd : ℕ} {Y : ℕ → Boundary → Prop} (h : ∀ k q, Y k q → sd ≤ k ∨ ¬ wants q) :
    turn parts wants sd Y = Y := by
  funext k q
  apply propext
  constructor
  · rintro ⟨hd, -⟩
    induction hd with
    | cell hy => exact hy
    | quarter _ hk hw _ ih =>
      rcases h _ _ ih with h' | h'
      · omega
      · exact absurd hw h'
  · exact fun hy => ⟨.cell hy, h k q hy⟩

theorem chainTurns_boxes (hf : ∀ s ∈ full, FaithfulOn In s (verdict s)) (hS : BoxSystem b W H In start parts) {sd : ℕ} :
    ∀ (rest before : List (Source S C)) (X : List (Boundary × List (Source S C)) → Prop) (Y : ℕ → Boundary → Prop), full = before ++ rest →
      SameBoxes In full X Y → (∀ k q, Y k q → sd ≤ k ∨ ¬ Divides verdict before q) →
      SameBoxes In full (chainTurns (sourceOps S C) sd (rest.map (fun s => s.conds.length)) before.length X)
        (byTurns parts (Divides verdict) sd before rest Y) := by
  intro rest
  induction rest with
  | nil => intro before X Y _ h _; exact h
  | cons s rest ih =>
    intro before X Y e h hset
    simp only [List.map_cons]
    unfold chainTurns byTurns
    have e' : full = (before ++ [s]) ++ rest := by rw [e]; simp
    have hlen : (before ++ [s]).length = before.length + 1 := by simp
    rw [← hlen]
    refine ih (before ++ [s]) _ _ e' ?_ (fun k q hk => hk.2)
    by_cases hn : s.conds.length > 0
    · rw [if_pos hn]
      refine h.ended hf hS ?_
      intro q hq
      show shouldSplit _ q (trimSources q full) = .ok true ↔ _
      rw [decision_divides hf hq _ (by rw [e]; simp)]
      have : full.take (before.length + 1) = before ++ [s] := by rw [e', ← hlen, List.take_left]
      rw [hlen, this]
    · rw [if_neg hn]
      have hc : s.conds = [] := List.eq_nil_of_length_eq_zero (by omega)
      rw [turn_idle]
      · exact h
      · intro k q hk
        refine (hset k q hk).imp id (fun h1 h2 => h1 ?_)
        obtain ⟨g1, t, ht, c, hcc, hv⟩ := h2
        refine ⟨fun t ht => g1 t (by simp [ht]), t, ?_, c, hcc, hv⟩
        rcases List.mem_append.1 ht with ht | ht
        · exact ht
        · rw [List.mem_singleton] at ht
          subst ht
          rw [hc] at hcc
          cases hcc

/-- The cells are exactly the boxes that the sources, taking turns, leave of the grid. -/
theorem faithful_turns (hf : ∀ s ∈ full, FaithfulOn In s (verdict s)) (hin : ∀ q, In q → ProperBox q)
    (hS : BoxSystem b W H In start parts) (hp : ProperGrid b W H)
    (hh : b.latMin < b.latMax) (hcol : b.width = 360 → W ≤ 180)
    (hacc : MeshBuilder.validateBounds b W H = .ok ()) (depth sd : ℕ) :
    ∃ m0, MeshBuilder.init b W H (fun q => trimSources q full) depth = .ok m0 ∧ ∃ N m,
      (∀ fuel, N ≤ fuel → MeshBuilder.splitToDepth (sourceOps S C) fuel sd m0 = .ok m) ∧
      ∀ q k, (∃ i c, Live m i c ∧ c.bounds = q ∧ c.depth = k) ↔
        byTurns parts (Divides verdict) sd [] full (fun k q => k = 0 ∧ start q) k q := by
  obtain ⟨m0, h0, N, m, hrun⟩ := faithful_runs hf hS hp hh hcol hacc depth sd
  refine ⟨m0, h0, N, m, hrun, ?_⟩
  obtain ⟨roots, g, glob, -, hr, -, hm0⟩ := init_inv h0
  have hroots := hS.roots roots hr
  have hrunN := hrun N le_rfl
  have hhist : ∀ m, Reach (sourceOps S C) b W H (fun q => trimSources q full) depth m → ∀ j c, Live m j c →
      History (sourceOps S C) (fun q => trimSources q full) In c.bounds c.data c.anc ∧ c.depth = c.anc.length := by
    intro m hm j c hl
    refine ⟨reach_boxes hp hS hm hl, ?_⟩
    exact (reach_history_gen hp (fun _ => True) (fun _ _ _ _ _ => trivial) (fun _ _ _ _ _ _ _ _ _ => trivial) hm hl).2
  have hanti : ∀ m, Reach (sourceOps S C) b W H (fun q => trimSources q full) depth m → ∀ t u, chainsOf m t → chainsOf m u → t <:+ u → t = u := by
    rintro m hm t u ⟨i, c, hl, rfl⟩ ⟨j, c', hl', rfl⟩ hsuf
    obtain ⟨k1, k2⟩ := (hhist m hm j c' hl').1.all
    obtain ⟨x, y, hxy⟩ := proper_point (hin _ k1)
    have hcov : HCovers c.bounds x y := by
      have hmem : (c.bounds, c.data) ∈ c'.chain := hsuf.subset (by simp [CellBox.chain])
      rcases List.mem_cons.1 hmem with h | h
      · have : c.bounds = c'.bounds := congrArg Prod.fst h
        rw [this]; exact hxy
      · exact (k2 _ h).2.1 x y hxy
    have e := (C15_tiling_partial (sourceOps S C) b W H hp _ depth m hm).2.2 i j c c' x y hl hl' hcov hxy
    subst e
    have : c = c' := by unfold Live at hl hl'; rw [hl] at hl'; simpa using hl'
    rw [this]
  unfold MeshBuilder.splitToDepth at hrunN
  simp only [bind, Except.bind] at hrunN
  split at hrunN
  · cases hrunN
  · rename_i c0 hc0
    have hc0 := cellAt_ok_iff.1 hc0
    have hc0d : ((sourceOps S C).nConds c0.data) = full.map (fun s => s.conds.length) := by
      have : c0.data = trimSources c0.bounds full := by
        subst hm0
        obtain ⟨cb, -, rfl⟩ := live_init.1 hc0
        rfl
      simp only [sourceOps, this, trimSources, List.map_map, Function.comp_def]
    rw [hc0d] at hrunN
    have hX := splitSources_exact (J := Reach (sourceOps S C) b W H (fun q => trimSources q full) depth)
      (fun m k m1 ⟨m0', h0', hs⟩ he => ⟨m0', h0', .step k hs he⟩) (fun m hm j c hl => (hhist m hm j c hl).2) hanti _ 0 m0 m ⟨m0, h0, .refl m0⟩ hrunN
    have hsame : SameBoxes In full (chainsOf m0) (fun k q => k = 0 ∧ start q) := by
      subst hm0
      constructor
      · rintro t ⟨j, c, hl, rfl⟩
        obtain ⟨cb, hcb, rfl⟩ := live_init.1 hl
        have hs := (hroots _).1 (List.mem_of_getElem? hcb)
        exact ⟨cb, [], rfl, hS.first _ hs, rfl, hs⟩
      · rintro k q ⟨rfl, hq⟩
        obtain ⟨j, hj⟩ := List.mem_iff_getElem?.1 ((hroots _).2 hq)
        exact ⟨hS.first _ hq, [], rfl, j, _, live_init.2 ⟨q, hj, rfl⟩, rfl⟩
    have hfin := chainTurns_boxes hf hS full [] _ _ rfl hsame (sd := sd) (by
      rintro k q - 
      right
      rintro ⟨-, s, hs, -⟩
      cases hs)
    rw [List.length_nil, ← hX] at hfin
    have hreach : Reach (sourceOps S C) b W H (fun q => trimSources q full) depth m := splitToDepth_reach h0 (hrun N le_rfl)
    intro q k
    constructor
    · rintro ⟨i, c, hl, rfl, rfl⟩
      obtain ⟨q, u, e, -, hy⟩ := hfin.1 _ ⟨i, c, hl, rfl⟩
      simp only [CellBox.chain, List.cons.injEq, Prod.mk.injEq] at e
      obtain ⟨⟨rfl, -⟩, rfl⟩ := e
      rw [(hhist m hreach i c hl).2]
      exact hy
    · intro hy
      obtain ⟨-, u, rfl, i, c, hl, e⟩ := hfin.2 _ _ hy
      simp only [CellBox.chain, List.cons.injEq, Prod.mk.injEq] at e
      obtain ⟨⟨rfl, -⟩, rfl⟩ := e
      exact ⟨i, c, hl, rfl, (hhist m hreach i c hl).2⟩

/-- The same for the boxes of the finished mesh. -/
theorem turns_built {agg : CellBox (List (Source S C)) → Py (Dict String Val)} {config : MeshConfig} {em : EnvMesh} {m0 : MeshState (List (Source S C))} {depth N : ℕ}
    (hf : ∀ s ∈ full, FaithfulOn In s (verdict s)) (hin : ∀ q, In q → ProperBox q)
    (hS : BoxSystem b W H In start parts) (hp : ProperGrid b W H)
    (hh : b.latMin < b.latMax) (hcol : b.width = 360 → W ≤ 180)
    (hacc : MeshBuilder.validateBounds b W H = .ok ()) (h0 : MeshBuilder.init b W H (fun q => trimSources q full) depth = .ok m0)
    (hb : ∀ fuel, N ≤ fuel → MeshBuilder.buildEnvironmentalMesh (sourceOps S C) agg fuel config m0 = .ok em) (q : Boundary) :
    (∃ c ∈ em.cells, c.bounds = q) ↔ ∃ k, byTurns parts (Divides verdict) depth [] full (fun k q => k = 0 ∧ start q) k q := by
  obtain ⟨m0', h0', N', m, hrun, hm⟩ := faithful_turns hf hin hS hp hh hcol hacc depth depth
  have e0 : m0' = m0 := by rw [h0] at h0'; simpa using h0'.symm
  subst e0
  have hmax : m0'.maxDepth = depth := by
    obtain ⟨boxes, g, glob, -, -, -, rfl⟩ := init_inv h0; rfl
  have hem := hb (max N N') (by omega)
  unfold MeshBuilder.buildEnvironmentalMesh at hem
  rw [hmax, hrun (max N N') (by omega)] at hem
  have hreach : CellsOK b W H m := reach_cells (ops := sourceOps S C) hp (splitToDepth_reach h0 (hrun N' le_rfl))
  obtain ⟨-, -, -, -, hA, hB⟩ := toEnvMesh_ok hreach hem
  constructor
  · rintro ⟨c, hcm, rfl⟩
    obtain ⟨c0, hl, e, -⟩ := hA c hcm
    exact ⟨_, (hm _ _).1 ⟨_, c0, hl, e.symm, rfl⟩⟩
  · rintro ⟨k, hk⟩
    obtain ⟨i, c0, hl, e, -⟩ := (hm _ _).2 hk
    obtain ⟨a, ha, -, h2, -⟩ := hB i c0 hl
    exact ⟨a, ha, by rw [h2, e]⟩

end Generic

/-! ## Consequences -/

/-- Every box comes about by dividing boxes in the turn of a source, which it and those before it want together. -/
theorem byTurns_lineage {σ : Type} {parts : Boundary → List Boundary} {wants : List σ → Boundary → Prop} {sd : ℕ} {start : Boundary → Prop} :
    ∀ (rest before : List σ) (Y : ℕ → Boundary → Prop),
      (∀ k q, Y k q → ∃ anc, LineageBy parts start (q :: anc) ∧ anc.length = k ∧ ∀ p ∈ anc, ∃ l s r, before ++ rest = l ++ s :: r ∧ wants (l ++ [s]) p) →
      ∀ k q, byTurns parts wants sd before rest Y k q →
        ∃ anc, LineageBy parts start (q :: anc) ∧ anc.length = k ∧ ∀ p ∈ anc, ∃ l s r, before ++ rest = l ++ s :: r ∧ wants (l ++ [s]) p := by
  intro rest
  induction rest with
  | nil => intro before Y h k q hq; exact h k q hq
  | cons s rest ih =>
    intro before Y h k q hq
    have e : before ++ s :: rest = (before ++ [s]) ++ rest := by simp
    rw [e] at h ⊢
    refine ih (before ++ [s]) _ ?_ k q hq
    rintro k q ⟨hd, -⟩
    induction hd with
    | cell hy => exact h _ _ hy
    | @quarter k q q' _ _ hw hq' ih =>
      obtain ⟨anc, h1, h2, h3⟩ := ih
      refine ⟨q :: anc, .quarter h1 hq', by simp [h2], ?_⟩
      intro p hp
      rcases List.mem_cons.1 hp with rfl | hp
      · exact ⟨before, s, rest, by simp, hw⟩
      · exact h3 p hp

theorem byTurns_depth {σ : Type} {parts : Boundary → List Boundary} {wants : List σ → Boundary → Prop} {sd : ℕ} :
    ∀ (rest before : List σ) (Y : ℕ → Boundary → Prop), (∀ k q, Y k q → k ≤ sd) → ∀ k q, byTurns parts wants sd before rest Y k q → k ≤ sd := by
  intro rest
  induction rest with
  | nil => intro before Y h k q hq; exact h k q hq
  | cons s rest ih =>
    intro before Y h k q hq
    refine ih (before ++ [s]) _ ?_ k q hq
    rintro k q ⟨hd, -⟩
    induction hd with
    | cell hy => exact h _ _ hy
    | quarter _ hk _ _ _ => omega

theorem byTurns_congr {σ : Type} {parts : Boundary → List Boundary} {wants wants' : List σ → Boundary → Prop} {sd : ℕ} {In : Boundary → Prop}
    (hin : ∀ p q, In p → q ∈ parts p → In q) :
    ∀ (rest before : List σ) (Y : ℕ → Boundary → Prop), (∀ k q, Y k q → In q) →
      (∀ l, (∀ s ∈ l, s ∈ before ++ rest) → ∀ q, In q → (wants l q ↔ wants' l q)) →
      byTurns parts wants sd before rest Y = byTurns parts wants' sd before rest Y := by
  intro rest
  induction rest with
  | nil => intro before Y _ _; rfl
  | cons s rest ih =>
    intro before Y hY hw
    unfold byTurns
    have hl : ∀ q, In q → (wants (before ++ [s]) q ↔ wants' (before ++ [s]) q) := hw _ (by simp; tauto)
    have hd : ∀ {w : Boundary → Prop} {k q}, DividedFrom parts w sd Y k q → In q := by
      intro w k q h
      induction h with
      | cell h => exact hY _ _ h
      | quarter _ _ _ hq ih => exact hin _ _ ih hq
    have hdd : ∀ {w w' : Boundary → Prop}, (∀ q, In q → (w q ↔ w' q)) → ∀ {k q}, DividedFrom parts w sd Y k q → DividedFrom parts w' sd Y k q := by
      intro w w' h k q hx
      induction hx with
      | cell h => exact .cell h
      | quarter hp hk hw hq ih => exact .quarter ih hk ((h _ (hd hp)).1 hw) hq
    have e : turn parts (wants (before ++ [s])) sd Y = turn parts (wants' (before ++ [s])) sd Y := by
      funext k q
      apply propext
      constructor
      · rintro ⟨h1, h2⟩
        exact ⟨hdd hl h1, h2.imp id (fun h h' => h ((hl q (hd h1)).2 h'))⟩
      · rintro ⟨h1, h2⟩
        exact ⟨hdd (fun q hq => (hl q hq).symm) h1, h2.imp id (fun h h' => h ((hl q (hd h1)).1 h'))⟩
    rw [e]
    refine ih _ _ (fun k q h => hd h.1) ?_
    intro l hll
    exact hw l (by intro t ht; have := hll t ht; simpa using this)

end Verif
