import Verif.Proof.SplitLoop

/-!
# Which cells depth-limited splitting leaves: induction over the splits that the data asked for
-/

namespace Verif
open Spec

variable {D : Type}

/-- What every split asked for by the sources up to `index` keeps, their pass keeps. -/
theorem splitPass_induct {ops : DataOps D} {sd index : ℕ} {P : MeshState D → Prop}
    (step : ∀ m k c m1, P m → Live m k c → c.depth < sd → ops.shouldSplit (index + 1) c.bounds c.data = .ok true →
      MeshBuilder.splitAndReplace ops m k = .ok m1 → P m1) :
    ∀ (fuel i : ℕ) (m m' : MeshState D), P m → MeshBuilder.splitPass ops sd index fuel i m = .ok m' → P m' := by
  intro fuel
  induction fuel with
  | zero => intro i m m' _ h; cases h
  | succ fuel ih =>
    intro i m m' hP h
    unfold MeshBuilder.splitPass at h
    rcases hi : m.cells[i]? with _ | _ | c
    · rw [hi] at h; cases h; exact hP
    · rw [hi] at h; exact ih (i + 1) m m' hP h
    · rw [hi] at h
      simp only [bind, Except.bind] at h
      rcases hs : ops.shouldSplit (index + 1) c.bounds c.data with e | r
      · rw [hs] at h; cases h
      · rw [hs] at h
        simp only at h
        split at h
        · rename_i hcond
          rcases hp : MeshBuilder.splitAndReplace ops m i with e | m1
          · rw [hp] at h; cases h
          · rw [hp] at h
            exact ih (i + 1) m1 m' (step m i c m1 hP hi hcond.1 (by rw [hs, hcond.2]) hp) h
        · exact ih (i + 1) m m' hP h

/-- The same for all passes. -/
theorem splitSources_induct {ops : DataOps D} {sd fuel : ℕ} {P : MeshState D → Prop} :
    ∀ (conds : List ℕ) (index : ℕ) (_ : ∀ p, 0 < conds.getD p 0 → ∀ m k c m1, P m → Live m k c → c.depth < sd →
      ops.shouldSplit (index + p + 1) c.bounds c.data = .ok true → MeshBuilder.splitAndReplace ops m k = .ok m1 → P m1)
      (m m' : MeshState D), P m → MeshBuilder.splitSources ops sd fuel conds index m = .ok m' → P m' := by
  intro conds
  induction conds with
  | nil => intro index _ m m' hP h; cases h; exact hP
  | cons n rest ih =>
    intro index step m m' hP h
    unfold MeshBuilder.splitSources at h
    simp only [bind, Except.bind] at h
    have step' : ∀ p, 0 < rest.getD p 0 → ∀ m k c m1, P m → Live m k c → c.depth < sd →
        ops.shouldSplit (index + 1 + p + 1) c.bounds c.data = .ok true → MeshBuilder.splitAndReplace ops m k = .ok m1 → P m1 := by
      intro p hp m k c m1 h1 h2 h3 h4 h5
      have e : index + 1 + p = index + (p + 1) := by omega
      rw [e] at h4
      exact step (p + 1) (by simpa using hp) m k c m1 h1 h2 h3 h4 h5
    by_cases hn : n > 0
    · simp only [hn, if_true] at h
      rcases hp : MeshBuilder.splitPass ops sd index fuel 0 m with e | m1
      · rw [hp] at h; cases h
      · rw [hp] at h
        exact ih (index + 1) step' m1 m' (splitPass_induct (fun m k c m1 => step 0 (by simpa using hn) m k c m1) fuel 0 m m1 hP hp) h
    · simp only [hn, if_false] at h
      exact ih (index + 1) step' m m' hP h

/-- A pass that ends leaves only cells that it does not split. -/
theorem splitPass_settled {ops : DataOps D} {sd index : ℕ} :
    ∀ (fuel i : ℕ) (m m' : MeshState D), (∀ j c, j < i → Live m j c → Settled ops sd index c) →
      MeshBuilder.splitPass ops sd index fuel i m = .ok m' → ∀ j c, Live m' j c → Settled ops sd index c := by
  intro fuel
  induction fuel with
  | zero => intro i m m' _ h; cases h
  | succ fuel ih =>
    intro i m m' hset h
    unfold MeshBuilder.splitPass at h
    rcases hi : m.cells[i]? with _ | _ | c
    · rw [hi] at h; cases h
      intro j c hl
      apply hset j c _ hl
      have := live_lt hl
      have : m.cells.length ≤ i := List.getElem?_eq_none_iff.1 hi
      omega
    · rw [hi] at h
      refine ih (i + 1) m m' ?_ h
      intro j c hj hl
      rcases Nat.lt_succ_iff_lt_or_eq.1 hj with h' | h'
      · exact hset j c h' hl
      · subst h'; unfold Live at hl; rw [hi] at hl; cases hl
    · rw [hi] at h
      have hk : Live m i c := hi
      simp only [bind, Except.bind] at h
      rcases hs : ops.shouldSplit (index + 1) c.bounds c.data with e | r
      · rw [hs] at h; cases h
      · rw [hs] at h
        simp only at h
        split at h
        · rename_i hcond
          rcases hp : MeshBuilder.splitAndReplace ops m i with e | m1
          · rw [hp] at h; cases h
          · rw [hp] at h
            obtain ⟨nw, ne, sw, se, -, hcells, -, -⟩ := split_list hk hp
            refine ih (i + 1) m1 m' ?_ h
            intro j q hj hl
            have hlt := live_lt hk
            have hL := live_after hk nw ne sw se m1.graph j q
            have : Live { m with cells := (m.cells ++ [some nw, some ne, some sw, some se]).set i none, graph := m1.graph } j q := by
              unfold Live at hl ⊢; rw [hcells] at hl; exact hl
            rcases hL.1 this with ⟨h1, h⟩ | ⟨h1, -⟩ | ⟨h1, -⟩ | ⟨h1, -⟩ | ⟨h1, -⟩
            · exact hset j q (by omega) h
            all_goals omega
        · rename_i hcond
          refine ih (i + 1) m m' ?_ h
          intro j q hj hl
          rcases Nat.lt_succ_iff_lt_or_eq.1 hj with h' | h'
          · exact hset j q h' hl
          · subst h'
            unfold Live at hl; rw [hi] at hl
            simp only [Option.some.injEq] at hl
            subst hl
            by_cases hd : c.depth < sd
            · right
              have : r = false := by
                cases r
                · rfl
                · exact (hcond ⟨hd, rfl⟩).elim
              rw [hs, this]
            · left; omega

theorem splitSources_zero {ops : DataOps D} {sd fuel : ℕ} : ∀ (conds : List ℕ) (index : ℕ) (m : MeshState D),
    (∀ p, conds.getD p 0 = 0) → MeshBuilder.splitSources ops sd fuel conds index m = .ok m := by
  intro conds
  induction conds with
  | nil => intro index m _; rfl
  | cons n rest ih =>
    intro index m h0
    have hn : n = 0 := by simpa using h0 0
    unfold MeshBuilder.splitSources
    simp only [hn, gt_iff_lt, lt_self_iff_false, if_false, bind, Except.bind]
    exact ih (index + 1) m (fun p => by simpa using h0 (p + 1))

/-- After all passes no cell is left that the last source with conditions, and those before it, want to split. -/
theorem splitSources_settled {ops : DataOps D} {sd fuel : ℕ} : ∀ (conds : List ℕ) (index p : ℕ) (m m' : MeshState D),
    0 < conds.getD p 0 → (∀ p', p < p' → conds.getD p' 0 = 0) →
    MeshBuilder.splitSources ops sd fuel conds index m = .ok m' → ∀ j c, Live m' j c → Settled ops sd (index + p) c := by
  intro conds
  induction conds with
  | nil => intro index p m m' h; simp at h
  | cons n rest ih =>
    intro index p m m' hp hlast h
    unfold MeshBuilder.splitSources at h
    simp only [bind, Except.bind] at h
    cases p with
    | zero =>
      have hn : n > 0 := by simpa using hp
      simp only [hn, if_true] at h
      rcases hq : MeshBuilder.splitPass ops sd index fuel 0 m with e | m1
      · rw [hq] at h; cases h
      · rw [hq] at h
        simp only at h
        rw [splitSources_zero rest (index + 1) m1 (fun p' => by simpa using hlast (p' + 1) (by omega))] at h
        cases h
        exact splitPass_settled fuel 0 m _ (by intro j c h; omega) hq
    | succ p =>
      have e : index + (p + 1) = index + 1 + p := by omega
      rw [e]
      have hp' : 0 < rest.getD p 0 := by simpa using hp
      have hl' : ∀ p', p < p' → rest.getD p' 0 = 0 := fun p' h => by simpa using hlast (p' + 1) (by omega)
      by_cases hn : n > 0
      · simp only [hn, if_true] at h
        rcases hq : MeshBuilder.splitPass ops sd index fuel 0 m with e | m1
        · rw [hq] at h; cases h
        · rw [hq] at h
          exact ih (index + 1) p m1 m' hp' hl' h
      · simp only [hn, if_false] at h
        exact ih (index + 1) p m m' hp' hl' h

/-! ## The tree of the boxes that are split -/

/-- The boxes on which a cell is based: its own and those of its ancestors, with their data. -/
def CellBox.chain (c : CellBox D) : List (Boundary × D) := (c.bounds, c.data) :: c.anc

/-- `q` is one of the four boxes into which the code divides `b`. -/
def PartOf (q b : Boundary) : Prop := ∃ n l, CellBox.createSplitted b n = .ok l ∧ ∃ i, (q, i) ∈ l

/-- The chains of boxes that come about from the boxes `roots` when boxes above the depth `sd` are divided as `asks` says. -/
inductive Chains (ops : DataOps D) (asks : Boundary → D → Prop) (sd : ℕ) (roots : List Boundary) (initData : Boundary → D) :
    List (Boundary × D) → Prop
  | root {b : Boundary} : b ∈ roots → Chains ops asks sd roots initData [(b, initData b)]
  | part {b q : Boundary} {d : D} {t : List (Boundary × D)} : Chains ops asks sd roots initData ((b, d) :: t) → t.length < sd →
      asks b d → PartOf q b → Chains ops asks sd roots initData ((q, ops.trim q d) :: (b, d) :: t)

theorem createSplitted_index {b : Boundary} {n : ℕ} {l : List (Boundary × ℕ)} (h : CellBox.createSplitted b n = .ok l) (n' : ℕ) :
    ∃ l', CellBox.createSplitted b n' = .ok l' ∧ l'.map Prod.fst = l.map Prod.fst := by
  unfold CellBox.createSplitted at h ⊢
  simp only [bind, Except.bind, pure, Except.pure] at h ⊢
  split at h
  · cases h
  · rename_i nw h1
    split at h
    · cases h
    · rename_i ne h2
      split at h
      · cases h
      · rename_i sw h3
        split at h
        · cases h
        · rename_i se h4
          cases h
          exact ⟨_, rfl, rfl⟩

theorem split_parts {ops : DataOps D} {c : CellBox D} {n : ℕ} {new : List (CellBox D)} (h : c.split ops n = .ok new) (q : Boundary) :
    PartOf q c.bounds ↔ ∃ x ∈ new, x.bounds = q := by
  unfold CellBox.split at h
  simp only [bind, Except.bind, pure, Except.pure] at h
  split at h
  · cases h
  · rename_i boxes hb
    cases h
    constructor
    · rintro ⟨n', l', hl', i, hi⟩
      obtain ⟨l'', h1, h2⟩ := createSplitted_index hl' n
      rw [hb] at h1
      cases h1
      have : q ∈ l'.map Prod.fst := List.mem_map.2 ⟨_, hi, rfl⟩
      rw [← h2] at this
      obtain ⟨x, hx, rfl⟩ := List.mem_map.1 this
      exact ⟨_, List.mem_map.2 ⟨x, hx, rfl⟩, rfl⟩
    · rintro ⟨x, hx, rfl⟩
      obtain ⟨p, hp, rfl⟩ := List.mem_map.1 hx
      exact ⟨n, boxes, hb, p.2, hp⟩

/-- One split seen through chains. -/
theorem split_chains {ops : DataOps D} {m m1 : MeshState D} {k : ℕ} {c : CellBox D} (hk : Live m k c)
    (hs : MeshBuilder.splitAndReplace ops m k = .ok m1) :
    (∀ j q, Live m1 j q → (j ≠ k ∧ Live m j q) ∨
      (PartOf q.bounds c.bounds ∧ q.depth = c.depth + 1 ∧ q.chain = (q.bounds, ops.trim q.bounds c.data) :: c.chain)) ∧
    (∀ j q, j ≠ k → Live m j q → Live m1 j q) ∧
    (∀ q, PartOf q c.bounds → ∃ j x, Live m1 j x ∧ x.chain = (q, ops.trim q c.data) :: c.chain) := by
  obtain ⟨c', new, g, hk', hsp, -, rfl⟩ := splitAndReplace_inv hs
  have : c' = c := by unfold Live at hk hk'; rw [hk] at hk'; simpa using hk'.symm
  subst this
  have hparts := split_parts hsp
  obtain ⟨nw, ne, sw, se, rfl, -, -, -, -, hq⟩ := split_shape hsp
  have hL := live_after hk nw ne sw se g
  refine ⟨?_, ?_, ?_⟩
  · intro j q hl
    have hnew : q ∈ [nw, ne, sw, se] →
        PartOf q.bounds c'.bounds ∧ q.depth = c'.depth + 1 ∧ q.chain = (q.bounds, ops.trim q.bounds c'.data) :: c'.chain := by
      intro hm
      obtain ⟨h1, h2, h3⟩ := hq q hm
      refine ⟨(hparts q.bounds).2 ⟨q, hm, rfl⟩, h1, ?_⟩
      unfold CellBox.chain
      rw [h2, h3]
    rcases (hL j q).1 hl with h | ⟨-, rfl⟩ | ⟨-, rfl⟩ | ⟨-, rfl⟩ | ⟨-, rfl⟩
    · exact Or.inl h
    all_goals exact Or.inr (hnew (by simp))
  · intro j q hj hl
    exact (hL j q).2 (Or.inl ⟨hj, hl⟩)
  · intro q hpq
    obtain ⟨x, hx, rfl⟩ := (hparts q).1 hpq
    obtain ⟨h1, h2, h3⟩ := hq x hx
    have hch : x.chain = (x.bounds, ops.trim x.bounds c'.data) :: c'.chain := by
      unfold CellBox.chain
      rw [h2, h3]
    simp only [List.mem_cons, List.not_mem_nil, or_false] at hx
    rcases hx with rfl | rfl | rfl | rfl
    · exact ⟨m.cells.length, _, (hL _ _).2 (by simp), hch⟩
    · exact ⟨m.cells.length + 1, _, (hL _ _).2 (by simp), hch⟩
    · exact ⟨m.cells.length + 2, _, (hL _ _).2 (by simp), hch⟩
    · exact ⟨m.cells.length + 3, _, (hL _ _).2 (by simp), hch⟩

/-- A chain that is, or was, the chain of a cell. -/
def Visited (m : MeshState D) (t : List (Boundary × D)) : Prop := ∃ j c, Live m j c ∧ t <:+ c.chain

/-- What is known of a mesh during splitting: live cells are on chains that were asked for; the initial boxes were visited;
and of a visited box that is no cell any more, all parts were visited. -/
structure Tracked (ops : DataOps D) (asks : Boundary → D → Prop) (sd : ℕ) (roots : List Boundary) (initData : Boundary → D)
    (m : MeshState D) : Prop where
  sound : ∀ j c, Live m j c → c.depth = c.anc.length ∧ c.depth ≤ sd ∧ Chains ops asks sd roots initData c.chain
  start : ∀ b ∈ roots, Visited m [(b, initData b)]
  closed : ∀ b d t, Visited m ((b, d) :: t) → (∃ j c, Live m j c ∧ c.chain = (b, d) :: t) ∨
    ∀ q, PartOf q b → Visited m ((q, ops.trim q d) :: (b, d) :: t)

theorem Tracked.split {ops : DataOps D} {asks : Boundary → D → Prop} {sd : ℕ} {roots : List Boundary} {initData : Boundary → D}
    {m m1 : MeshState D} {k : ℕ} {c : CellBox D} (hm : Tracked ops asks sd roots initData m) (hk : Live m k c) (hd : c.depth < sd)
    (ha : asks c.bounds c.data) (hs : MeshBuilder.splitAndReplace ops m k = .ok m1) : Tracked ops asks sd roots initData m1 := by
  obtain ⟨h1, h2, h3⟩ := split_chains hk hs
  obtain ⟨k1, k2, k3⟩ := hm.sound k c hk
  have hsome : ∃ q, PartOf q c.bounds := by
    obtain ⟨c', new, g, hk', hsp, -, -⟩ := splitAndReplace_inv hs
    have : c' = c := by unfold Live at hk hk'; rw [hk] at hk'; simpa using hk'.symm
    subst this
    have hparts := split_parts hsp
    obtain ⟨nw, ne, sw, se, rfl, -⟩ := split_shape hsp
    exact ⟨nw.bounds, (hparts _).2 ⟨nw, by simp, rfl⟩⟩
  have hmono : ∀ t, Visited m t → Visited m1 t := by
    rintro t ⟨j, x, hl, ht⟩
    by_cases hj : j = k
    · subst hj
      have : x = c := by unfold Live at hk hl; rw [hk] at hl; simpa using hl.symm
      subst this
      obtain ⟨q, hq⟩ := hsome
      obtain ⟨j', y, hy, hch⟩ := h3 q hq
      refine ⟨j', y, hy, ?_⟩
      rw [hch]
      exact ht.trans (List.suffix_cons ..)
    · exact ⟨j, x, h2 j x hj hl, ht⟩
  refine ⟨?_, fun b hb => hmono _ (hm.start b hb), ?_⟩
  · intro j q hl
    rcases h1 j q hl with ⟨-, hl'⟩ | ⟨hp, hdep, hch⟩
    · exact hm.sound j q hl'
    · have e : q.anc = c.chain := by
        have := congrArg List.tail hch
        simpa [CellBox.chain] using this
      refine ⟨by rw [hdep, e, k1]; simp [CellBox.chain], by omega, ?_⟩
      rw [hch]
      exact .part k3 (by omega) ha hp
  · intro b d t hv
    -- was it visited before?
    have key : Visited m ((b, d) :: t) → (∃ j c, Live m1 j c ∧ c.chain = (b, d) :: t) ∨
        ∀ q, PartOf q b → Visited m1 ((q, ops.trim q d) :: (b, d) :: t) := by
      intro hv'
      rcases hm.closed b d t hv' with ⟨j, x, hl, hch⟩ | h
      · by_cases hj : j = k
        · subst hj
          have : x = c := by unfold Live at hk hl; rw [hk] at hl; simpa using hl.symm
          subst this
          right
          intro q hq
          have e : (b, d) = (x.bounds, x.data) := by
            have := congrArg List.head? hch
            simpa [CellBox.chain] using this.symm
          cases e
          obtain ⟨j', y, hy, hch'⟩ := h3 q hq
          exact ⟨j', y, hy, by rw [hch', hch]; exact List.suffix_refl _⟩
        · exact Or.inl ⟨j, x, h2 j x hj hl, hch⟩
      · exact Or.inr (fun q hq => hmono _ (h q hq))
    obtain ⟨j, x, hl, ht⟩ := hv
    rcases h1 j x hl with ⟨-, hl'⟩ | ⟨hp, -, hch⟩
    · exact key ⟨j, x, hl', ht⟩
    · rw [hch] at ht
      rcases List.suffix_cons_iff.1 ht with h | h
      · exact Or.inl ⟨j, x, hl, by rw [hch, h]⟩
      · exact key ⟨k, c, hk, h⟩

/-- The initial mesh. -/
theorem Tracked.init {ops : DataOps D} {asks : Boundary → D → Prop} {sd : ℕ} {b : Boundary} {W H : ℚ} {depth : ℕ} {initData : Boundary → D}
    {m0 : MeshState D} (h0 : MeshBuilder.init b W H initData depth = .ok m0) {roots : List Boundary}
    (hr : MeshBuilder.initializeCells b W H = .ok roots) : Tracked ops asks sd roots initData m0 := by
  obtain ⟨boxes, g, glob, -, hb, -, rfl⟩ := init_inv h0
  rw [hr] at hb
  cases hb
  refine ⟨?_, ?_, ?_⟩
  · intro j c hl
    obtain ⟨cb, hcb, rfl⟩ := live_init.1 hl
    exact ⟨rfl, Nat.zero_le _, .root (List.mem_of_getElem? hcb)⟩
  · intro q hq
    obtain ⟨j, hj⟩ := List.mem_iff_getElem?.1 hq
    exact ⟨j, _, live_init.2 ⟨q, hj, rfl⟩, List.suffix_refl _⟩
  · rintro q d t ⟨j, c, hl, ht⟩
    obtain ⟨cb, hcb, rfl⟩ := live_init.1 hl
    rcases List.suffix_cons_iff.1 ht with h | h
    · exact Or.inl ⟨j, _, hl, h.symm⟩
    · rw [List.suffix_nil] at h; cases h

theorem tracked_splitToDepth {ops : DataOps D} {sd fuel : ℕ} {b : Boundary} {W H : ℚ} {depth : ℕ} {initData : Boundary → D}
    {m0 m : MeshState D} (h0 : MeshBuilder.init b W H initData depth = .ok m0) {roots : List Boundary}
    (hr : MeshBuilder.initializeCells b W H = .ok roots) (h : MeshBuilder.splitToDepth ops fuel sd m0 = .ok m) :
    ∃ c0, Live m0 0 c0 ∧ Tracked ops (fun q d => ∃ p, 0 < (ops.nConds c0.data).getD p 0 ∧ ops.shouldSplit (p + 1) q d = .ok true)
      sd roots initData m := by
  unfold MeshBuilder.splitToDepth at h
  simp only [bind, Except.bind] at h
  split at h
  · cases h
  · rename_i c0 hc0
    refine ⟨c0, cellAt_ok_iff.1 hc0, ?_⟩
    refine splitSources_induct _ 0 ?_ m0 m (Tracked.init h0 hr) h
    intro p hp m k c m1 hP hl hd hask hs
    rw [Nat.zero_add] at hask
    exact hP.split hl hd ⟨p, hp, hask⟩ hs

/-- When the decision, once for splitting, stays so with more sources: the cells are exactly the ends of the chains. -/
theorem chains_exact {ops : DataOps D} {sd fuel : ℕ} {b : Boundary} {W H : ℚ} {depth : ℕ} {initData : Boundary → D}
    {m0 m : MeshState D} (h0 : MeshBuilder.init b W H initData depth = .ok m0) {roots : List Boundary}
    (hr : MeshBuilder.initializeCells b W H = .ok roots) (h : MeshBuilder.splitToDepth ops fuel sd m0 = .ok m) {c0 : CellBox D}
    (hc0 : Live m0 0 c0) {p : ℕ} (hp : 0 < (ops.nConds c0.data).getD p 0) (hlast : ∀ p', p < p' → (ops.nConds c0.data).getD p' 0 = 0)
    (good : List (Boundary × D) → Prop) (hgood : ∀ asks t, Chains ops asks sd roots initData t → good t)
    (hmono : ∀ p' q d t, good ((q, d) :: t) → 0 < (ops.nConds c0.data).getD p' 0 → ops.shouldSplit (p' + 1) q d = .ok true →
      ops.shouldSplit (p + 1) q d = .ok true) (q : Boundary) (d : D) (t : List (Boundary × D)) :
    (∃ j c, Live m j c ∧ c.chain = (q, d) :: t) ↔
      Chains ops (fun q d => ops.shouldSplit (p + 1) q d = .ok true) sd roots initData ((q, d) :: t) ∧
        (t.length = sd ∨ ops.shouldSplit (p + 1) q d = .ok false) := by
  obtain ⟨c0', hc0', hT⟩ := tracked_splitToDepth h0 hr h
  have : c0' = c0 := by unfold Live at hc0 hc0'; rw [hc0] at hc0'; simpa using hc0'.symm
  subst this
  have hset : ∀ j c, Live m j c → Settled ops sd p c := by
    unfold MeshBuilder.splitToDepth at h
    simp only [bind, Except.bind, cellAt_ok_iff.2 hc0] at h
    have := splitSources_settled _ 0 p m0 m hp hlast h
    rw [Nat.zero_add] at this
    exact this
  -- chains asked for by anyone are asked for by the last
  have hlastAsks : ∀ t, Chains ops (fun q d => ∃ p, 0 < (ops.nConds c0'.data).getD p 0 ∧ ops.shouldSplit (p + 1) q d = .ok true) sd roots initData t →
      Chains ops (fun q d => ops.shouldSplit (p + 1) q d = .ok true) sd roots initData t := by
    intro t ht
    induction ht with
    | root hb => exact .root hb
    | part hch hlt ha hq ih =>
      obtain ⟨p', hp', ha'⟩ := ha
      exact .part ih hlt (hmono p' _ _ _ (hgood _ _ hch) hp' ha') hq
  constructor
  · rintro ⟨j, c, hl, hch⟩
    obtain ⟨s1, s2, s3⟩ := hT.sound j c hl
    rw [hch] at s3
    refine ⟨hlastAsks _ s3, ?_⟩
    have e : (c.bounds, c.data) = (q, d) ∧ c.anc = t := by simpa [CellBox.chain] using hch
    obtain ⟨e1, e2⟩ := e
    cases e1
    rcases hset j c hl with h' | h'
    · left; rw [← e2, ← s1]; omega
    · exact Or.inr h'
  · rintro ⟨hch, hend⟩
    -- every box on the way was visited
    have hvis : ∀ t, Chains ops (fun q d => ops.shouldSplit (p + 1) q d = .ok true) sd roots initData t → Visited m t := by
      intro t ht
      induction ht with
      | root hb => exact hT.start _ hb
      | @part b q d t hch hlt ha hq ih =>
        rcases hT.closed b d t ih with ⟨j, c, hl, hc⟩ | h'
        · exfalso
          obtain ⟨s1, -, -⟩ := hT.sound j c hl
          have e : (c.bounds, c.data) = (b, d) ∧ c.anc = t := by simpa [CellBox.chain] using hc
          obtain ⟨e1, e2⟩ := e
          cases e1
          rcases hset j c hl with h'' | h''
          · rw [s1, e2] at h''; omega
          · rw [ha] at h''; cases h''
        · exact h' q hq
    -- and what was visited and is no cell has been split
    obtain ⟨j, c, hl, hsuf⟩ := hvis _ hch
    obtain ⟨s1, s2, s3⟩ := hT.sound j c hl
    rcases List.suffix_cons_iff.1 hsuf with h' | h'
    · exact ⟨j, c, hl, h'.symm⟩
    · exfalso
      have hl' := hlastAsks _ s3
      -- every proper ancestor was asked for
      have hanc : ∀ u, Chains ops (fun q d => ops.shouldSplit (p + 1) q d = .ok true) sd roots initData u →
          ∀ q d t, (q, d) :: t <:+ u.tail → t.length < sd ∧ ops.shouldSplit (p + 1) q d = .ok true := by
        intro u hu
        induction hu with
        | root hb => intro q d t h; simp at h
        | @part b q' d' t' hch hlt ha hq ih =>
          intro q d t h
          rcases List.suffix_cons_iff.1 h with h'' | h''
          · cases h''; exact ⟨hlt, ha⟩
          · exact ih q d t h''
      obtain ⟨k1, k2⟩ := hanc _ hl' q d t h'
      rcases hend with h'' | h''
      · omega
      · rw [k2] at h''; cases h''

end Verif
