import Verif.Proof.EnvOps

/-!
# Merging: removal of the covered cells, adding the other graph, tying the two together
-/

namespace Verif
open Spec

/-- Removing several cells of a consistent mesh. -/
theorem removeAll_ok (L : List AggCell) : ∀ (m : EnvMesh), EnvOK m → L.Nodup → (∀ c ∈ L, c ∈ m.cells) →
    ∃ g' : Graph, L.foldlM EnvMesh.removeCellbox m = .ok { m with cells := m.cells.filter (fun x => x ∉ L), graph := g' } ∧
      EnvOK { m with cells := m.cells.filter (fun x => x ∉ L), graph := g' } ∧ g'.isGlobal = m.graph.isGlobal := by
  induction L with
  | nil =>
    intro m h _ _
    have e : m.cells.filter (fun x => x ∉ ([] : List AggCell)) = m.cells := by simp
    rw [e]
    exact ⟨m.graph, rfl, h, rfl⟩
  | cons c L ih =>
    intro m h hnd hL
    obtain ⟨n1, n2⟩ := List.nodup_cons.1 hnd
    obtain ⟨g1, h1, h2, h3, -⟩ := envRemove_ok m h c (hL c (by simp))
    obtain ⟨g', h4, h5, h6⟩ := ih _ h2 n2 (by
      intro x hx
      simp only [List.mem_filter, ne_eq, decide_eq_true_eq]
      exact ⟨hL x (by simp [hx]), fun e => n1 (e ▸ hx)⟩)
    have e : (m.cells.filter (fun x => x ≠ c)).filter (fun x => x ∉ L) = m.cells.filter (fun x => x ∉ c :: L) := by
      rw [List.filter_filter]
      congr 1
      funext x
      simp only [List.mem_cons, not_or, ne_eq, Bool.decide_and, Bool.and_comm]
    simp only [e] at h4 h5
    refine ⟨g', ?_, h5, h6.trans h3⟩
    rw [List.foldlM_cons, h1]
    exact h4

/-- Adding all nodes of another graph. -/
theorem look_foldl_addNode (nodes : Dict ℕ NMap) : ∀ (g : Graph), (nodes.map Prod.fst).Nodup →
    (∀ i, (nodes.foldl (fun (g : Graph) p => g.addNode p.1 p.2) g).look i = (Dict.get? nodes i).or (g.look i)) ∧
    (nodes.foldl (fun (g : Graph) p => g.addNode p.1 p.2) g).isGlobal = g.isGlobal := by
  induction nodes with
  | nil => intro g _; exact ⟨fun i => by simp, rfl⟩
  | cons p l ih =>
    intro g hnd
    obtain ⟨n1, n2⟩ := List.nodup_cons.1 (by simpa using hnd : (p.1 :: l.map Prod.fst).Nodup)
    obtain ⟨h1, h2⟩ := ih (g.addNode p.1 p.2) n2
    refine ⟨?_, h2⟩
    intro i
    rw [List.foldl_cons, h1, Graph.look_addNode]
    obtain ⟨k, f⟩ := p
    simp only [Dict.get?]
    by_cases hi : k = i
    · subst hi
      have : Dict.get? l k = none := by
        cases hx : Dict.get? l k with
        | none => rfl
        | some v => exact absurd ((Dict.get?_eq_some_iff_mem n2 k v).1 hx) (fun hm => n1 (List.mem_map.2 ⟨_, hm, rfl⟩))
      simp [this]
    · have hi' : ¬ i = k := fun e => hi e.symm
      simp [hi, hi']

/-- Adding a list of references. -/
theorem addAll_ok (T : List (ℕ × Dir × ℕ)) : ∀ (g : Graph), (∀ t ∈ T, (g.look t.1).isSome) →
    ∃ g', T.foldlM (fun (g : Graph) t => g.addNeighbour t.1 t.2.1 t.2.2) g = .ok g' ∧ g'.isGlobal = g.isGlobal ∧
      ∀ i, g'.look i = (g.look i).map (fun f d => f d ++ (T.filter (fun t => t.1 = i ∧ t.2.1 = d)).map (fun t => t.2.2)) := by
  induction T with
  | nil => intro g _; exact ⟨g, rfl, rfl, fun i => by simp⟩
  | cons t T ih =>
    intro g hT
    obtain ⟨f, hf⟩ := Option.isSome_iff_exists.1 (hT t (by simp))
    obtain ⟨g1, h1, h2, h3⟩ := Graph.addNeighbour_ok hf t.2.1 t.2.2
    obtain ⟨g', h4, h5, h6⟩ := ih g1 (by
      intro s hs
      rw [h3]
      split
      · rfl
      · exact hT s (by simp [hs]))
    refine ⟨g', ?_, h5.trans h2, ?_⟩
    · rw [List.foldlM_cons, h1]; exact h4
    · intro i
      rw [h6, h3]
      by_cases hi : i = t.1
      · subst hi
        rw [if_pos rfl, hf]
        simp only [Option.map_some, Option.some.injEq]
        funext d
        by_cases hd : t.2.1 = d
        · subst hd
          simp [NMap.append, NMap.set]
        · have hd' : ¬ d = t.2.1 := fun e => hd e.symm
          simp [NMap.append, NMap.set, hd, hd']
      · have hi' : ¬ t.1 = i := fun e => hi e.symm
        rw [if_neg hi]
        simp [hi']

theorem foldlM_flatMap' {α β : Type} {s : Type} (f : α → List β) (step : s → β → Py s) (l : List α) : ∀ g : s,
    (l.flatMap f).foldlM step g = l.foldlM (fun g a => (f a).foldlM step g) g := by
  induction l with
  | nil => intro g; rfl
  | cons a l ih =>
    intro g
    rw [List.flatMap_cons, List.foldlM_append, List.foldlM_cons]
    congr 1
    funext g'
    exact ih g'

/-- The references that tying `as` to `bs` in the directions `ds` adds. -/
def tieT (as bs : List AggCell) (ds : List Dir) : List (ℕ × Dir × ℕ) :=
  as.flatMap (fun c => ds.flatMap (fun d => (EnvMesh.casesIn c bs d).map (fun n => (c.id, d, n))))

theorem tie_eq (g : Graph) (as bs : List AggCell) (ds es : List Dir) :
    EnvMesh.tie g as bs ds es = (tieT as bs ds ++ tieT bs as es).foldlM (fun (g : Graph) t => g.addNeighbour t.1 t.2.1 t.2.2) g := by
  have key : ∀ (as bs : List AggCell) (ds : List Dir) (g : Graph), as.foldlM (EnvMesh.tieCell bs ds) g =
      (tieT as bs ds).foldlM (fun (g : Graph) t => g.addNeighbour t.1 t.2.1 t.2.2) g := by
    intro as bs ds g
    unfold tieT
    rw [foldlM_flatMap']
    congr 1
    funext g c
    unfold EnvMesh.tieCell
    rw [foldlM_flatMap']
    congr 1
    funext g d
    rw [List.foldlM_map]
  unfold EnvMesh.tie
  rw [key, List.foldlM_append]
  congr 1
  funext g
  exact key bs as es g

theorem mem_tieT {as bs : List AggCell} {ds : List Dir} {i j : ℕ} {d : Dir} :
    (i, d, j) ∈ tieT as bs ds ↔ d ∈ ds ∧ ∃ c ∈ as, ∃ x ∈ bs, c.id = i ∧ x.id = j ∧ Graph.neighbourCaseBounds c.bounds x.bounds = some d := by
  simp only [tieT, List.mem_flatMap, List.mem_map, EnvMesh.casesIn, List.mem_filter, decide_eq_true_eq, Prod.mk.injEq]
  constructor
  · rintro ⟨c, hc, e, he, n, ⟨x, ⟨hx, hcase⟩, rfl⟩, rfl, rfl, rfl⟩
    exact ⟨he, c, hc, x, hx, rfl, rfl, hcase⟩
  · rintro ⟨hd, c, hc, x, hx, rfl, rfl, hcase⟩
    exact ⟨c, hc, d, hd, x.id, ⟨x, ⟨hx, hcase⟩, rfl⟩, rfl, rfl, rfl⟩

theorem nodup_tieT {as bs : List AggCell} {ds : List Dir} (ha : (as.map (·.id)).Nodup) (hb : (bs.map (·.id)).Nodup) (hd : ds.Nodup) :
    (tieT as bs ds).Nodup := by
  unfold tieT
  rw [List.nodup_flatMap]
  constructor
  · intro c _
    rw [List.nodup_flatMap]
    constructor
    · intro d _
      refine List.Nodup.map (fun a b h => by simpa using h) ?_
      unfold EnvMesh.casesIn
      exact List.Nodup.sublist (List.filter_sublist.map _) hb
    · refine List.Pairwise.imp ?_ hd
      intro d e hde
      simp only [Function.onFun, List.disjoint_left, List.mem_map]
      rintro t ⟨n, -, rfl⟩ ⟨n', -, h⟩
      simp only [Prod.mk.injEq] at h
      exact hde h.2.1.symm
  · have : as.Pairwise (fun a b => a.id ≠ b.id) := by rwa [List.Nodup, List.pairwise_map] at ha
    refine List.Pairwise.imp ?_ this
    intro c c' hne
    simp only [Function.onFun, List.disjoint_left, List.mem_flatMap, List.mem_map]
    rintro t ⟨d, -, n, -, rfl⟩ ⟨d', -, n', -, h⟩
    simp only [Prod.mk.injEq] at h
    exact hne h.1.symm

/-- Two exact graphs tied together exactly. -/
theorem Spec.Exact.union {cell1 cell2 : ℕ → Option Rect} {nb1 nb2 nb : ℕ → Option NMap} (h1 : Exact false cell1 nb1) (h2 : Exact false cell2 nb2)
    (hdis : ∀ i, cell1 i = none ∨ cell2 i = none)
    (hov : ∀ i j a b, cell1 i = some a → cell2 j = some b → ¬ a.Overlap b)
    (T : List (ℕ × Dir × ℕ)) (hT : T.Nodup)
    (hmem : ∀ i d j, (i, d, j) ∈ T ↔ ∃ a b, Touches d a b ∧ ((cell1 i = some a ∧ cell2 j = some b) ∨ (cell2 i = some a ∧ cell1 j = some b)))
    (hnb : ∀ i, nb i = ((nb2 i).or (nb1 i)).map (fun f d => f d ++ (T.filter (fun t => t.1 = i ∧ t.2.1 = d)).map (fun t => t.2.2))) :
    Exact false (fun i => (cell2 i).or (cell1 i)) nb := by
  have none1 : ∀ i a, cell2 i = some a → cell1 i = none := by
    intro i a h; rcases hdis i with h' | h'
    · exact h'
    · rw [h] at h'; cases h'
  have nb1none : ∀ i, cell1 i = none → nb1 i = none := by
    intro i h
    have := h1.keys i
    cases hx : nb1 i with
    | none => rfl
    | some f => rw [hx, h] at this; simp at this
  have nb2none : ∀ i, cell2 i = none → nb2 i = none := by
    intro i h
    have := h2.keys i
    cases hx : nb2 i with
    | none => rfl
    | some f => rw [hx, h] at this; simp at this
  have memAdd : ∀ i d j, j ∈ (T.filter (fun t => t.1 = i ∧ t.2.1 = d)).map (fun t => t.2.2) ↔ (i, d, j) ∈ T := by
    intro i d j
    simp only [List.mem_map, List.mem_filter, decide_eq_true_eq]
    constructor
    · rintro ⟨⟨i', d', j'⟩, ⟨h, rfl, rfl⟩, rfl⟩; exact h
    · intro h; exact ⟨_, ⟨h, rfl, rfl⟩, rfl⟩
  have nodupAdd : ∀ i d, ((T.filter (fun t => t.1 = i ∧ t.2.1 = d)).map (fun t => t.2.2)).Nodup := by
    intro i d
    refine List.Nodup.map_on ?_ (List.Nodup.filter _ hT)
    rintro ⟨i1, d1, j1⟩ h1 ⟨i2, d2, j2⟩ h2 h
    simp only [List.mem_filter, decide_eq_true_eq] at h1 h2
    obtain ⟨-, rfl, rfl⟩ := h1
    obtain ⟨-, rfl, rfl⟩ := h2
    simp only at h
    rw [h]
  -- the two cases
  have inv : ∀ i f, nb i = some f → (∃ a f0, cell1 i = some a ∧ cell2 i = none ∧ nb1 i = some f0 ∧ ∀ d, f d = f0 d ++ (T.filter (fun t => t.1 = i ∧ t.2.1 = d)).map (fun t => t.2.2)) ∨
      (∃ a f0, cell2 i = some a ∧ cell1 i = none ∧ nb2 i = some f0 ∧ ∀ d, f d = f0 d ++ (T.filter (fun t => t.1 = i ∧ t.2.1 = d)).map (fun t => t.2.2)) := by
    intro i f hf
    rw [hnb] at hf
    cases hx : nb2 i with
    | some f0 =>
      right
      obtain ⟨a, ha⟩ := Option.isSome_iff_exists.1 ((h2.keys i).1 (by rw [hx]; rfl))
      rw [hx] at hf
      simp only [Option.some_or, Option.map_some, Option.some.injEq] at hf
      exact ⟨a, f0, ha, none1 i a ha, rfl, fun d => by rw [← hf]⟩
    | none =>
      left
      rw [hx] at hf
      cases hy : nb1 i with
      | none => rw [hy] at hf; simp at hf
      | some f0 =>
        obtain ⟨a, ha⟩ := Option.isSome_iff_exists.1 ((h1.keys i).1 (by rw [hy]; rfl))
        rw [hy] at hf
        simp only [Option.none_or, Option.map_some, Option.some.injEq] at hf
        refine ⟨a, f0, ha, ?_, rfl, fun d => by rw [← hf]⟩
        rcases hdis i with h | h
        · rw [ha] at h; cases h
        · exact h
  refine ⟨?_, ?_, ?_, ?_, ?_⟩
  · intro i
    have e1 := h1.keys i
    have e2 := h2.keys i
    rw [hnb]
    simp only [Option.isSome_map, Option.isSome_or, Bool.or_eq_true]
    rw [e1, e2]
  · intro i r hi
    cases hx : cell2 i with
    | some a => rw [hx] at hi; simp only [Option.some_or, Option.some.injEq] at hi; subst hi; exact h2.ok i _ hx
    | none => rw [hx] at hi; simp only [Option.none_or] at hi; exact h1.ok i _ hi
  · intro i j a b hij hi hj
    have ovsymm : ∀ a b : Rect, a.Overlap b → b.Overlap a := fun a b ⟨x1, x2, x3, x4⟩ => ⟨x2, x1, x4, x3⟩
    cases hx : cell2 i with
    | some a' =>
      rw [hx] at hi; simp only [Option.some_or, Option.some.injEq] at hi; subst hi
      cases hy : cell2 j with
      | some b' => rw [hy] at hj; simp only [Option.some_or, Option.some.injEq] at hj; subst hj; exact h2.disjoint i j _ _ hij hx hy
      | none => rw [hy] at hj; simp only [Option.none_or] at hj; exact fun ho => hov j i b _ hj hx (ovsymm _ _ ho)
    | none =>
      rw [hx] at hi; simp only [Option.none_or] at hi
      cases hy : cell2 j with
      | some b' => rw [hy] at hj; simp only [Option.some_or, Option.some.injEq] at hj; subst hj; exact hov i j a _ hi hy
      | none => rw [hy] at hj; simp only [Option.none_or] at hj; exact h1.disjoint i j a b hij hi hj
  · intro i f d hf
    rcases inv i f hf with ⟨a, f0, ha, hn, hf0, e⟩ | ⟨a, f0, ha, hn, hf0, e⟩
    · rw [e, List.nodup_append]
      refine ⟨h1.nodup i f0 d hf0, nodupAdd i d, ?_⟩
      rintro j hj j' hj' rfl
      obtain ⟨b, hb, -⟩ := (h1.mem i f0 d j a hf0 ha).1 hj
      rw [memAdd, hmem] at hj'
      obtain ⟨a', b', -, ⟨-, h'⟩ | ⟨h', -⟩⟩ := hj'
      · have := none1 j b' h'; rw [hb] at this; cases this
      · rw [hn] at h'; cases h'
    · rw [e, List.nodup_append]
      refine ⟨h2.nodup i f0 d hf0, nodupAdd i d, ?_⟩
      rintro j hj j' hj' rfl
      obtain ⟨b, hb, -⟩ := (h2.mem i f0 d j a hf0 ha).1 hj
      rw [memAdd, hmem] at hj'
      obtain ⟨a', b', -, ⟨h', -⟩ | ⟨-, h'⟩⟩ := hj'
      · rw [hn] at h'; cases h'
      · have := none1 j b hb; rw [h'] at this; cases this
  · intro i f d j a hf hi
    have hsome : ∀ b, (cell2 j).or (cell1 j) = some b ↔ cell2 j = some b ∨ cell1 j = some b := by
      intro b
      cases hx : cell2 j with
      | some b' => simp [none1 j b' hx]
      | none => simp
    simp only [hsome]
    rcases inv i f hf with ⟨a', f0, ha, hn, hf0, e⟩ | ⟨a', f0, ha, hn, hf0, e⟩
    · have : a = a' := by rw [hn, Option.none_or, ha] at hi; exact (Option.some.inj hi).symm
      subst this
      rw [e, List.mem_append, memAdd, hmem, h1.mem i f0 d j a hf0 ha]
      constructor
      · rintro (⟨b, hb, hab⟩ | ⟨a1, b, ht, ⟨e1, e2⟩ | ⟨e1, e2⟩⟩)
        · exact ⟨b, Or.inr hb, hab⟩
        · rw [ha] at e1; cases e1; exact ⟨b, Or.inl e2, (adj_false_iff d _ _).2 ht⟩
        · rw [hn] at e1; cases e1
      · rintro ⟨b, hb | hb, hab⟩
        · exact Or.inr ⟨a, b, (adj_false_iff d _ _).1 hab, Or.inl ⟨ha, hb⟩⟩
        · exact Or.inl ⟨b, hb, hab⟩
    · have : a = a' := by rw [ha, Option.some_or] at hi; exact (Option.some.inj hi).symm
      subst this
      rw [e, List.mem_append, memAdd, hmem, h2.mem i f0 d j a hf0 ha]
      constructor
      · rintro (⟨b, hb, hab⟩ | ⟨a1, b, ht, ⟨e1, e2⟩ | ⟨e1, e2⟩⟩)
        · exact ⟨b, Or.inl hb, hab⟩
        · rw [hn] at e1; cases e1
        · rw [ha] at e1; cases e1; exact ⟨b, Or.inr e2, (adj_false_iff d _ _).2 ht⟩
      · rintro ⟨b, hb | hb, hab⟩
        · exact Or.inl ⟨b, hb, hab⟩
        · exact Or.inr ⟨a, b, (adj_false_iff d _ _).1 hab, Or.inr ⟨ha, hb⟩⟩

/-- `r` is aligned with `B`: in each of the two axes it is within the extent of `B` or beside it. -/
def Spec.Aligned (B r : Rect) : Prop :=
  ((B.w ≤ r.w ∧ r.e ≤ B.e) ∨ r.e ≤ B.w ∨ B.e ≤ r.w) ∧ ((B.s ≤ r.s ∧ r.n ≤ B.n) ∨ r.n ≤ B.s ∨ B.n ≤ r.s)

/-- `r` is inside `B`. -/
def Spec.Inside (B r : Rect) : Prop := B.w ≤ r.w ∧ r.e ≤ B.e ∧ B.s ≤ r.s ∧ r.n ≤ B.n

/-- `l` is above / below / right of / left of `B` the way the code selects cells outside of it. -/
def Spec.Above (B l : Rect) : Prop := l.s = B.n ∧ B.w ≤ l.e ∧ l.w ≤ B.e
def Spec.Below (B l : Rect) : Prop := l.n = B.s ∧ B.w ≤ l.e ∧ l.w ≤ B.e
def Spec.RightOf (B l : Rect) : Prop := l.w = B.e ∧ B.s ≤ l.s ∧ l.n ≤ B.n
def Spec.LeftOf (B l : Rect) : Prop := l.e = B.w ∧ B.s ≤ l.s ∧ l.n ≤ B.n

/-- A cell outside of `B` that touches a cell inside of `B` is on one of the four sides. -/
theorem touches_sides {B l a : Rect} (hl : l.Pos) (ha : a.Pos) (hal : Spec.Aligned B l) (hout : ¬ Spec.Inside B l) (hin : Spec.Inside B a)
    {d : Dir} (ht : Touches d l a) :
    (Spec.Above B l ∧ a.n = B.n ∧ d ∈ [Dir.south, Dir.southWest, Dir.southEast]) ∨
    (Spec.Below B l ∧ a.s = B.s ∧ d ∈ [Dir.north, Dir.northWest, Dir.northEast]) ∨
    (Spec.RightOf B l ∧ a.e = B.e ∧ d ∈ [Dir.west, Dir.southWest, Dir.northWest]) ∨
    (Spec.LeftOf B l ∧ a.w = B.w ∧ d ∈ [Dir.east, Dir.southEast, Dir.northEast]) := by
  obtain ⟨h1, h2⟩ := hl
  obtain ⟨h3, h4⟩ := ha
  obtain ⟨i1, i2, i3, i4⟩ := hin
  unfold Spec.Inside at hout
  unfold Spec.Aligned at hal
  unfold Spec.Above Spec.Below Spec.RightOf Spec.LeftOf
  cases d <;> simp only [Touches, sideRel, hSide, vSide, List.mem_cons, List.not_mem_nil, or_false, reduceCtorEq, and_false, false_or, or_true, and_true] at ht ⊢ <;>
  grind

theorem sides_exclusive {B l : Rect} (hB : B.Pos) (hl : l.Pos) :
    ¬ (Spec.Above B l ∧ Spec.Below B l) ∧ ¬ (Spec.Above B l ∧ Spec.RightOf B l) ∧ ¬ (Spec.Above B l ∧ Spec.LeftOf B l) ∧
    ¬ (Spec.Below B l ∧ Spec.RightOf B l) ∧ ¬ (Spec.Below B l ∧ Spec.LeftOf B l) ∧ ¬ (Spec.RightOf B l ∧ Spec.LeftOf B l) := by
  obtain ⟨h1, h2⟩ := hB
  obtain ⟨h3, h4⟩ := hl
  unfold Spec.Above Spec.Below Spec.RightOf Spec.LeftOf
  refine ⟨?_, ?_, ?_, ?_, ?_, ?_⟩ <;> rintro ⟨⟨_, _, _⟩, ⟨_, _, _⟩⟩ <;> linarith

/-- One side of the seam: the cells outside, the cells inside, the directions for each. -/
structure Side where
  ext : List AggCell
  int : List AggCell
  ds : List Dir
  es : List Dir

/-- The references added along one side. -/
def Side.refs (s : Side) : List (ℕ × Dir × ℕ) := tieT s.ext s.int s.ds ++ tieT s.int s.ext s.es

/-- The four sides of the seam between a mesh `m` that holds the cells of both and `m2`. -/
def sidesOf (m m2 : EnvMesh) (b : Boundary) : List Side :=
  [⟨m.northOf b, m2.topEdge, [.south, .southWest, .southEast], [.north, .northWest, .northEast]⟩,
   ⟨m.southOf b, m2.bottomEdge, [.north, .northWest, .northEast], [.south, .southWest, .southEast]⟩,
   ⟨m.eastOf b, m2.rightEdge, [.west, .southWest, .northWest], [.east, .southEast, .northEast]⟩,
   ⟨m.westOf b, m2.leftEdge, [.east, .southEast, .northEast], [.west, .southWest, .northWest]⟩]

theorem ties_eq (g : Graph) (m m2 : EnvMesh) (b : Boundary) :
    (do let g ← EnvMesh.tieNorthern g (m.northOf b) m2.topEdge
        let g ← EnvMesh.tieSouthern g (m.southOf b) m2.bottomEdge
        let g ← EnvMesh.tieEastern g (m.eastOf b) m2.rightEdge
        EnvMesh.tieWestern g (m.westOf b) m2.leftEdge) =
      ((sidesOf m m2 b).flatMap Side.refs).foldlM (fun (g : Graph) t => g.addNeighbour t.1 t.2.1 t.2.2) g := by
  rw [foldlM_flatMap']
  simp only [sidesOf, List.foldlM_cons, List.foldlM_nil, Side.refs, EnvMesh.tieNorthern, EnvMesh.tieSouthern, EnvMesh.tieEastern,
    EnvMesh.tieWestern, tie_eq, bind_pure]

theorem refs_nodup {s : Side} (he : (s.ext.map (·.id)).Nodup) (hi : (s.int.map (·.id)).Nodup) (hd : s.ds.Nodup) (hs : s.es.Nodup)
    (hdis : ∀ l ∈ s.ext, ∀ a ∈ s.int, l.id ≠ a.id) : s.refs.Nodup := by
  unfold Side.refs
  rw [List.nodup_append]
  refine ⟨nodup_tieT he hi hd, nodup_tieT hi he hs, ?_⟩
  rintro ⟨i, d, j⟩ h1 t h2 rfl
  obtain ⟨-, c, hc, -, -, e1, -⟩ := mem_tieT.1 h1
  obtain ⟨-, c', hc', -, -, e2, -⟩ := mem_tieT.1 h2
  exact hdis c hc c' hc' (e1.trans e2.symm)

theorem refs_disjoint {s t : Side} (hdis : ∀ l ∈ s.ext, ∀ l' ∈ t.ext, l.id ≠ l'.id)
    (h1 : ∀ l ∈ s.ext, ∀ a ∈ t.int, l.id ≠ a.id) (h2 : ∀ l ∈ t.ext, ∀ a ∈ s.int, l.id ≠ a.id) :
    List.Disjoint s.refs t.refs := by
  rw [List.disjoint_left]
  rintro ⟨i, d, j⟩ hs ht
  unfold Side.refs at hs ht
  rw [List.mem_append, mem_tieT, mem_tieT] at hs ht
  rcases hs with ⟨-, c, hc, x, hx, rfl, rfl, -⟩ | ⟨-, c, hc, x, hx, rfl, rfl, -⟩ <;>
  rcases ht with ⟨-, c', hc', x', hx', e1, e2, -⟩ | ⟨-, c', hc', x', hx', e1, e2, -⟩
  · exact hdis c hc c' hc' e1.symm
  · exact h1 c hc c' hc' e1.symm
  · exact h2 c' hc' c hc e1
  · exact hdis x hx x' hx' e2.symm

/-- The seam: with the graph of both meshes as a start, the four ties succeed and the result is exact
for the cells of both. -/
theorem ties_exact (m1 m2 : EnvMesh) (h1 : EnvOK m1) (h2 : EnvOK m2) (hB : (rectOf m2.bounds).Pos)
    (hids : ∀ l ∈ m1.cells, ∀ a ∈ m2.cells, l.id ≠ a.id)
    (hin : ∀ a ∈ m2.cells, Spec.Inside (rectOf m2.bounds) (rectOf a.bounds))
    (hal : ∀ l ∈ m1.cells, Spec.Aligned (rectOf m2.bounds) (rectOf l.bounds))
    (hout : ∀ l ∈ m1.cells, ¬ Spec.Inside (rectOf m2.bounds) (rectOf l.bounds))
    (g : Graph) (hg : ∀ i, g.look i = (m2.graph.look i).or (m1.graph.look i)) (m : EnvMesh) (hm : m.cells = m1.cells ++ m2.cells) :
    ∃ g', ((sidesOf m m2 m2.bounds).flatMap Side.refs).foldlM (fun (g : Graph) t => g.addNeighbour t.1 t.2.1 t.2.2) g = .ok g' ∧
      g'.isGlobal = g.isGlobal ∧ EnvOK { m with graph := g' } := by
  have pos1 : ∀ l ∈ m1.cells, (rectOf l.bounds).Pos := fun l hl => (EnvOK.pos h1 hl).1
  have pos2 : ∀ l ∈ m2.cells, (rectOf l.bounds).Pos := fun l hl => (EnvOK.pos h2 hl).1
  -- the selected cells
  have hN : ∀ l, l ∈ m.northOf m2.bounds ↔ l ∈ m1.cells ∧ Spec.Above (rectOf m2.bounds) (rectOf l.bounds) := by
    intro l
    simp only [EnvMesh.northOf, hm, List.mem_filter, List.mem_append, Bool.and_eq_true, decide_eq_true_eq, Spec.Above, rectOf, and_assoc]
    constructor
    · rintro ⟨hl | hl, h⟩
      · exact ⟨hl, h⟩
      · have := (pos2 l hl).2; have := (hin l hl).2.2.2
        simp only [rectOf] at *; obtain ⟨e, -⟩ := h; linarith
    · rintro ⟨hl, h⟩; exact ⟨Or.inl hl, h⟩
  have hS : ∀ l, l ∈ m.southOf m2.bounds ↔ l ∈ m1.cells ∧ Spec.Below (rectOf m2.bounds) (rectOf l.bounds) := by
    intro l
    simp only [EnvMesh.southOf, hm, List.mem_filter, List.mem_append, Bool.and_eq_true, decide_eq_true_eq, Spec.Below, rectOf, and_assoc]
    constructor
    · rintro ⟨hl | hl, h⟩
      · exact ⟨hl, h⟩
      · have := (pos2 l hl).2; have := (hin l hl).2.2.1
        simp only [rectOf] at *; obtain ⟨e, -⟩ := h; linarith
    · rintro ⟨hl, h⟩; exact ⟨Or.inl hl, h⟩
  have hE : ∀ l, l ∈ m.eastOf m2.bounds ↔ l ∈ m1.cells ∧ Spec.RightOf (rectOf m2.bounds) (rectOf l.bounds) := by
    intro l
    simp only [EnvMesh.eastOf, hm, List.mem_filter, List.mem_append, Bool.and_eq_true, decide_eq_true_eq, Spec.RightOf, rectOf, and_assoc]
    constructor
    · rintro ⟨hl | hl, h⟩
      · exact ⟨hl, h⟩
      · have := (pos2 l hl).1; have := (hin l hl).2.1
        simp only [rectOf] at *; obtain ⟨e, -⟩ := h; linarith
    · rintro ⟨hl, h⟩; exact ⟨Or.inl hl, h⟩
  have hW : ∀ l, l ∈ m.westOf m2.bounds ↔ l ∈ m1.cells ∧ Spec.LeftOf (rectOf m2.bounds) (rectOf l.bounds) := by
    intro l
    simp only [EnvMesh.westOf, hm, List.mem_filter, List.mem_append, Bool.and_eq_true, decide_eq_true_eq, Spec.LeftOf, rectOf, and_assoc]
    constructor
    · rintro ⟨hl | hl, h⟩
      · exact ⟨hl, h⟩
      · have := (pos2 l hl).1; have := (hin l hl).1
        simp only [rectOf] at *; obtain ⟨e, -⟩ := h; linarith
    · rintro ⟨hl, h⟩; exact ⟨Or.inl hl, h⟩
  have iN : ∀ a, a ∈ m2.topEdge ↔ a ∈ m2.cells ∧ (rectOf a.bounds).n = (rectOf m2.bounds).n := by
    intro a; simp [EnvMesh.topEdge, rectOf]
  have iS : ∀ a, a ∈ m2.bottomEdge ↔ a ∈ m2.cells ∧ (rectOf a.bounds).s = (rectOf m2.bounds).s := by
    intro a; simp [EnvMesh.bottomEdge, rectOf]
  have iE : ∀ a, a ∈ m2.rightEdge ↔ a ∈ m2.cells ∧ (rectOf a.bounds).e = (rectOf m2.bounds).e := by
    intro a; simp [EnvMesh.rightEdge, rectOf]
  have iW : ∀ a, a ∈ m2.leftEdge ↔ a ∈ m2.cells ∧ (rectOf a.bounds).w = (rectOf m2.bounds).w := by
    intro a; simp [EnvMesh.leftEdge, rectOf]
  have idsM : (m.cells.map (·.id)).Nodup := by
    rw [hm, List.map_append, List.nodup_append]
    refine ⟨h1.ids, h2.ids, ?_⟩
    rintro i hi j hj rfl
    obtain ⟨l, hl, rfl⟩ := List.mem_map.1 hi
    obtain ⟨a, ha, e⟩ := List.mem_map.1 hj
    exact hids l hl a ha e.symm
  have extSub : ∀ s ∈ sidesOf m m2 m2.bounds, (∀ l ∈ s.ext, l ∈ m1.cells) ∧ (∀ a ∈ s.int, a ∈ m2.cells) ∧
      (s.ext.map (·.id)).Nodup ∧ (s.int.map (·.id)).Nodup ∧ s.ds.Nodup ∧ s.es.Nodup := by
    intro s hs
    simp only [sidesOf, List.mem_cons, List.not_mem_nil, or_false] at hs
    rcases hs with rfl | rfl | rfl | rfl
    · refine ⟨fun l hl => ((hN l).1 hl).1, fun a ha => ((iN a).1 ha).1, List.Nodup.sublist (List.filter_sublist.map _) idsM,
        List.Nodup.sublist (List.filter_sublist.map _) h2.ids, by simp, by simp⟩
    · refine ⟨fun l hl => ((hS l).1 hl).1, fun a ha => ((iS a).1 ha).1, List.Nodup.sublist (List.filter_sublist.map _) idsM,
        List.Nodup.sublist (List.filter_sublist.map _) h2.ids, by simp, by simp⟩
    · refine ⟨fun l hl => ((hE l).1 hl).1, fun a ha => ((iE a).1 ha).1, List.Nodup.sublist (List.filter_sublist.map _) idsM,
        List.Nodup.sublist (List.filter_sublist.map _) h2.ids, by simp, by simp⟩
    · refine ⟨fun l hl => ((hW l).1 hl).1, fun a ha => ((iW a).1 ha).1, List.Nodup.sublist (List.filter_sublist.map _) idsM,
        List.Nodup.sublist (List.filter_sublist.map _) h2.ids, by simp, by simp⟩
  have hT : ((sidesOf m m2 m2.bounds).flatMap Side.refs).Nodup := by
    rw [List.nodup_flatMap]
    constructor
    · intro s hs
      obtain ⟨e1, e2, e3, e4, e5, e6⟩ := extSub s hs
      exact refs_nodup e3 e4 e5 e6 (fun l hl a ha => hids l (e1 l hl) a (e2 a ha))
    · have key : ∀ s ∈ sidesOf m m2 m2.bounds, ∀ t ∈ sidesOf m m2 m2.bounds, (∀ l ∈ s.ext, l ∉ t.ext) → List.Disjoint s.refs t.refs := by
        intro s hs t ht hst
        obtain ⟨e1, e2, -⟩ := extSub s hs
        obtain ⟨f1, f2, -⟩ := extSub t ht
        refine refs_disjoint ?_ (fun l hl a ha => hids l (e1 l hl) a (f2 a ha)) (fun l hl a ha => hids l (f1 l hl) a (e2 a ha))
        intro l hl l' hl' e
        exact hst l hl (List.inj_on_of_nodup_map h1.ids (e1 l hl) (f1 l' hl') e ▸ hl')
      have ex := fun l (hl : l ∈ m1.cells) => sides_exclusive hB (pos1 l hl)
      simp only [sidesOf, Function.onFun, List.pairwise_cons, List.mem_cons, List.not_mem_nil, or_false, forall_eq_or_imp, forall_eq,
        List.Pairwise.nil, and_true, false_imp_iff, implies_true]
      refine ⟨⟨key _ (by simp [sidesOf]) _ (by simp [sidesOf]) ?_, key _ (by simp [sidesOf]) _ (by simp [sidesOf]) ?_,
        key _ (by simp [sidesOf]) _ (by simp [sidesOf]) ?_⟩, ⟨key _ (by simp [sidesOf]) _ (by simp [sidesOf]) ?_,
        key _ (by simp [sidesOf]) _ (by simp [sidesOf]) ?_⟩, key _ (by simp [sidesOf]) _ (by simp [sidesOf]) ?_⟩ <;>
      intro l hl hl' <;> simp only [hN, hS, hE, hW] at hl hl'
      · exact (ex l hl.1).1 ⟨hl.2, hl'.2⟩
      · exact (ex l hl.1).2.1 ⟨hl.2, hl'.2⟩
      · exact (ex l hl.1).2.2.1 ⟨hl.2, hl'.2⟩
      · exact (ex l hl.1).2.2.2.1 ⟨hl.2, hl'.2⟩
      · exact (ex l hl.1).2.2.2.2.1 ⟨hl.2, hl'.2⟩
      · exact (ex l hl.1).2.2.2.2.2 ⟨hl.2, hl'.2⟩
  have hmem : ∀ i d j, (i, d, j) ∈ (sidesOf m m2 m2.bounds).flatMap Side.refs ↔
      ∃ a b, Touches d a b ∧ ((envRect m1 i = some a ∧ envRect m2 j = some b) ∨ (envRect m2 i = some a ∧ envRect m1 j = some b)) := by
    intro i d j
    rw [List.mem_flatMap]
    constructor
    · rintro ⟨s, hs, h⟩
      obtain ⟨e1, e2, -⟩ := extSub s hs
      unfold Side.refs at h
      rw [List.mem_append, mem_tieT, mem_tieT] at h
      rcases h with ⟨-, c, hc, x, hx, rfl, rfl, h⟩ | ⟨-, c, hc, x, hx, rfl, rfl, h⟩
      · exact ⟨_, _, (neighbourCaseBounds_iff _ _ (pos1 c (e1 c hc)) (pos2 x (e2 x hx)) d).1 h,
          Or.inl ⟨(envRect_iff h1.ids _ _).2 ⟨c, e1 c hc, rfl, rfl⟩, (envRect_iff h2.ids _ _).2 ⟨x, e2 x hx, rfl, rfl⟩⟩⟩
      · exact ⟨_, _, (neighbourCaseBounds_iff _ _ (pos2 c (e2 c hc)) (pos1 x (e1 x hx)) d).1 h,
          Or.inr ⟨(envRect_iff h2.ids _ _).2 ⟨c, e2 c hc, rfl, rfl⟩, (envRect_iff h1.ids _ _).2 ⟨x, e1 x hx, rfl, rfl⟩⟩⟩
    · rintro ⟨ra, rb, ht, ⟨ea, eb⟩ | ⟨ea, eb⟩⟩
      · obtain ⟨l, hl, rfl, rfl⟩ := (envRect_iff h1.ids _ _).1 ea
        obtain ⟨a, ha, rfl, rfl⟩ := (envRect_iff h2.ids _ _).1 eb
        have hc := (neighbourCaseBounds_iff _ _ (pos1 l hl) (pos2 a ha) d).2 ht
        have := touches_sides (pos1 l hl) (pos2 a ha) (hal l hl) (hout l hl) (hin a ha) ht
        simp only [sidesOf, List.mem_cons, List.not_mem_nil, or_false, exists_eq_or_imp, exists_eq_left, Side.refs, List.mem_append, mem_tieT]
        rcases this with ⟨s, e, hd⟩ | ⟨s, e, hd⟩ | ⟨s, e, hd⟩ | ⟨s, e, hd⟩
        · exact Or.inl (Or.inl ⟨by simpa using hd, l, (hN l).2 ⟨hl, s⟩, a, (iN a).2 ⟨ha, e⟩, rfl, rfl, hc⟩)
        · exact Or.inr (Or.inl (Or.inl ⟨by simpa using hd, l, (hS l).2 ⟨hl, s⟩, a, (iS a).2 ⟨ha, e⟩, rfl, rfl, hc⟩))
        · exact Or.inr (Or.inr (Or.inl (Or.inl ⟨by simpa using hd, l, (hE l).2 ⟨hl, s⟩, a, (iE a).2 ⟨ha, e⟩, rfl, rfl, hc⟩)))
        · exact Or.inr (Or.inr (Or.inr (Or.inl ⟨by simpa using hd, l, (hW l).2 ⟨hl, s⟩, a, (iW a).2 ⟨ha, e⟩, rfl, rfl, hc⟩)))
      · obtain ⟨a, ha, rfl, rfl⟩ := (envRect_iff h2.ids _ _).1 ea
        obtain ⟨l, hl, rfl, rfl⟩ := (envRect_iff h1.ids _ _).1 eb
        have hc := (neighbourCaseBounds_iff _ _ (pos2 a ha) (pos1 l hl) d).2 ht
        have := touches_sides (d := d.opp) (pos1 l hl) (pos2 a ha) (hal l hl) (hout l hl) (hin a ha) ((touches_opp d _ _).2 ht)
        simp only [sidesOf, List.mem_cons, List.not_mem_nil, or_false, exists_eq_or_imp, exists_eq_left, Side.refs, List.mem_append, mem_tieT]
        rcases this with ⟨s, e, hd⟩ | ⟨s, e, hd⟩ | ⟨s, e, hd⟩ | ⟨s, e, hd⟩
        · exact Or.inl (Or.inr ⟨by revert hd; cases d <;> decide, a, (iN a).2 ⟨ha, e⟩, l, (hN l).2 ⟨hl, s⟩, rfl, rfl, hc⟩)
        · exact Or.inr (Or.inl (Or.inr ⟨by revert hd; cases d <;> decide, a, (iS a).2 ⟨ha, e⟩, l, (hS l).2 ⟨hl, s⟩, rfl, rfl, hc⟩))
        · exact Or.inr (Or.inr (Or.inl (Or.inr ⟨by revert hd; cases d <;> decide, a, (iE a).2 ⟨ha, e⟩, l, (hE l).2 ⟨hl, s⟩, rfl, rfl, hc⟩)))
        · exact Or.inr (Or.inr (Or.inr (Or.inr ⟨by revert hd; cases d <;> decide, a, (iW a).2 ⟨ha, e⟩, l, (hW l).2 ⟨hl, s⟩, rfl, rfl, hc⟩)))
  obtain ⟨g', hg1, hg2, hg3⟩ := addAll_ok ((sidesOf m m2 m2.bounds).flatMap Side.refs) g (by
    rintro ⟨i, d, j⟩ ht
    obtain ⟨a, b, -, ⟨e, -⟩ | ⟨e, -⟩⟩ := (hmem i d j).1 ht
    · have := (h1.graph.keys i).2 (by rw [e]; rfl)
      rw [hg]; simp only [Option.isSome_or, Bool.or_eq_true]; exact Or.inr this
    · have := (h2.graph.keys i).2 (by rw [e]; rfl)
      rw [hg]; simp only [Option.isSome_or, Bool.or_eq_true]; exact Or.inl this)
  refine ⟨g', hg1, hg2, idsM, ?_, ?_⟩
  · intro c hc
    simp only [hm, List.mem_append] at hc
    exact hc.elim (h1.valid c) (h2.valid c)
  · have hdis : ∀ i, envRect m1 i = none ∨ envRect m2 i = none := by
      intro i
      cases e1 : envRect m1 i with
      | none => exact Or.inl rfl
      | some a =>
        right
        cases e2 : envRect m2 i with
        | none => rfl
        | some b =>
          obtain ⟨l, hl, i1, -⟩ := (envRect_iff h1.ids _ _).1 e1
          obtain ⟨a, ha, i2, -⟩ := (envRect_iff h2.ids _ _).1 e2
          exact absurd (i1.trans i2.symm) (hids l hl a ha)
    have hrect : envRect { m with graph := g' } = fun i => (envRect m2 i).or (envRect m1 i) := by
      funext i
      ext r
      rw [envRect_iff (m := { m with graph := g' }) idsM]
      have h' : ((envRect m2 i).or (envRect m1 i) = some r) ↔ (envRect m1 i = some r ∨ envRect m2 i = some r) := by
        rcases hdis i with e | e <;> simp [e]
      rw [h', envRect_iff h1.ids, envRect_iff h2.ids]
      simp only [hm, List.mem_append]
      constructor
      · rintro ⟨c, hc | hc, h⟩
        · exact Or.inl ⟨c, hc, h⟩
        · exact Or.inr ⟨c, hc, h⟩
      · rintro (⟨c, hc, h⟩ | ⟨c, hc, h⟩)
        · exact ⟨c, Or.inl hc, h⟩
        · exact ⟨c, Or.inr hc, h⟩
    rw [hrect]
    refine Spec.Exact.union h1.graph h2.graph hdis ?_ _ hT hmem ?_
    · intro i j a b ea eb ⟨o1, o2, o3, o4⟩
      obtain ⟨l, hl, -, rfl⟩ := (envRect_iff h1.ids _ _).1 ea
      obtain ⟨c, hc, -, rfl⟩ := (envRect_iff h2.ids _ _).1 eb
      obtain ⟨i1, i2, i3, i4⟩ := hin c hc
      have ho := hout l hl
      have ha := hal l hl
      unfold Spec.Inside at ho
      unfold Spec.Aligned at ha
      grind
    · intro i
      have := hg3 i
      rw [hg] at this
      exact this

end Verif
