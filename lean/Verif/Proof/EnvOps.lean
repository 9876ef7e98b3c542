import Verif.Proof.EnvBuild

/-!
# Removing cells and renumbering
-/

namespace Verif
open Spec

/-- Removing a cell of a consistent mesh. -/
theorem envRemove_ok (m : EnvMesh) (h : EnvOK m) (c : AggCell) (hc : c ∈ m.cells) :
    ∃ g' : Graph, m.removeCellbox c = .ok { m with cells := m.cells.filter (fun x => x ≠ c), graph := g' } ∧
      EnvOK { m with cells := m.cells.filter (fun x => x ≠ c), graph := g' } ∧ g'.isGlobal = m.graph.isGlobal ∧
      g'.look c.id = none ∧ ∀ i, i ≠ c.id → g'.look i = (m.graph.look i).map (fun f d => (f d).filter (fun x => x ≠ c.id)) := by
  have hw : WellFormed m.graph.look := h.graph.wellFormed
  have hr : envRect m c.id = some (rectOf c.bounds) := (envRect_iff h.ids _ _).2 ⟨c, hc, rfl, rfl⟩
  obtain ⟨L, hL⟩ := Option.isSome_iff_exists.1 ((h.graph.keys c.id).2 (by rw [hr]; rfl))
  obtain ⟨g', h1, h2, h3, h4⟩ := removeNode_wellFormed hw hL
  have hrem : EnvMesh.removeFromList m.cells c = m.cells.filter (fun x => x ≠ c) := by
    have := removeFromList_eq h.ids hc []
    simpa using this
  refine ⟨g', ?_, ⟨?_, ?_, ?_⟩, h2, h3, h4⟩
  · unfold EnvMesh.removeCellbox
    simp only [h1, bind, Except.bind, pure, Except.pure, hrem]
  · exact List.Nodup.sublist (List.filter_sublist.map _) h.ids
  · intro x hx
    exact h.valid x (List.mem_filter.1 hx).1
  · have hE := Spec.Exact.remove h.graph (nbrs' := g'.look) h3 h4
    have e : envRect { m with cells := m.cells.filter (fun x => x ≠ c), graph := g' } = fun i => if i = c.id then none else envRect m i := by
      funext i
      ext r
      rw [envRect_iff (m := { m with cells := m.cells.filter (fun x => x ≠ c), graph := g' }) (List.Nodup.sublist (List.filter_sublist.map _) h.ids)]
      simp only [List.mem_filter, ne_eq, decide_eq_true_eq]
      by_cases hi : i = c.id
      · subst hi
        simp only [if_true]
        constructor
        · rintro ⟨x, ⟨hx, hne⟩, hid, -⟩
          exact absurd (List.inj_on_of_nodup_map h.ids hx hc hid) hne
        · intro h; cases h
      · simp only [if_neg hi]
        rw [envRect_iff h.ids]
        constructor
        · rintro ⟨x, ⟨hx, -⟩, hid, hb⟩; exact ⟨x, hx, hid, hb⟩
        · rintro ⟨x, hx, hid, hb⟩; exact ⟨x, ⟨hx, fun e => hi (by rw [← hid, e])⟩, hid, hb⟩
    rw [e]
    exact hE

/-- All references of a neighbour map moved by `n`. -/
def shiftMap (n : ℕ) (f : NMap) : NMap := fun d => (f d).map (· + n)

theorem incrementGraph_nodes {g : Graph} (hk : g.KeysNodup) (n : ℕ) :
    (EnvMesh.incrementGraph g n).nodes = g.nodes.map (fun p => (p.1 + n, shiftMap n p.2)) := by
  unfold EnvMesh.incrementGraph
  simp only
  rw [Dict.foldl_set_append (fun p : ℕ × NMap => p.1 + n) (fun p : ℕ × NMap => fun d => (p.2 d).map (· + n))]
  · rw [List.nil_append]; rfl
  · have : (g.nodes.map (fun p => p.1 + n)) = (g.nodes.map Prod.fst).map (· + n) := by simp
    rw [this]
    exact List.Nodup.map (fun a b h => by simpa using h) hk
  · simp

theorem get?_map_shift (d : Dict ℕ NMap) (n i : ℕ) :
    Dict.get? (d.map (fun p => (p.1 + n, shiftMap n p.2))) i = if n ≤ i then (Dict.get? d (i - n)).map (shiftMap n) else none := by
  induction d with
  | nil => simp [Dict.get?]
  | cons p r ih =>
    obtain ⟨a, f⟩ := p
    simp only [List.map_cons, Dict.get?, ih]
    by_cases h : a + n = i
    · subst h; simp
    · have h' : n ≤ i → a ≠ i - n := by omega
      rw [if_neg h]
      by_cases hn : n ≤ i
      · simp only [if_pos hn, if_neg (h' hn)]
      · simp only [if_neg hn]

theorem incrementGraph_look {g : Graph} (hk : g.KeysNodup) (n i : ℕ) :
    (EnvMesh.incrementGraph g n).look i = if n ≤ i then (g.look (i - n)).map (shiftMap n) else none := by
  unfold Graph.look
  rw [incrementGraph_nodes hk, get?_map_shift]

theorem incrementGraph_keys {g : Graph} (hk : g.KeysNodup) (n : ℕ) : (EnvMesh.incrementGraph g n).KeysNodup := by
  unfold Graph.KeysNodup
  rw [incrementGraph_nodes hk, List.map_map]
  have : (Prod.fst ∘ fun p : ℕ × NMap => (p.1 + n, shiftMap n p.2)) = (fun p => p.1 + n) := rfl
  rw [this]
  have : (g.nodes.map (fun p => p.1 + n)) = (g.nodes.map Prod.fst).map (· + n) := by simp
  rw [this]
  exact List.Nodup.map (fun a b h => by simpa using h) hk

theorem increment_rect {m : EnvMesh} (hids : (m.cells.map (·.id)).Nodup) (n i : ℕ) :
    envRect (m.incrementIds n) i = if n ≤ i then envRect m (i - n) else none := by
  have hids' : ((m.incrementIds n).cells.map (·.id)).Nodup := by
    have : (m.incrementIds n).cells.map (·.id) = (m.cells.map (·.id)).map (· + n) := by
      simp [EnvMesh.incrementIds, EnvMesh.incrementCell]
    rw [this]
    exact List.Nodup.map (fun a b h => by simpa using h) hids
  ext r
  rw [envRect_iff hids']
  simp only [EnvMesh.incrementIds, List.mem_map, exists_exists_and_eq_and, EnvMesh.incrementCell]
  by_cases hn : n ≤ i
  · rw [if_pos hn, envRect_iff hids]
    constructor
    · rintro ⟨c, hc, e, hr⟩; exact ⟨c, hc, by omega, hr⟩
    · rintro ⟨c, hc, e, hr⟩; exact ⟨c, hc, by omega, hr⟩
  · rw [if_neg hn]
    constructor
    · rintro ⟨c, hc, e, hr⟩; omega
    · intro h; cases h

/-- Renumbering keeps a mesh consistent. -/
theorem increment_ok {m : EnvMesh} (h : EnvOK m) (hk : m.graph.KeysNodup) (n : ℕ) : EnvOK (m.incrementIds n) := by
  have hl : ∀ i, (m.incrementIds n).graph.nodes.get? i = if n ≤ i then (m.graph.look (i - n)).map (shiftMap n) else none :=
    fun i => incrementGraph_look hk n i
  have hr := increment_rect h.ids n
  refine ⟨?_, ?_, ⟨?_, ?_, ?_, ?_, ?_⟩⟩
  · have : (m.incrementIds n).cells.map (·.id) = (m.cells.map (·.id)).map (· + n) := by
      simp [EnvMesh.incrementIds, EnvMesh.incrementCell]
    rw [this]
    exact List.Nodup.map (fun a b h => by simpa using h) h.ids
  · intro c hc
    simp only [EnvMesh.incrementIds, List.mem_map] at hc
    obtain ⟨c0, hc0, rfl⟩ := hc
    exact h.valid c0 hc0
  · intro i
    rw [hl, hr]
    by_cases hn : n ≤ i
    · simp only [if_pos hn, Option.isSome_map]
      exact h.graph.keys _
    · simp [hn]
  · intro i r hi
    rw [hr] at hi
    by_cases hn : n ≤ i
    · rw [if_pos hn] at hi; exact h.graph.ok _ _ hi
    · rw [if_neg hn] at hi; cases hi
  · intro i j a b hij hi hj
    rw [hr] at hi hj
    by_cases hn : n ≤ i
    · by_cases hn' : n ≤ j
      · rw [if_pos hn] at hi; rw [if_pos hn'] at hj
        exact h.graph.disjoint _ _ a b (by omega) hi hj
      · rw [if_neg hn'] at hj; cases hj
    · rw [if_neg hn] at hi; cases hi
  · intro i f d hf
    rw [hl] at hf
    by_cases hn : n ≤ i
    · rw [if_pos hn, Option.map_eq_some_iff] at hf
      obtain ⟨f0, hf0, rfl⟩ := hf
      exact List.Nodup.map (fun a b h => by simpa using h) (h.graph.nodup _ f0 d hf0)
    · rw [if_neg hn] at hf; cases hf
  · intro i f d j a hf hi
    rw [hl] at hf
    rw [hr] at hi
    by_cases hn : n ≤ i
    · rw [if_pos hn, Option.map_eq_some_iff] at hf
      obtain ⟨f0, hf0, rfl⟩ := hf
      rw [if_pos hn] at hi
      have := h.graph.mem (i - n) f0 d
      rw [hr]
      constructor
      · intro hj
        obtain ⟨j0, hj0, rfl⟩ := List.mem_map.1 hj
        obtain ⟨b, hb, hab⟩ := (this j0 a hf0 hi).1 hj0
        refine ⟨b, ?_, hab⟩
        simpa using hb
      · rintro ⟨b, hb, hab⟩
        by_cases hj : n ≤ j
        · rw [if_pos hj] at hb
          refine List.mem_map.2 ⟨j - n, (this (j - n) a hf0 hi).2 ⟨b, hb, hab⟩, by omega⟩
        · rw [if_neg hj] at hb; cases hb
    · rw [if_neg hn] at hf; cases hf

end Verif
