import Verif.Proof.EnvOps
import Verif.Props.EnvJson

/-!
# Properties C40, C41, C44: renumbering, removing and updating cells
-/

namespace Verif
open Spec

/-! ## C40 -/

/-- C40: renumbering by `n` is an isomorphism: cell by cell the id grows by `n` while bounds and all
data except the entry `id` stay; a node `j` of the new graph exists exactly if it is `i + n` for a node
`i` of the old one, and then it has `x + n` under `d`, at the same position, exactly where the old node
had `x`. -/
theorem C40_isomorphism (m : EnvMesh) (hk : m.graph.KeysNodup) (n : ℕ) :
    (m.incrementIds n).cells.length = m.cells.length ∧
    (∀ (p : ℕ) (c : AggCell), m.cells[p]? = some c → ∃ c', (m.incrementIds n).cells[p]? = some c' ∧
      c'.id = c.id + n ∧ c'.bounds = c.bounds ∧ SameData c' c) ∧
    (∀ j, ((m.incrementIds n).graph.look j).isSome ↔ ∃ i, j = i + n ∧ (m.graph.look i).isSome) ∧
    (∀ i d f f', m.graph.look i = some f → (m.incrementIds n).graph.look (i + n) = some f' →
      (f' d).length = (f d).length ∧ ∀ p : ℕ, (f' d)[p]? = (f d)[p]?.map (· + n)) ∧
    (m.incrementIds n).graph.isGlobal = m.graph.isGlobal := by
  have hl : ∀ i, (m.incrementIds n).graph.look i = if n ≤ i then (m.graph.look (i - n)).map (shiftMap n) else none :=
    fun i => incrementGraph_look hk n i
  refine ⟨by simp [EnvMesh.incrementIds], ?_, ?_, ?_, rfl⟩
  · intro p c hp
    refine ⟨EnvMesh.incrementCell n c, by simp [EnvMesh.incrementIds, hp], rfl, rfl, ?_⟩
    intro key hkey
    simp only [EnvMesh.incrementCell, Dict.get?_set]
    rw [if_neg (fun e => hkey e.symm)]
  · intro j
    rw [hl]
    constructor
    · intro h
      by_cases hn : n ≤ j
      · rw [if_pos hn, Option.isSome_map] at h
        exact ⟨j - n, by omega, h⟩
      · rw [if_neg hn] at h; cases h
    · rintro ⟨i, rfl, hi⟩
      simpa using hi
  · intro i d f f' hf hf'
    rw [hl] at hf'
    simp only [Nat.le_add_left, if_true, Nat.add_sub_cancel, hf, Option.map_some, Option.some.injEq] at hf'
    subst hf'
    simp [shiftMap]

/-- C40: the graph property behind it, in terms of membership, and consistency of the renumbered
mesh. -/
theorem C40_consistent (m : EnvMesh) (h : EnvOK m) (hk : m.graph.KeysNodup) (n : ℕ) :
    EnvOK (m.incrementIds n) ∧ (∀ i, envRect (m.incrementIds n) (i + n) = envRect m i) ∧
    ∀ i d j f f', m.graph.look i = some f → (m.incrementIds n).graph.look (i + n) = some f' → (j + n ∈ f' d ↔ j ∈ f d) := by
  refine ⟨increment_ok h hk n, ?_, ?_⟩
  · intro i; rw [increment_rect h.ids]; simp
  · intro i d j f f' hf hf'
    have := incrementGraph_look hk n (i + n)
    rw [show (m.incrementIds n).graph = EnvMesh.incrementGraph m.graph n from rfl] at hf'
    rw [hf'] at this
    simp only [Nat.le_add_left, if_true, Nat.add_sub_cancel, hf, Option.map_some, Option.some.injEq] at this
    subst this
    simp [shiftMap]

/-- C40, composition (partial): renumbering by `n` and then by `k` gives the graph of renumbering by
`n + k`, and the same ids, bounds and data except the data entry `id`, which is wrong
(`C40_data_id_false`). -/
theorem C40_compose_partial (m : EnvMesh) (hk : m.graph.KeysNodup) (n k : ℕ) :
    (∀ i d, (((m.incrementIds n).incrementIds k).graph.look i).map (· d) = ((m.incrementIds (n + k)).graph.look i).map (· d)) ∧
    ((m.incrementIds n).incrementIds k).cells.length = m.cells.length ∧
    ∀ (p : ℕ) (c c' : AggCell), ((m.incrementIds n).incrementIds k).cells[p]? = some c → (m.incrementIds (n + k)).cells[p]? = some c' →
      c.id = c'.id ∧ c.bounds = c'.bounds ∧ SameData c c' := by
  refine ⟨?_, by simp [EnvMesh.incrementIds], ?_⟩
  · intro i d
    rw [show ((m.incrementIds n).incrementIds k).graph = EnvMesh.incrementGraph (EnvMesh.incrementGraph m.graph n) k from rfl,
      show (m.incrementIds (n + k)).graph = EnvMesh.incrementGraph m.graph (n + k) from rfl,
      incrementGraph_look (incrementGraph_keys hk n), incrementGraph_look hk, incrementGraph_look hk]
    by_cases h1 : n + k ≤ i
    · have h2 : k ≤ i := by omega
      have h3 : n ≤ i - k := by omega
      have h4 : i - k - n = i - (n + k) := by omega
      rw [if_pos h2, if_pos h3, if_pos h1, h4]
      cases m.graph.look (i - (n + k)) with
      | none => rfl
      | some f => simp [shiftMap]
    · rw [if_neg h1]
      by_cases h2 : k ≤ i
      · have h3 : ¬ n ≤ i - k := by omega
        rw [if_pos h2, if_neg h3]; rfl
      · rw [if_neg h2]
  · intro p c c' hc hc'
    simp only [EnvMesh.incrementIds, List.map_map, List.getElem?_map, Option.map_eq_some_iff] at hc hc'
    obtain ⟨c0, h0, rfl⟩ := hc
    obtain ⟨c1, h1, rfl⟩ := hc'
    rw [h0] at h1; cases h1
    refine ⟨by simp [EnvMesh.incrementCell, Nat.add_assoc], rfl, ?_⟩
    intro key hkey
    have hk' : ¬ "id" = key := fun e => hkey e.symm
    simp [EnvMesh.incrementCell, Dict.get?_set, hk']

/-- **The data entry `id` is wrong after renumbering**: it is the id plus the increment once more,
for every cell and every increment, so a positive increment always leaves a cell that contradicts
itself. -/
theorem C40_data_id_false (m : EnvMesh) (n : ℕ) (c : AggCell) (hc : c ∈ (m.incrementIds n).cells) :
    c.data.get? "id" = some (.str (toString (c.id + n))) := by
  simp only [EnvMesh.incrementIds, List.mem_map] at hc
  obtain ⟨c0, -, rfl⟩ := hc
  simp [EnvMesh.incrementCell, Dict.get?_set]

/-- The hypotheses of C40 hold for the loaded example mesh, whose cell 3 becomes 103. -/
example : ∃ m, exLoaded = .ok m ∧ EnvOK m ∧ m.graph.KeysNodup :=
  let ⟨m, h1, h2, _, _, _, _, h3⟩ := exLoaded_ok
  ⟨m, h1, h2, h3⟩

example : (exLoaded.map (fun m => ((m.incrementIds 100).cells.map (·.id), ((m.incrementIds 100).graph.look 103).map (fun f => f .south),
      (m.graph.look 3).map (fun f => f .south))) : Py (List ℕ × Option (List ℕ) × Option (List ℕ))) =
    .ok ([101, 102, 103, 104, 105, 106, 108, 109, 110, 111], some [101], some [1]) := by decide +kernel

/-! ## C41 -/

/-- C41: removing a node of a well-formed graph removes that node and every reference to it, and
changes nothing else (the order of the remaining entries included); the graph stays well-formed. -/
theorem C41_remove_node (g : Graph) (hw : WellFormed g.look) (k : ℕ) (hk : (g.look k).isSome) :
    ∃ g', g.removeNodeAndUpdateNeighbours k = .ok g' ∧ WellFormed g'.look ∧ g'.isGlobal = g.isGlobal ∧ g'.look k = none ∧
      (∀ i, i ≠ k → ((g'.look i).isSome ↔ (g.look i).isSome)) ∧
      (∀ i f d, i ≠ k → g.look i = some f → ∃ f', g'.look i = some f' ∧ f' d = (f d).filter (fun x => x ≠ k)) ∧
      ∀ i f' d, g'.look i = some f' → k ∉ f' d := by
  obtain ⟨L, hL⟩ := Option.isSome_iff_exists.1 hk
  obtain ⟨g', h1, h2, h3, h4⟩ := removeNode_wellFormed hw hL
  refine ⟨g', h1, Spec.WellFormed.remove hw h3 h4, h2, h3, ?_, ?_, ?_⟩
  · intro i hi; rw [h4 i hi, Option.isSome_map]
  · intro i f d hi hf
    exact ⟨_, by rw [h4 i hi, hf]; rfl, rfl⟩
  · intro i f' d hf'
    by_cases hi : i = k
    · subst hi; rw [h3] at hf'; cases hf'
    · rw [h4 i hi, Option.map_eq_some_iff] at hf'
      obtain ⟨f, -, rfl⟩ := hf'
      simp

/-- Removing a node that the graph does not have raises `KeyError`. -/
theorem C41_missing (g : Graph) (k : ℕ) (hk : g.look k = none) : g.removeNodeAndUpdateNeighbours k = .error .keyError := by
  have : ∀ d, g.removeNodeFromNeighbours k d = .error .keyError := by
    intro d
    unfold Graph.removeNodeFromNeighbours Graph.getNeighbours Dict.get
    unfold Graph.look at hk
    simp only [hk, bind, Except.bind]
  unfold Graph.removeNodeAndUpdateNeighbours
  have h2 : Dir.all.foldlM (fun g d => g.removeNodeFromNeighbours k d) g = .error .keyError := by
    unfold Dir.all
    rw [List.foldlM_cons, this]
    rfl
  rw [h2]
  rfl

/-- C41 on meshes: removing a cell of a consistent mesh removes that cell only; the graph is exactly
the adjacency of the remaining cells. -/
theorem C41_remove_cell (m : EnvMesh) (h : EnvOK m) (c : AggCell) (hc : c ∈ m.cells) :
    ∃ m', m.removeCellbox c = .ok m' ∧ EnvOK m' ∧ m'.cells = m.cells.filter (fun x => x ≠ c) ∧ m'.config = m.config ∧ m'.bounds = m.bounds := by
  obtain ⟨g', h1, h2, -⟩ := envRemove_ok m h c hc
  exact ⟨_, h1, h2, rfl, rfl, rfl⟩

/-- The graph of the loaded example mesh is well-formed and has a node 4. -/
example : ∃ m, exLoaded = .ok m ∧ WellFormed m.graph.look ∧ (m.graph.look 4).isSome := by
  obtain ⟨m, h1, h2, -⟩ := exLoaded_ok
  refine ⟨m, h1, h2.graph.wellFormed, ?_⟩
  have : (exLoaded.map (fun m => (m.graph.look 4).isSome) : Py Bool) = .ok true := by decide +kernel
  rw [h1] at this
  simpa [Except.map] using this

/-! ## C44 -/

/-- C44 (partial): for an index into the list, exactly the cell at that index changes: it keeps
bounds and id, the given values are written into its data, and its other data stays. -/
theorem C44_update_partial (m : EnvMesh) (i : ℕ) (c : AggCell) (hc : m.cells[i]? = some c) (values : Dict String Val) :
    ∃ m', m.updateCellbox i values = .ok m' ∧ m'.graph.nodes = m.graph.nodes ∧ m'.cells.length = m.cells.length ∧
      (∀ j, j ≠ i → m'.cells[j]? = m.cells[j]?) ∧
      ∃ c', m'.cells[i]? = some c' ∧ c'.bounds = c.bounds ∧ c'.id = c.id ∧
        (∀ key, key ∉ values.map Prod.fst → c'.data.get? key = c.data.get? key) ∧
        ((values.map Prod.fst).Nodup → ∀ key v, (key, v) ∈ values → c'.data.get? key = some v) := by
  have hlt : i < m.cells.length := (List.getElem?_eq_some_iff.1 hc).1
  have hcond : ((i : ℤ) > -1 ∨ (i : ℤ) < m.cells.length) := Or.inl (by omega)
  refine ⟨{ m with cells := m.cells.set i { c with data := c.data.update values } }, ?_, rfl, by simp, ?_, ?_⟩
  · unfold EnvMesh.updateCellbox
    rw [if_pos hcond]
    have h0 : ¬ ((i : ℤ) < 0) := by omega
    simp only [if_neg h0, Int.toNat_natCast, hc]
  · intro j hj
    simp only [List.getElem?_set]
    rw [if_neg (fun e => hj e.symm)]
  · refine ⟨{ c with data := c.data.update values }, by simp [hlt], rfl, rfl, ?_, ?_⟩
    · intro key hkey
      unfold Dict.update
      exact Dict.get?_foldl_set_of_not Prod.fst Prod.snd values c.data key (fun p hp e => hkey (e ▸ List.mem_map_of_mem hp))
    · intro hnd key v hv
      unfold Dict.update
      simp only
      generalize c.data = d
      induction values generalizing d with
      | nil => simp at hv
      | cons p l ih =>
        obtain ⟨n1, n2⟩ := List.nodup_cons.1 (by simpa using hnd : (p.1 :: l.map Prod.fst).Nodup)
        rw [List.foldl_cons]
        rcases List.mem_cons.1 hv with rfl | hv
        · rw [Dict.get?_foldl_set_of_not Prod.fst Prod.snd l _ key (fun q hq e => n1 (show key ∈ l.map Prod.fst from e ▸ List.mem_map_of_mem (f := Prod.fst) hq)), Dict.get?_set, if_pos rfl]
        · exact ih n2 hv _

/-- **C44 is false for wrong indices**: no index whatsoever raises `ValueError`.  Indices beyond the
ends raise `IndexError`, and a negative index `-k` changes the `k`-th cell from the end. -/
theorem C44_wrong_index_false (m : EnvMesh) (values : Dict String Val) :
    (∀ index, m.updateCellbox index values ≠ .error .valueError) ∧
    (∀ index : ℤ, index ≥ m.cells.length → m.updateCellbox index values = .error .indexError) ∧
    (∀ index : ℤ, index < -m.cells.length → m.updateCellbox index values = .error .indexError) ∧
    (∀ k : ℕ, 0 < k → k ≤ m.cells.length → m.updateCellbox (-k) values = m.updateCellbox (m.cells.length - k : ℕ) values ∧
      ∃ m', m.updateCellbox (-k) values = .ok m') := by
  have hcond : ∀ index : ℤ, index > -1 ∨ index < m.cells.length := by intro index; omega
  refine ⟨?_, ?_, ?_, ?_⟩
  · intro index h
    unfold EnvMesh.updateCellbox at h
    rw [if_pos (hcond index)] at h
    simp only at h
    generalize (if index < 0 then index + (m.cells.length : ℤ) else index) = i at h
    split at h
    · cases h
    · split at h <;> cases h
  · intro index hi
    unfold EnvMesh.updateCellbox
    rw [if_pos (hcond index)]
    have h0 : ¬ index < 0 := by omega
    have hn : m.cells[index.toNat]? = none := by rw [List.getElem?_eq_none]; omega
    simp only [if_neg h0, hn]
  · intro index hi
    unfold EnvMesh.updateCellbox
    rw [if_pos (hcond index)]
    have h0 : index < 0 := by omega
    have h1 : index + (m.cells.length : ℤ) < 0 := by omega
    simp only [if_pos h0, if_pos h1]
  · intro k hk hle
    have e : m.updateCellbox (-k) values = m.updateCellbox (m.cells.length - k : ℕ) values := by
      unfold EnvMesh.updateCellbox
      rw [if_pos (hcond _), if_pos (hcond _)]
      have h0 : (-(k : ℤ)) < 0 := by omega
      have h1 : ¬ (((m.cells.length - k : ℕ) : ℤ) < 0) := by omega
      have h2 : -(k : ℤ) + (m.cells.length : ℤ) = ((m.cells.length - k : ℕ) : ℤ) := by omega
      simp only [if_pos h0, if_neg h1, h2]
    refine ⟨e, ?_⟩
    have hlt : m.cells.length - k < m.cells.length := by omega
    obtain ⟨m', hm', -⟩ := C44_update_partial m (m.cells.length - k) _ (List.getElem?_eq_getElem hlt) values
    exact ⟨m', by rw [e, hm']⟩

/-- The loaded example has a cell at index 9 and none at index 10. -/
example : (exLoaded.map (fun m => ((m.cells[9]?).map (·.id), (m.cells[10]?).map (·.id))) : Py (Option ℕ × Option ℕ)) = .ok (some 11, none) := by
  decide +kernel

example : (exLoaded.map (fun m => (m.updateCellbox (-1) [("z", .num (some 1))]).map (fun m => m.cells.map (fun c => c.data.get? "z"))) :
      Py (Py (List (Option Val)))) =
    .ok (.ok [none, none, none, none, none, none, none, none, none, some (.num (some 1))]) := by
  decide +kernel

end Verif
