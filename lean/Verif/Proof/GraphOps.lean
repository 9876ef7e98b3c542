import Verif.Model.MeshBuilder

/-!
# Pointwise description of the graph operations
-/

namespace Verif

namespace Graph

/-- The neighbour map of a node. -/
def look (g : Graph) (i : ℕ) : Option NMap := g.nodes.get? i

theorem getNeighbours_ok {g : Graph} {i : ℕ} {m : NMap} (h : g.look i = some m) (d : Dir) :
    g.getNeighbours i d = .ok (m d) := by
  unfold look at h
  simp [getNeighbours, Dict.get, h, bind, Except.bind, pure, Except.pure]

/-- `g'` is `g` with node `i` changed to `m`. -/
def SetAt (g g' : Graph) (i : ℕ) (m : NMap) : Prop :=
  g'.isGlobal = g.isGlobal ∧ ∀ j, g'.look j = if j = i then some m else g.look j

theorem setAt_modify {g : Graph} {i : ℕ} {m m' : NMap} (h : g.look i = some m) (f : NMap → Py NMap)
    (hf : f m = .ok m') :
    ∃ g', (do let ns ← g.nodes.modifyM i f; return { g with nodes := ns } : Py Graph) = .ok g' ∧ SetAt g g' i m' := by
  unfold look at h
  refine ⟨{ g with nodes := g.nodes.set i m' }, ?_, rfl, ?_⟩
  · simp [Dict.modifyM, h, hf, bind, Except.bind, pure, Except.pure]
  · intro j
    simp only [look, Dict.get?_set]
    by_cases hj : i = j
    · subst hj; simp
    · have : ¬ j = i := fun e => hj e.symm
      simp [hj, this]

theorem addNeighbour_ok {g : Graph} {i : ℕ} {m : NMap} (h : g.look i = some m) (d : Dir) (x : ℕ) :
    ∃ g', g.addNeighbour i d x = .ok g' ∧ SetAt g g' i (m.append d x) :=
  setAt_modify h _ rfl

theorem updateNeighbour_ok {g : Graph} {i : ℕ} {m : NMap} (h : g.look i = some m) (d : Dir) (l : List ℕ) :
    ∃ g', g.updateNeighbour i d l = .ok g' ∧ SetAt g g' i (m.set d l) :=
  setAt_modify h _ rfl

theorem removeNeighbour_ok {g : Graph} {i : ℕ} {m : NMap} (h : g.look i = some m) (d : Dir) (x : ℕ)
    (hx : x ∈ m d) :
    ∃ g', g.removeNeighbour i d x = .ok g' ∧ SetAt g g' i (m.set d ((m d).erase x)) :=
  setAt_modify h _ (by simp [pyRemove, hx, bind, Except.bind, pure, Except.pure])

theorem removeNode_ok {g : Graph} {i : ℕ} {m : NMap} (h : g.look i = some m) :
    ∃ g', g.removeNode i = .ok g' ∧ g'.isGlobal = g.isGlobal ∧
      ∀ j, g'.look j = if j = i then none else g.look j := by
  unfold look at h
  refine ⟨{ g with nodes := g.nodes.del i }, ?_, rfl, ?_⟩
  · simp [removeNode, Dict.pop, h, bind, Except.bind, pure, Except.pure]
  · intro j
    simp only [look, Dict.get?_del]
    by_cases hj : i = j
    · subst hj; simp
    · have : ¬ j = i := fun e => hj e.symm
      simp [hj, this]

theorem look_addNode (g : Graph) (i j : ℕ) (m : NMap) :
    (g.addNode i m).look j = if j = i then some m else g.look j := by
  simp only [addNode, look, Dict.get?_set]
  by_cases hj : i = j
  · subst hj; simp
  · have : ¬ j = i := fun e => hj e.symm
    simp [hj, this]

/-- A loop over a duplicate-free list whose body changes only the visited node. -/
theorem foldlM_pointwise (glob : Bool) (pre : ℕ → NMap → Prop) (step : Graph → ℕ → Py Graph) (f : ℕ → NMap → NMap)
    (l : List ℕ)
    (hstep : ∀ (g : Graph) i m, i ∈ l → g.isGlobal = glob → g.look i = some m → pre i m →
      ∃ g', step g i = .ok g' ∧ SetAt g g' i (f i m))
    (hnd : l.Nodup) (g : Graph) (hg : g.isGlobal = glob)
    (hl : ∀ i ∈ l, ∃ m, g.look i = some m ∧ pre i m) :
    ∃ g', l.foldlM step g = .ok g' ∧ g'.isGlobal = glob ∧
      ∀ j, g'.look j = if j ∈ l then (g.look j).map (f j) else g.look j := by
  induction l generalizing g with
  | nil => exact ⟨g, rfl, hg, by simp⟩
  | cons a l ih =>
    obtain ⟨hna, hnd'⟩ := List.nodup_cons.1 hnd
    obtain ⟨m, hm, hp⟩ := hl a (by simp)
    obtain ⟨g1, h1, hgl, hlook⟩ := hstep g a m (by simp) hg hm hp
    obtain ⟨g', h2, hg', hl'⟩ := ih (fun g i m hi => hstep g i m (by simp [hi])) hnd' g1 (by rw [hgl, hg]) (by
      intro i hi
      obtain ⟨m', hm', hp'⟩ := hl i (by simp [hi])
      have : i ≠ a := fun e => hna (e ▸ hi)
      exact ⟨m', by rw [hlook, if_neg this, hm'], hp'⟩)
    refine ⟨g', ?_, hg', ?_⟩
    · simp [List.foldlM_cons, h1, bind, Except.bind, h2]
    · intro j
      rw [hl' j, hlook j]
      by_cases hj : j = a
      · subst hj; simp [hna, hm]
      · simp [hj]

end Graph
end Verif
