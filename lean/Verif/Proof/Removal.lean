import Verif.Proof.SplitExact2

/-!
# Removing a node and its references
-/

namespace Verif
open Spec

/-- A well-formed neighbour graph: no duplicates, no cell is its own neighbour, every entry is a node
that lists the cell back in the opposite direction. -/
structure Spec.WellFormed (nbrs : ℕ → Option NMap) : Prop where
  nodup : ∀ i m d, nbrs i = some m → (m d).Nodup
  irrefl : ∀ i m d, nbrs i = some m → i ∉ m d
  sym : ∀ i m d j, nbrs i = some m → j ∈ m d → ∃ m', nbrs j = some m' ∧ i ∈ m' d.opp

/-- An exact graph is well-formed. -/
theorem Spec.Exact.wellFormed {g : Bool} {cell : ℕ → Option Rect} {nbrs : ℕ → Option NMap} (h : Exact g cell nbrs) :
    WellFormed nbrs := by
  have cellOf : ∀ i m, nbrs i = some m → ∃ a, cell i = some a := fun i m hm =>
    Option.isSome_iff_exists.1 ((h.keys i).1 (by simp [hm]))
  refine ⟨h.nodup, ?_, ?_⟩
  · intro i m d hm hi
    obtain ⟨a, ha⟩ := cellOf i m hm
    obtain ⟨b, hb, hab⟩ := (h.mem i m d i a hm ha).1 hi
    rw [ha] at hb; cases hb
    exact not_adj_self (h.ok i a ha) d hab
  · intro i m d j hm hj
    obtain ⟨a, ha⟩ := cellOf i m hm
    obtain ⟨b, hb, hab⟩ := (h.mem i m d j a hm ha).1 hj
    obtain ⟨m', hm'⟩ := Option.isSome_iff_exists.1 ((h.keys j).2 (by simp [hb]))
    exact ⟨m', hm', (h.mem j m' d.opp i b hm' hb).2 ⟨a, ha, (adj_opp g d a b).2 hab⟩⟩

/-- The lists of a neighbour of `k` after the directions `ds` of `k` have been visited. -/
noncomputable def rmMap (k : ℕ) (L : NMap) (ds : List Dir) (j : ℕ) (m : NMap) : NMap := fun e =>
  if e.opp ∈ ds ∧ j ∈ L e.opp then (m e).erase k else m e

theorem removeNodeFromNeighbours_ok {g : Graph} {k : ℕ} {L : NMap} (hk : g.look k = some L) {d : Dir}
    (hnd : (L d).Nodup) (hnb : ∀ i ∈ L d, ∃ m, g.look i = some m ∧ k ∈ m d.opp) :
    ∃ g', g.removeNodeFromNeighbours k d = .ok g' ∧ g'.isGlobal = g.isGlobal ∧
      ∀ j, g'.look j = (g.look j).map (rmMap k L [d] j) := by
  obtain ⟨g1, h1, hg1, hl1⟩ := Graph.foldlM_pointwise g.isGlobal (fun _ m => k ∈ m d.opp)
    (fun g idx => g.removeNeighbour idx d.opp k) (fun _ m => m.set d.opp ((m d.opp).erase k)) (L d)
    (fun g i m _ _ hm hp => Graph.removeNeighbour_ok hm d.opp k hp) hnd g rfl hnb
  refine ⟨g1, ?_, hg1, ?_⟩
  · unfold Graph.removeNodeFromNeighbours
    rw [Graph.getNeighbours_ok hk]
    exact h1
  · intro j
    rw [hl1]
    cases hj : g.look j with
    | none => simp
    | some m =>
      by_cases hm : j ∈ L d
      · rw [if_pos hm]
        simp only [Option.map_some, Option.some.injEq]
        funext e
        simp only [NMap.set_apply, rmMap, List.mem_singleton]
        by_cases he : e = d.opp
        · subst he; simp [hm]
        · have : ¬ e.opp = d := fun h => he (by rw [← h, Dir.opp_opp])
          simp [he, this]
      · rw [if_neg hm]
        simp only [Option.map_some, Option.some.injEq]
        funext e
        simp only [rmMap, List.mem_singleton]
        by_cases he : e.opp = d
        · rw [he]; simp [hm]
        · simp [he]

theorem rmDirs_ok {k : ℕ} {L : NMap} (hself : ∀ d, k ∉ L d) (hnd : ∀ d, (L d).Nodup) (ds : List Dir) (hds : ds.Nodup)
    (g : Graph) (hk : g.look k = some L) (hnb : ∀ d ∈ ds, ∀ i ∈ L d, ∃ m, g.look i = some m ∧ k ∈ m d.opp) :
    ∃ g', ds.foldlM (fun g d => g.removeNodeFromNeighbours k d) g = .ok g' ∧ g'.isGlobal = g.isGlobal ∧
      ∀ j, g'.look j = (g.look j).map (rmMap k L ds j) := by
  induction ds generalizing g with
  | nil =>
    refine ⟨g, rfl, rfl, ?_⟩
    intro j
    have : rmMap k L [] j = id := by funext m e; simp [rmMap]
    rw [this]; simp
  | cons d ds ih =>
    obtain ⟨hd, hds'⟩ := List.nodup_cons.1 hds
    obtain ⟨g1, h1, i1, l1⟩ := removeNodeFromNeighbours_ok hk (hnd d) (hnb d (by simp))
    have hk1 : g1.look k = some L := by
      rw [l1, hk, Option.map_some]
      congr 1
      funext e
      simp [rmMap, hself]
    obtain ⟨g2, h2, i2, l2⟩ := ih hds' g1 hk1 (by
      intro d' hd' i hi
      obtain ⟨m, hm, hkm⟩ := hnb d' (by simp [hd']) i hi
      refine ⟨_, by rw [l1, hm]; rfl, ?_⟩
      have : ¬ d' = d := fun h => hd (h ▸ hd')
      simpa [rmMap, this] using hkm)
    refine ⟨g2, ?_, i2.trans i1, ?_⟩
    · simp [List.foldlM_cons, h1, bind, Except.bind, h2]
    · intro j
      rw [l2, l1, Option.map_map]
      cases g.look j with
      | none => rfl
      | some m =>
        simp only [Option.map_some, Option.some.injEq, Function.comp]
        funext e
        simp only [rmMap, List.mem_cons]
        by_cases he : e.opp = d
        · have : e.opp ∉ ds := he ▸ hd
          rw [he] at this ⊢
          simp [this]
        · simp [he]

/-- `remove_node_and_update_neighbours` on a well-formed graph. -/
theorem removeNode_wellFormed {g : Graph} (hw : WellFormed g.look) {k : ℕ} {L : NMap} (hk : g.look k = some L) :
    ∃ g', g.removeNodeAndUpdateNeighbours k = .ok g' ∧ g'.isGlobal = g.isGlobal ∧ g'.look k = none ∧
      ∀ i, i ≠ k → g'.look i = (g.look i).map (fun m d => (m d).filter (fun x => x ≠ k)) := by
  have hall : Dir.all.Nodup := by decide
  obtain ⟨g1, h1, i1, l1⟩ := rmDirs_ok (fun d => hw.irrefl k L d hk) (fun d => hw.nodup k L d hk) Dir.all hall g hk
    (fun d _ i hi => hw.sym k L d i hk hi)
  obtain ⟨g2, h2, i2, l2⟩ := Graph.removeNode_ok (g := g1) (i := k) (m := rmMap k L Dir.all k L) (by rw [l1, hk]; rfl)
  refine ⟨g2, ?_, i2.trans i1, by rw [l2, if_pos rfl], ?_⟩
  · unfold Graph.removeNodeAndUpdateNeighbours
    simp only [bind, Except.bind] at h1 ⊢
    rw [h1]; exact h2
  · intro i hi
    rw [l2, if_neg hi, l1]
    cases hm : g.look i with
    | none => rfl
    | some m =>
      simp only [Option.map_some, Option.some.injEq]
      funext e
      simp only [rmMap, Dir.mem_all, true_and]
      by_cases hj : i ∈ L e.opp
      · rw [if_pos hj, (hw.nodup i m e hm).erase_eq_filter]
        apply List.filter_congr
        intro x _
        by_cases hx : x = k <;> simp [hx]
      · rw [if_neg hj, List.filter_eq_self.2]
        intro x hx
        simp only [decide_eq_true_eq]
        rintro rfl
        obtain ⟨m', hm', h'⟩ := hw.sym i m e x hm hx
        rw [hk] at hm'; cases hm'
        exact hj h'

/-- A well-formed graph stays well-formed when a node is taken out. -/
theorem Spec.WellFormed.remove {nbrs nbrs' : ℕ → Option NMap} (hw : WellFormed nbrs) {k : ℕ} (hk : nbrs' k = none)
    (h : ∀ i, i ≠ k → nbrs' i = (nbrs i).map (fun m d => (m d).filter (fun x => x ≠ k))) : WellFormed nbrs' := by
  have inv : ∀ i m', nbrs' i = some m' → i ≠ k ∧ ∃ m, nbrs i = some m ∧ m' = fun d => (m d).filter (fun x => x ≠ k) := by
    intro i m' hm'
    have hik : i ≠ k := by rintro rfl; rw [hk] at hm'; cases hm'
    rw [h i hik] at hm'
    cases hm : nbrs i with
    | none => rw [hm] at hm'; cases hm'
    | some m => rw [hm] at hm'; cases hm'; exact ⟨hik, m, rfl, rfl⟩
  refine ⟨?_, ?_, ?_⟩
  · intro i m' d hm'
    obtain ⟨-, m, hm, rfl⟩ := inv i m' hm'
    exact (hw.nodup i m d hm).filter _
  · intro i m' d hm' hi
    obtain ⟨-, m, hm, rfl⟩ := inv i m' hm'
    exact hw.irrefl i m d hm (List.mem_of_mem_filter hi)
  · intro i m' d j hm' hj
    obtain ⟨hik, m, hm, rfl⟩ := inv i m' hm'
    obtain ⟨hj1, hj2⟩ := List.mem_filter.1 hj
    obtain ⟨mj, hmj, hi⟩ := hw.sym i m d j hm hj1
    have hjk : j ≠ k := by simpa using hj2
    refine ⟨_, by rw [h j hjk, hmj]; rfl, ?_⟩
    rw [List.mem_filter]
    exact ⟨hi, by simpa using hik⟩

/-- An exact graph stays exact for the remaining cells. -/
theorem Spec.Exact.remove {g : Bool} {cell : ℕ → Option Rect} {nbrs nbrs' : ℕ → Option NMap} (hE : Exact g cell nbrs) {k : ℕ}
    (hk : nbrs' k = none)
    (h : ∀ i, i ≠ k → nbrs' i = (nbrs i).map (fun m d => (m d).filter (fun x => x ≠ k))) :
    Exact g (fun i => if i = k then none else cell i) nbrs' := by
  have inv : ∀ i m', nbrs' i = some m' → i ≠ k ∧ ∃ m, nbrs i = some m ∧ m' = fun d => (m d).filter (fun x => x ≠ k) := by
    intro i m' hm'
    have hik : i ≠ k := by rintro rfl; rw [hk] at hm'; cases hm'
    rw [h i hik] at hm'
    cases hm : nbrs i with
    | none => rw [hm] at hm'; cases hm'
    | some m => rw [hm] at hm'; cases hm'; exact ⟨hik, m, rfl, rfl⟩
  have cinv : ∀ i a, (if i = k then none else cell i) = some a → i ≠ k ∧ cell i = some a := by
    intro i a ha
    by_cases hik : i = k
    · rw [if_pos hik] at ha; cases ha
    · rw [if_neg hik] at ha; exact ⟨hik, ha⟩
  refine ⟨?_, ?_, ?_, ?_, ?_⟩
  · intro i
    by_cases hik : i = k
    · subst hik; simp [hk]
    · rw [h i hik, if_neg hik, ← hE.keys i]; simp
  · intro i r hr
    exact hE.ok i r (cinv i r hr).2
  · intro i j a b hij ha hb
    exact hE.disjoint i j a b hij (cinv i a ha).2 (cinv j b hb).2
  · intro i m' d hm'
    obtain ⟨-, m, hm, rfl⟩ := inv i m' hm'
    exact (hE.nodup i m d hm).filter _
  · intro i m' d j a hm' ha
    obtain ⟨hik, m, hm, rfl⟩ := inv i m' hm'
    simp only [List.mem_filter]
    rw [hE.mem i m d j a hm (cinv i a ha).2]
    by_cases hjk : j = k
    · subst hjk; simp
    · simp [hjk]

end Verif
