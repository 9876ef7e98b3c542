import Verif.Proof.DictKeys
import Verif.Proof.EnvMesh
import Verif.Props.Mesh
import Verif.Props.Homogeneity

/-!
# From the mesh builder to the aggregated mesh, and through JSON
-/

namespace Verif
open Spec

variable {D : Type}

theorem mem_live {m : MeshState D} {c : CellBox D} : c ∈ m.cells.filterMap id ↔ ∃ i, Live m i c := by
  rw [List.mem_filterMap]
  constructor
  · rintro ⟨a, ha, rfl⟩
    obtain ⟨i, hi⟩ := List.mem_iff_getElem?.1 ha
    exact ⟨i, hi⟩
  · rintro ⟨i, hi⟩
    exact ⟨some c, List.mem_iff_getElem?.2 ⟨i, hi⟩, rfl⟩

theorem live_ids_aux (l : List (Option (CellBox D))) : ∀ n, (∀ i c, l[i]? = some (some c) → c.id = n + i) →
    ((l.filterMap id).map (·.id)).Nodup ∧ ∀ c ∈ l.filterMap id, n ≤ c.id := by
  induction l with
  | nil => intro n _; simp
  | cons x l ih =>
    intro n h
    obtain ⟨h1, h2⟩ := ih (n + 1) (by
      intro i c hi
      have := h (i + 1) c (by simpa using hi)
      omega)
    cases x with
    | none =>
      refine ⟨by simpa using h1, ?_⟩
      intro c hc
      have := h2 c (by simpa using hc)
      omega
    | some a =>
      have ha := h 0 a (by simp)
      simp only [List.filterMap_cons, id_eq, List.map_cons, List.nodup_cons, List.mem_cons]
      refine ⟨⟨?_, h1⟩, ?_⟩
      · intro hm
        obtain ⟨c, hc, e⟩ := List.mem_map.1 hm
        have := h2 c hc
        omega
      · rintro c (rfl | hc)
        · omega
        · have := h2 c hc; omega

theorem live_ids_nodup {b : Boundary} {W H : ℚ} {m : MeshState D} (h : CellsOK b W H m) :
    ((m.cells.filterMap id).map (·.id)).Nodup :=
  (live_ids_aux m.cells 0 (fun i c hi => by rw [Nat.zero_add]; exact h.ids i c hi)).1

/-- What aggregation does to a mesh. -/
theorem toEnvMesh_spec {agg : CellBox D → Py (Dict String Val)} {config : MeshConfig} {m : MeshState D} {em : EnvMesh}
    (h : MeshBuilder.toEnvMesh agg config m = .ok em) :
    List.Forall₂ (fun c a => agg c = .ok a.data ∧ a.bounds = c.bounds ∧ a.id = c.id) (m.cells.filterMap id) em.cells ∧
    em.bounds = m.bounds ∧ em.graph = m.graph ∧ em.config = config ∧ em.strNodes = false ∧ em.strDirs = false := by
  unfold MeshBuilder.toEnvMesh at h
  simp only [bind, Except.bind, pure, Except.pure] at h
  split at h
  · cases h
  · rename_i cells hc
    cases h
    refine ⟨?_, rfl, rfl, rfl, rfl, rfl⟩
    refine (mapM_ok _ _ _ hc).imp ?_
    intro c a hca
    split at hca
    · cases hca
    · rename_i data hd
      cases hca
      exact ⟨hd, rfl, rfl⟩

theorem toEnvMesh_total {agg : CellBox D → Py (Dict String Val)} (config : MeshConfig) {m : MeshState D}
    (h : ∀ i c, Live m i c → ∃ d, agg c = .ok d) : ∃ em, MeshBuilder.toEnvMesh agg config m = .ok em := by
  have key : ∀ l : List (CellBox D), (∀ c ∈ l, ∃ d, agg c = .ok d) →
      ∃ r, l.mapM (fun c => do
        let data ← agg c
        return ({ bounds := c.bounds, data := data, id := c.id } : AggCell)) = (.ok r : Py (List AggCell)) := by
    intro l
    induction l with
    | nil => intro _; exact ⟨[], rfl⟩
    | cons c l ih =>
      intro hl
      obtain ⟨d, hd⟩ := hl c (by simp)
      obtain ⟨r, hr⟩ := ih (fun c hc => hl c (by simp [hc]))
      refine ⟨⟨c.bounds, d, c.id⟩ :: r, ?_⟩
      rw [List.mapM_cons, hr]
      simp only [hd, bind, Except.bind, pure, Except.pure]
  obtain ⟨r, hr⟩ := key (m.cells.filterMap id) (by
    intro c hc
    obtain ⟨i, hi⟩ := mem_live.1 hc
    exact h i c hi)
  unfold MeshBuilder.toEnvMesh
  rw [hr]
  exact ⟨_, rfl⟩

theorem forall₂_map_eq {α β γ : Type} {R : α → β → Prop} {f : α → γ} {g : β → γ} {l : List α} {l' : List β}
    (h : List.Forall₂ R l l') (hR : ∀ a b, R a b → f a = g b) : l.map f = l'.map g := by
  induction h with
  | nil => rfl
  | cons h1 _ ih => simp [hR _ _ h1, ih]

/-- The aggregated mesh has the live cells, in order. -/
theorem toEnvMesh_ok {agg : CellBox D → Py (Dict String Val)} {config : MeshConfig} {m : MeshState D} {em : EnvMesh}
    {b : Boundary} {W H : ℚ} (hc : CellsOK b W H m) (h : MeshBuilder.toEnvMesh agg config m = .ok em) :
    (em.cells.map (·.id)).Nodup ∧ (∀ a ∈ em.cells, Valid a.bounds ∧ ¬ (a.bounds.longMin = 180 ∧ a.bounds.longMax = -180) ∧ a.bounds.time = b.time) ∧
    EnvTiles em b ∧ (∀ i, envRect em i = liveRect m i) ∧ (∀ a ∈ em.cells, ∃ c, Live m a.id c ∧ a.bounds = c.bounds ∧ agg c = .ok a.data) ∧
    (∀ i c, Live m i c → ∃ a ∈ em.cells, a.id = i ∧ a.bounds = c.bounds ∧ agg c = .ok a.data) := by
  obtain ⟨hf, -⟩ := toEnvMesh_spec h
  have hids : em.cells.map (·.id) = (m.cells.filterMap id).map (·.id) := (forall₂_map_eq hf (fun a b h => h.2.2.symm)).symm
  have hb : em.cells.map (·.bounds) = (m.cells.filterMap id).map (·.bounds) := (forall₂_map_eq hf (fun a b h => h.2.1.symm)).symm
  have hnd : (em.cells.map (·.id)).Nodup := hids ▸ live_ids_nodup hc
  have hA : ∀ a ∈ em.cells, ∃ c, Live m a.id c ∧ a.bounds = c.bounds ∧ agg c = .ok a.data := by
    intro a ha
    have key : ∀ (l : List (CellBox D)) (l' : List AggCell), List.Forall₂ (fun c a => agg c = .ok a.data ∧ a.bounds = c.bounds ∧ a.id = c.id) l l' →
        a ∈ l' → ∃ c ∈ l, agg c = .ok a.data ∧ a.bounds = c.bounds ∧ a.id = c.id := by
      intro l l' hf
      induction hf with
      | nil => intro h; simp at h
      | cons h1 _ ih =>
        intro h
        rcases List.mem_cons.1 h with rfl | h
        · exact ⟨_, by simp, h1⟩
        · obtain ⟨c, hc, h⟩ := ih h
          exact ⟨c, by simp [hc], h⟩
    obtain ⟨c, hcm, h1, h2, h3⟩ := key _ _ hf ha
    obtain ⟨i, hi⟩ := mem_live.1 hcm
    have := hc.ids i c hi
    refine ⟨c, ?_, h2, h1⟩
    rw [h3, this]; exact hi
  have hB : ∀ i c, Live m i c → ∃ a ∈ em.cells, a.id = i ∧ a.bounds = c.bounds ∧ agg c = .ok a.data := by
    intro i c hi
    have key : ∀ (l : List (CellBox D)) (l' : List AggCell), List.Forall₂ (fun c a => agg c = .ok a.data ∧ a.bounds = c.bounds ∧ a.id = c.id) l l' →
        c ∈ l → ∃ a ∈ l', agg c = .ok a.data ∧ a.bounds = c.bounds ∧ a.id = c.id := by
      intro l l' hf
      induction hf with
      | nil => intro h; simp at h
      | cons h1 _ ih =>
        intro h
        rcases List.mem_cons.1 h with rfl | h
        · exact ⟨_, by simp, h1⟩
        · obtain ⟨c, hc, h⟩ := ih h
          exact ⟨c, by simp [hc], h⟩
    obtain ⟨a, ham, h1, h2, h3⟩ := key _ _ hf (mem_live.2 ⟨i, hi⟩)
    exact ⟨a, ham, by rw [h3, hc.ids i c hi], h2, h1⟩
  refine ⟨hnd, ?_, ⟨?_, ?_⟩, ?_, hA, hB⟩
  · intro a ha
    obtain ⟨c, hi, e, -⟩ := hA a ha
    rw [e]
    exact ⟨(hc.valid _ _ hi).1, (hc.valid _ _ hi).2, hc.time _ _ hi⟩
  · intro x y
    rw [hc.cover x y, hb]
    constructor
    · rintro ⟨i, c, hi, hx⟩
      exact ⟨c.bounds, List.mem_map_of_mem (mem_live.2 ⟨i, hi⟩), hx⟩
    · rintro ⟨bb, hbb, hx⟩
      obtain ⟨c, hcm, rfl⟩ := List.mem_map.1 hbb
      obtain ⟨i, hi⟩ := mem_live.1 hcm
      exact ⟨i, c, hi, hx⟩
  · rw [hb, List.pairwise_map]
    have hnd' : (m.cells.filterMap id).Pairwise (fun a b => a.id ≠ b.id) := by
      have := live_ids_nodup hc
      rw [List.Nodup, List.pairwise_map] at this
      exact this
    refine hnd'.imp_of_mem ?_
    intro c c' h1 h2 hne x y hx
    obtain ⟨i, hi⟩ := mem_live.1 h1
    obtain ⟨j, hj⟩ := mem_live.1 h2
    have := hc.disj i j c c' x y hi hj hx.1 hx.2
    rw [← hc.ids i c hi, ← hc.ids j c' hj] at this
    exact hne this
  · intro i
    ext r
    rw [envRect_iff hnd]
    constructor
    · rintro ⟨a, ha, rfl, rfl⟩
      obtain ⟨c, hi, e, -⟩ := hA a ha
      rw [e]
      exact liveRect_of_live hi
    · intro hr
      obtain ⟨c, hi, rfl⟩ := liveRect_some hr
      obtain ⟨a, ha, h1, h2, -⟩ := hB i c hi
      exact ⟨a, ha, h1, by rw [h2]⟩

end Verif
