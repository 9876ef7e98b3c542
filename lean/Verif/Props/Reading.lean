import Verif.Props.EnvMerge
import Verif.Props.EnvPoints
import Verif.Props.EnvQuery

/-!
# What is read at a point survives saving, splitting and merging (C137)
-/

namespace Verif.Spec
open Verif

/-- Asking the mesh for the cell at latitude `y` and longitude `x`, and that cell for the entry `key` of its data, gives `v` (`none` if the cell has no such entry). -/
def ReadAt (m : EnvMesh) (y x : ℚ) (key : String) (v : Option Val) : Prop :=
  ∃ i c, m.queryIndex (y, x) = .ok i ∧ EnvMesh.getCellbox m.cells i = some c ∧ c.data.get? key = v

/-- The point is inside of a cell, not on an edge. -/
def InSomeCell (m : EnvMesh) (y x : ℚ) : Prop := ∃ c ∈ m.cells, (rectOf c.bounds).IMem x y

end Verif.Spec

namespace Verif
open Spec

variable {D : Type}

theorem strictIn_rect {b : Boundary} (hv : Valid b) (hc : b.longMin < b.longMax) {x y : ℚ} (hx : -180 ≤ x ∧ x ≤ 180) :
    StrictIn b x y ↔ (rectOf b).IMem x y := by
  obtain ⟨-, v2, v3, v4, v5, -⟩ := hv
  unfold StrictIn eastEdge Rect.IMem rectOf
  rw [if_pos hc]
  constructor
  · rintro ⟨⟨n, h1, h2⟩, h3, h4⟩
    have a1 : (-1 : ℚ) < n := by linarith
    have a2 : (n : ℚ) < 1 := by linarith
    have a1 : (-1 : ℤ) < n := by exact_mod_cast a1
    have a2 : n < (1 : ℤ) := by exact_mod_cast a2
    have : n = 0 := by omega
    subst this
    simp only [Int.cast_zero, mul_zero, add_zero] at h1 h2
    exact ⟨h1, h2, h3, h4⟩
  · rintro ⟨h1, h2, h3, h4⟩
    exact ⟨⟨0, by simpa using h1, by simpa using h2⟩, h3, h4⟩

theorem imem_domain {b : Boundary} (hv : Valid b) {x y : ℚ} (h : (rectOf b).IMem x y) : -180 ≤ x ∧ x ≤ 180 :=
  ⟨(lt_of_le_of_lt hv.2.1 h.1).le, (h.2.1.trans_le hv.2.2.2.2.1).le⟩

/-- What is read at a point is what the cell around it has. -/
theorem readAt_iff {m : EnvMesh} {b : Boundary} (hids : (m.cells.map (·.id)).Nodup) (ht : EnvTiles m b) (hv : ∀ c ∈ m.cells, Valid c.bounds)
    (hc : ∀ c ∈ m.cells, c.bounds.longMin < c.bounds.longMax) {x y : ℚ} (hx : -180 ≤ x ∧ x ≤ 180) (key : String) (v : Option Val) :
    ReadAt m y x key v ↔ ∃ c ∈ m.cells, (rectOf c.bounds).IMem x y ∧ c.data.get? key = v := by
  have hq := (C35_query_partial m b ht hv x y hx (Or.inl hc)).1
  have hget : ∀ c ∈ m.cells, EnvMesh.getCellbox m.cells c.id = some c := by
    intro c hcm
    unfold EnvMesh.getCellbox
    cases hf : m.cells.find? (fun x => decide (x.id = c.id)) with
    | none => exact absurd (List.find?_eq_none.1 hf c hcm) (by simp)
    | some c' =>
      have e : c'.id = c.id := by simpa using List.find?_some hf
      rw [List.inj_on_of_nodup_map hids (List.mem_of_find?_eq_some hf) hcm e]
  constructor
  · rintro ⟨i, c, h1, h2, h3⟩
    obtain ⟨c', hm, rfl, hs⟩ := (hq i).1 h1
    rw [hget c' hm] at h2
    cases h2
    exact ⟨c, hm, (strictIn_rect (hv c hm) (hc c hm) hx).1 hs, h3⟩
  · rintro ⟨c, hm, hs, h3⟩
    exact ⟨c.id, c, (hq c.id).2 ⟨c, hm, rfl, (strictIn_rect (hv c hm) (hc c hm) hx).2 hs⟩, hget c hm, h3⟩

theorem envOK_long {m : EnvMesh} (h : EnvOK m) : ∀ c ∈ m.cells, (rectOf c.bounds).Pos := by
  intro c hc
  exact (h.graph.ok c.id _ ((envRect_iff h.ids c.id _).2 ⟨c, hc, rfl, rfl⟩)).1

theorem envOK_unique {m : EnvMesh} (h : EnvOK m) {c c' : AggCell} (hc : c ∈ m.cells) (hc' : c' ∈ m.cells) {x y : ℚ} (h1 : (rectOf c.bounds).IMem x y)
    (h2 : (rectOf c'.bounds).Mem x y) : c = c' := by
  by_contra hne
  have hid : c.id ≠ c'.id := fun e => hne (List.inj_on_of_nodup_map h.ids hc hc' e)
  obtain ⟨a1, a2, a3, a4⟩ := h1
  obtain ⟨b1, b2, b3, b4⟩ := h2
  exact h.graph.disjoint _ _ _ _ hid ((envRect_iff h.ids c.id _).2 ⟨c, hc, rfl, rfl⟩) ((envRect_iff h.ids c'.id _).2 ⟨c', hc', rfl, rfl⟩)
    ⟨by linarith, by linarith, by linarith, by linarith⟩

/-- A point inside of a box that lies in another is inside of that one. -/
theorem imem_mono {p q : Boundary} (hv : Valid p) (hvq : Valid q) (hc : q.longMin < q.longMax) (h : ∀ x y, Covers p x y → Covers q x y) {x y : ℚ}
    (hi : (rectOf p).IMem x y) : (rectOf q).IMem x y := by
  obtain ⟨h1, h2, h3, h4⟩ := hi
  simp only [rectOf] at h1 h2 h3 h4
  have hpc : p.longMin < p.longMax := h1.trans h2
  obtain ⟨-, v2, v3, v4, v5, -⟩ := hv
  obtain ⟨-, w2, w3, w4, w5, -⟩ := hvq
  have key : ∀ x' y', p.longMin < x' → x' < p.longMax → p.latMin ≤ y' → y' ≤ p.latMax → (q.longMin ≤ x' ∧ x' ≤ q.longMax) ∧ q.latMin ≤ y' ∧ y' ≤ q.latMax := by
    intro x' y' k1 k2 k3 k4
    obtain ⟨⟨n, n1, n2⟩, n3⟩ := h x' y' ⟨⟨0, by simpa using k1.le, by unfold eastEdge; rw [if_pos hpc]; simpa using k2.le⟩, k3, k4⟩
    unfold eastEdge at n2
    rw [if_pos hc] at n2
    have a1 : (-1 : ℚ) < n := by linarith
    have a2 : (n : ℚ) < 1 := by linarith
    have a1 : (-1 : ℤ) < n := by exact_mod_cast a1
    have a2 : n < (1 : ℤ) := by exact_mod_cast a2
    have : n = 0 := by omega
    subst this
    simp only [Int.cast_zero, mul_zero, add_zero] at n1 n2
    exact ⟨⟨n1, n2⟩, n3⟩
  obtain ⟨⟨k1, -⟩, k3, -⟩ := key ((p.longMin + x) / 2) ((p.latMin + y) / 2) (by linarith) (by linarith) (by linarith) (by linarith)
  obtain ⟨⟨-, k2⟩, -, k4⟩ := key ((x + p.longMax) / 2) ((y + p.latMax) / 2) (by linarith) (by linarith) (by linarith) (by linarith)
  exact ⟨by simp only [rectOf]; linarith, by simp only [rectOf]; linarith, by simp only [rectOf]; linarith, by simp only [rectOf]; linarith⟩

/-- What is read at a point inside of a cell of a consistent mesh. -/
theorem readAt_cell {m : EnvMesh} (h : EnvOK m) {b : Boundary} (ht : EnvTiles m b) {c : AggCell} (hc : c ∈ m.cells) {x y : ℚ}
    (hi : (rectOf c.bounds).IMem x y) (key : String) (v : Option Val) : ReadAt m y x key v ↔ c.data.get? key = v := by
  rw [readAt_iff h.ids ht h.valid (fun c hc => (envOK_long h c hc).1) (imem_domain (h.valid c hc) hi)]
  constructor
  · rintro ⟨c', hc', hi', e⟩
    rwa [envOK_unique h hc hc' hi ⟨hi'.1.le, hi'.2.1.le, hi'.2.2.1.le, hi'.2.2.2.le⟩]
  · intro e
    exact ⟨c, hc, hi, e⟩

/-! ## C137 -/

/-- C137, splitting: whatever cells of a consistent loaded mesh are split in whatever order, at every point that is not on an edge of the new mesh the same is read as
before, except for the entry `id`. -/
theorem C137_splits (m : EnvMesh) (h : EnvOK m) (hl : Loaded m) (b : Boundary) (ht : EnvTiles m b) (m' : EnvMesh) (hs : EnvSplits m m')
    (x y : ℚ) (hin : InSomeCell m' y x) (key : String) (hk : key ≠ "id") :
    (∃ v, ReadAt m y x key v) ∧ ∀ v, ReadAt m' y x key v ↔ ReadAt m y x key v := by
  obtain ⟨h1, -, h3, -, h5⟩ := C37_sequences m h hl b ht m' hs
  obtain ⟨c', hc', hi⟩ := hin
  obtain ⟨c, hc, hcov, -, hsame⟩ := h5 c' hc'
  have hi' := imem_mono (h1.valid c' hc') (h.valid c hc) (envOK_long h c hc).1 hcov hi
  refine ⟨⟨_, (readAt_cell h ht hc hi' key _).2 rfl⟩, fun v => ?_⟩
  rw [readAt_cell h1 h3 hc' hi, readAt_cell h ht hc hi', hsame key hk]

/-- C137, splitting around points. -/
theorem C137_points (m : EnvMesh) (h : EnvOK m) (hl : Loaded m) (b : Boundary) (ht : EnvTiles m b) (depth : ℕ)
    (hd : m.config.splitDepth = some depth) (hW : 0 < m.config.cellWidth) (pts : List (ℚ × ℚ)) :
    ∃ N, ∀ fuel, N ≤ fuel → ∀ m', EnvMesh.splitPoints fuel m pts = .ok m' → ∀ x y, InSomeCell m' y x → ∀ key, key ≠ "id" →
      (∃ v, ReadAt m y x key v) ∧ ∀ v, ReadAt m' y x key v ↔ ReadAt m y x key v := by
  obtain ⟨N, hN⟩ := exists_pow_ge (a := m.config.cellWidth / 2 ^ depth) (b := 360) (by positivity)
  refine ⟨N + 1, fun fuel hf m' he x y hi key hk => ?_⟩
  rcases splitPoints_ok depth N m.config.cellWidth m.config.cellHeight hN fuel (by omega) pts m h hl hd rfl rfl with ⟨m1, e, hs, -⟩ | ⟨e, -⟩
  · rw [he] at e
    cases e
    exact C137_splits m h hl b ht m' hs.splits x y hi key hk
  · rw [he] at e
    cases e

/-- C137, merging: where one mesh is merged into another, the merged mesh gives at every point that is not on an edge of it what the mesh merged in gives, if the point is inside of
its region, and what the other gives, if the point is outside; except for the entry `id`. -/
theorem C137_merge (m m2 m' m2' : EnvMesh) (h : MergeBase m) (h2 : MergeIn m2) (he : m.mergeMesh m2 = .ok (m', m2')) (b : Boundary)
    (hb : (rectOf b).Pos) (hin : Inside (rectOf b) (rectOf m2.bounds)) (ht : EnvTiles m b) (x y : ℚ) (hi : InSomeCell m' y x) (key : String) (hk : key ≠ "id") :
    ((rectOf m2.bounds).Mem x y → (∃ v, ReadAt m2 y x key v) ∧ ∀ v, ReadAt m' y x key v ↔ ReadAt m2 y x key v) ∧
    (¬ (rectOf m2.bounds).IMem x y → (∃ v, ReadAt m y x key v) ∧ ∀ v, ReadAt m' y x key v ↔ ReadAt m y x key v) := by
  have hc : EnvMesh.compatible m m2 = .ok true := by
    by_contra hnc
    have := (C38_merge_partial m m2 h h2).1 (fun hy => hnc ((compatible_iff h.wpos h.hpos h2.pos).2 hy))
    rw [this] at he; cases he
  have ht' := (C38_tiles m m2 h h2 m' m2' he).1 b hb hin ht
  obtain ⟨m1, m3, n, kept, added, e1, e2, -, e4, e5, e6, e7, e8, -⟩ := (C38_merge_partial m m2 h h2).2 ((compatible_iff h.wpos h.hpos h2.pos).1 hc)
  rw [he] at e1
  cases e1
  obtain ⟨c', hc', hx⟩ := hi
  have hr := fun v => readAt_cell e2 ht' hc' hx key v
  rw [e4, List.mem_append] at hc'
  rcases hc' with hk' | ha
  · have hm := e5.subset hk'
    have hr2 := fun v => readAt_cell h.ok ht hm hx key v
    refine ⟨fun hmem => ?_, fun _ => ⟨⟨_, (hr2 _).2 rfl⟩, fun v => by rw [hr, hr2]⟩⟩
    exfalso
    obtain ⟨kx, ky⟩ := aligned_of_compatible h.wpos h.hpos h2.pos hc (h.lattice c' hm)
    obtain ⟨x1, x2, x3, x4⟩ := hx
    obtain ⟨y1, y2, y3, y4⟩ := hmem
    rcases kx with ⟨k1, k2⟩ | k1 | k1
    · rcases ky with ⟨k3, k4⟩ | k3 | k3
      · exact (e6 c' hm).1 hk' ⟨k1, k2, k3, k4⟩
      · linarith
      · linarith
    · linarith
    · linarith
  · obtain ⟨p, hp⟩ := List.mem_iff_getElem?.1 ha
    have hlt : p < m2.cells.length := by rw [← e7]; exact (List.getElem?_eq_some_iff.1 hp).1
    obtain ⟨c, g1, -, g3, g4⟩ := e8 p m2.cells[p] (List.getElem?_eq_getElem hlt)
    rw [hp] at g1
    cases g1
    have hm : m2.cells[p] ∈ m2.cells := List.getElem_mem hlt
    rw [g3] at hx
    have hr2 := fun v => readAt_cell h2.mergeable.ok h2.tiles hm hx key v
    refine ⟨fun _ => ⟨⟨_, (hr2 _).2 rfl⟩, fun v => by rw [hr, hr2, g4 key hk]⟩, fun hno => ?_⟩
    exfalso
    obtain ⟨k1, k2, k3, k4⟩ := inside_of_tiles h2.mergeable.ok h2.tiles h2.valid h2.pos hm
    obtain ⟨x1, x2, x3, x4⟩ := hx
    exact hno ⟨by linarith, by linarith, by linarith, by linarith⟩

/-- C137, saving: a mesh that was built, written to a file and read from it gives at every point the same as before, for every entry that is not one of those a cell of the file has
by itself. -/
theorem C137_saved (ops : DataOps D) (b : Boundary) (W H : ℚ) (hp : ProperGrid b W H) (hcr : b.longMin < b.longMax)
    (hreg : ¬ (b.longMin = -180 ∧ b.longMax = 180)) (initData : Boundary → D) (depth : ℕ)
    (m : MeshState D) (h : Reach ops b W H initData depth m) (agg : CellBox D → Py (Dict String Val)) (config : MeshConfig)
    (em : EnvMesh) (he : MeshBuilder.toEnvMesh agg config m = .ok em)
    (hagg : ∀ i c d, Live m i c → agg c = .ok d → (d.map Prod.fst).Nodup ∧ "geometry" ∉ d.map Prod.fst) :
    ∃ em', EnvMesh.fromJson em.toJson = .ok em' ∧ ∀ x y, -180 ≤ x → x ≤ 180 → ∀ key, key ∉ ["geometry", "cx", "cy", "dcx", "dcy", "id"] →
      ∀ v, ReadAt em' y x key v ↔ ReadAt em y x key v := by
  obtain ⟨em', h1, hok, -, ht', hr', -⟩ := C34_loaded_consistent ops b W H hp hcr hreg initData depth m h agg config em he hagg
  obtain ⟨em1, k1, -, -, hlen, k5⟩ := C34_round_trip_partial ops b W H hp initData depth m h agg config em he hagg
  rw [h1] at k1
  cases k1
  obtain ⟨hids, hval, ht, hr, -⟩ := toEnvMesh_ok (reach_cells hp h) he
  have hlt : ∀ c ∈ em.cells, c.bounds.longMin < c.bounds.longMax := by
    intro c hc
    have e := (envRect_iff hids c.id _).2 ⟨c, hc, rfl, rfl⟩
    rw [hr, ← hr'] at e
    exact (hok.graph.ok _ _ e).1.1
  refine ⟨em', h1, fun x y x1 x2 key hk v => ?_⟩
  rw [readAt_iff hok.ids ht' hok.valid (fun c hc => (envOK_long hok c hc).1) ⟨x1, x2⟩, readAt_iff hids ht (fun c hc => (hval c hc).1) hlt ⟨x1, x2⟩]
  constructor
  · rintro ⟨c', hc', hi, e⟩
    obtain ⟨n, hn⟩ := List.mem_iff_getElem?.1 hc'
    have hl : n < em.cells.length := by rw [← hlen]; exact (List.getElem?_eq_some_iff.1 hn).1
    have hm : em.cells[n] ∈ em.cells := List.getElem_mem hl
    obtain ⟨c1, g1, -, -, g3, -, g5⟩ := k5 n _ (List.getElem?_eq_getElem hl)
    rw [hn] at g1
    cases g1
    rw [g5 (Or.inl (hlt _ hm))] at hi
    exact ⟨_, hm, hi, by rw [← g3 key hk, e]⟩
  · rintro ⟨c, hc, hi, e⟩
    obtain ⟨n, hn⟩ := List.mem_iff_getElem?.1 hc
    obtain ⟨c1, g1, -, -, g3, -, g5⟩ := k5 n _ hn
    refine ⟨c1, List.mem_iff_getElem?.2 ⟨n, g1⟩, ?_, by rw [g3 key hk, e]⟩
    rw [g5 (Or.inl (hlt _ hc))]
    exact hi

/-- The hypotheses of the theorems on splitting and on saving are met by the mesh of the examples, read from a file. -/
example : ∃ m, exLoaded = .ok m ∧ EnvOK m ∧ Loaded m ∧ EnvTiles m exRegion ∧ m.config.splitDepth = some 3 ∧ 0 < m.config.cellWidth := by
  obtain ⟨m, h1, h2, h3, h4, -, h6, -⟩ := exLoaded_ok
  exact ⟨m, h1, h2, h3, h4, by rw [h6]; rfl, by rw [h6]; norm_num [exConfig]⟩

/-- Split around two points, it has a cell around the point at 52° south and 6° 20' east, and the same is read there. -/
example : ((do let m ← exLoaded
               let i ← m.queryIndex (-52, 19/3)
               return (EnvMesh.getCellbox m.cells i).map (fun c => (rectOf c.bounds, c.data))) : Py (Option (Rect × Dict String Val))) ≠
    ((do let m ← exPoints
         let i ← m.queryIndex (-52, 19/3)
         return (EnvMesh.getCellbox m.cells i).map (fun c => (rectOf c.bounds, c.data))) : Py (Option (Rect × Dict String Val))) ∧
    ((do let m ← exLoaded
         let i ← m.queryIndex (-52, 19/3)
         return (EnvMesh.getCellbox m.cells i).bind (fun c => c.data.get? "a")) : Py (Option Val)) =
    ((do let m ← exPoints
         let i ← m.queryIndex (-52, 19/3)
         return (EnvMesh.getCellbox m.cells i).bind (fun c => c.data.get? "a")) : Py (Option Val)) := by
  decide +kernel

/-- The hypotheses of the theorem on merging are met by a mesh of four cells, one of them split, and one of five over one of the cells. -/
example : ∃ m m2 m' m2' : EnvMesh, exBuild exRegion 10 5 [2] = .ok m ∧ exBuild exSmall 5 5 [0] = .ok m2 ∧ MergeBase m ∧ MergeIn m2 ∧
    m.mergeMesh m2 = .ok (m', m2') ∧ (rectOf exRegion).Pos ∧ Inside (rectOf exRegion) (rectOf m2.bounds) ∧ EnvTiles m exRegion := by
  obtain ⟨m, m2, h1, h2, h3, h4, h5, -⟩ := exMerge_hyps
  obtain ⟨m', m2', -, -, -, e, -⟩ := (C38_merge_partial m m2 h3 h4).2 h5
  obtain ⟨m1, k1, -, k2, k3, -⟩ := exBuild_ok exRegion 10 5 [2] exRegion_proper (by norm_num [exRegion]) (by norm_num [exRegion])
    (by norm_num [exRegion]) (by decide +kernel)
  obtain ⟨m3, l1, -, -, l3, -⟩ := exBuild_ok exSmall 5 5 [0] exSmall_proper (by norm_num [exSmall]) (by norm_num [exSmall])
    (by norm_num [exSmall]) (by decide +kernel)
  rw [h1] at k1
  cases k1
  rw [h2] at l1
  cases l1
  refine ⟨m, m2, m', m2', h1, h2, h3, h4, e, by norm_num [Rect.Pos, rectOf, exRegion], ?_, k3 ▸ k2.tiles⟩
  rw [l3]
  norm_num [Inside, rectOf, exRegion, exSmall]

end Verif
