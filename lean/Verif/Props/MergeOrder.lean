import Mathlib.Data.List.Pairwise
import Verif.Props.Reading

/-!
# What a sequence of merges gives at a point (C138)
-/

namespace Verif.Spec
open Verif

/-- Of the mesh `m` and the meshes `ms` merged into it one after the other, `s` is the one that counts at the point: the last of `ms` whose region has the point, or `m` if there is none. -/
def Shows (m : EnvMesh) (ms : List EnvMesh) (y x : ℚ) (s : EnvMesh) : Prop :=
  (∃ l r, ms = l ++ s :: r ∧ (rectOf s.bounds).Mem x y ∧ ∀ t ∈ r, ¬ (rectOf t.bounds).Mem x y) ∨
  (s = m ∧ ∀ t ∈ ms, ¬ (rectOf t.bounds).Mem x y)

/-- The meshes `ms` can be merged into `m`: their regions and their cells fit the lattice of `m`. -/
def Fits (m : EnvMesh) (ms : List EnvMesh) : Prop :=
  ∀ m2 ∈ ms, MergeIn m2 ∧ (∃ a n c k : ℤ, m2.bounds.longMin = m.bounds.longMin + a * m.config.cellWidth ∧
      m2.bounds.longMax = m.bounds.longMin + n * m.config.cellWidth ∧ m2.bounds.latMin = m.bounds.latMin + c * m.config.cellHeight ∧
      m2.bounds.latMax = m.bounds.latMin + k * m.config.cellHeight) ∧
    ∀ c ∈ m2.cells, InSquare m.bounds.longMin m.bounds.latMin m.config.cellWidth m.config.cellHeight (rectOf c.bounds)

end Verif.Spec

namespace Verif
open Spec

theorem imem_mem {r : Rect} {x y : ℚ} (h : r.IMem x y) : r.Mem x y := ⟨h.1.le, h.2.1.le, h.2.2.1.le, h.2.2.2.le⟩

/-- There is always a mesh that counts. -/
theorem shows_exists (m : EnvMesh) (ms : List EnvMesh) (y x : ℚ) : ∃ s, Shows m ms y x s := by
  induction ms generalizing m with
  | nil => exact ⟨m, Or.inr ⟨rfl, by simp⟩⟩
  | cons t ms ih =>
    obtain ⟨s, ⟨l, r, e, h1, h2⟩ | ⟨e, h⟩⟩ := ih m
    · exact ⟨s, Or.inl ⟨t :: l, r, by rw [e]; rfl, h1, h2⟩⟩
    · by_cases ht : (rectOf t.bounds).Mem x y
      · exact ⟨t, Or.inl ⟨[], ms, rfl, ht, h⟩⟩
      · refine ⟨m, Or.inr ⟨rfl, ?_⟩⟩
        intro u hu
        rcases List.mem_cons.1 hu with rfl | hu
        · exact ht
        · exact h u hu

/-- A mesh to be merged in gives nothing at points that are not inside of its region. -/
theorem readAt_inside {m2 : EnvMesh} (h2 : MergeIn m2) {x y : ℚ} (hx : -180 ≤ x ∧ x ≤ 180) {key : String} {v : Option Val} (hr : ReadAt m2 y x key v) :
    (rectOf m2.bounds).IMem x y := by
  rw [readAt_iff h2.mergeable.ok.ids h2.tiles h2.mergeable.ok.valid (fun c hc => (envOK_long h2.mergeable.ok c hc).1) hx] at hr
  obtain ⟨c, hc, ⟨x1, x2, x3, x4⟩, -⟩ := hr
  obtain ⟨k1, k2, k3, k4⟩ := inside_of_tiles h2.mergeable.ok h2.tiles h2.valid h2.pos hc
  exact ⟨by linarith, by linarith, by linarith, by linarith⟩

/-! ## C138 -/

/-- C138, one merge: at every point of the region of the mesh merged in, edges included, the merged mesh gives what that mesh gives, at every other point what the other gave. -/
theorem C138_one (m m2 m' m2' : EnvMesh) (h : MergeBase m) (h2 : MergeIn m2) (he : m.mergeMesh m2 = .ok (m', m2')) (b : Boundary)
    (hb : (rectOf b).Pos) (hin : Inside (rectOf b) (rectOf m2.bounds)) (ht : EnvTiles m b) (x y : ℚ) (hx : -180 ≤ x ∧ x ≤ 180) (key : String) (hk : key ≠ "id")
    (v : Option Val) :
    ((rectOf m2.bounds).Mem x y → (ReadAt m' y x key v ↔ ReadAt m2 y x key v)) ∧
    (¬ (rectOf m2.bounds).Mem x y → (ReadAt m' y x key v ↔ ReadAt m y x key v)) := by
  have hc : EnvMesh.compatible m m2 = .ok true := by
    by_contra hnc
    have := (C38_merge_partial m m2 h h2).1 (fun hy => hnc ((compatible_iff h.wpos h.hpos h2.pos).2 hy))
    rw [this] at he; cases he
  have ht' := (C38_tiles m m2 h h2 m' m2' he).1 b hb hin ht
  obtain ⟨m1, m3, n, kept, added, e1, e2, -, e4, e5, e6, e7, e8, -⟩ := (C38_merge_partial m m2 h h2).2 ((compatible_iff h.wpos h.hpos h2.pos).1 hc)
  rw [he] at e1
  cases e1
  rw [readAt_iff e2.ids ht' e2.valid (fun c hc => (envOK_long e2 c hc).1) hx,
    readAt_iff h.ok.ids ht h.ok.valid (fun c hc => (envOK_long h.ok c hc).1) hx,
    readAt_iff h2.mergeable.ok.ids h2.tiles h2.mergeable.ok.valid (fun c hc => (envOK_long h2.mergeable.ok c hc).1) hx]
  have hkept : ∀ c ∈ kept, (rectOf c.bounds).IMem x y → ¬ (rectOf m2.bounds).Mem x y := by
    intro c' hk' hx hmem
    have hm := e5.subset hk'
    obtain ⟨kx, ky⟩ := aligned_of_compatible h.wpos h.hpos h2.pos hc (h.lattice c' hm)
    obtain ⟨x1, x2, x3, x4⟩ := hx
    obtain ⟨y1, y2, y3, y4⟩ := hmem
    rcases kx with ⟨k1, k2⟩ | k1 | k1
    · rcases ky with ⟨k3, k4⟩ | k3 | k3
      · exact (e6 c' hm).1 hk' ⟨k1, k2, k3, k4⟩
      · linarith
      · linarith
    · linarith
    · linarith
  have hadded : ∀ c ∈ added, ∃ c2 ∈ m2.cells, c.bounds = c2.bounds ∧ SameData c c2 := by
    intro c' ha
    obtain ⟨p, hp⟩ := List.mem_iff_getElem?.1 ha
    have hlt : p < m2.cells.length := by rw [← e7]; exact (List.getElem?_eq_some_iff.1 hp).1
    obtain ⟨c, g1, -, g3, g4⟩ := e8 p m2.cells[p] (List.getElem?_eq_getElem hlt)
    rw [hp] at g1
    cases g1
    exact ⟨_, List.getElem_mem hlt, g3, g4⟩
  have hmem2 : ∀ c2 ∈ m2.cells, (rectOf c2.bounds).IMem x y → (rectOf m2.bounds).Mem x y := by
    intro c2 hm ⟨x1, x2, x3, x4⟩
    obtain ⟨k1, k2, k3, k4⟩ := inside_of_tiles h2.mergeable.ok h2.tiles h2.valid h2.pos hm
    exact ⟨by linarith, by linarith, by linarith, by linarith⟩
  rw [e4]
  refine ⟨fun hmem => ⟨?_, ?_⟩, fun hno => ⟨?_, ?_⟩⟩
  · rintro ⟨c', hc', hi, e⟩
    rcases List.mem_append.1 hc' with hk' | ha
    · exact absurd hmem (hkept c' hk' hi)
    · obtain ⟨c2, g1, g2, g3⟩ := hadded c' ha
      exact ⟨c2, g1, g2 ▸ hi, by rw [← g3 key hk, e]⟩
  · rintro ⟨c2, hc2, hi, e⟩
    obtain ⟨p, hp⟩ := List.mem_iff_getElem?.1 hc2
    obtain ⟨c, g1, -, g3, g4⟩ := e8 p c2 hp
    exact ⟨c, List.mem_append.2 (Or.inr (List.mem_iff_getElem?.2 ⟨p, g1⟩)), g3 ▸ hi, by rw [g4 key hk, e]⟩
  · rintro ⟨c', hc', hi, e⟩
    rcases List.mem_append.1 hc' with hk' | ha
    · exact ⟨c', e5.subset hk', hi, e⟩
    · obtain ⟨c2, g1, g2, g3⟩ := hadded c' ha
      exact absurd (hmem2 c2 g1 (g2 ▸ hi)) hno
  · rintro ⟨c, hc, hi, e⟩
    refine ⟨c, List.mem_append.2 (Or.inl ((e6 c hc).2 fun ⟨k1, k2, k3, k4⟩ => hno ?_)), hi, e⟩
    obtain ⟨x1, x2, x3, x4⟩ := hi
    exact ⟨by linarith, by linarith, by linarith, by linarith⟩

/-- C138: any sequence of merges of meshes that fit succeeds, and at every point gives what the last mesh whose region has the point gives, or the first mesh where there is none. -/
theorem C138_last (ms : List EnvMesh) : ∀ (m : EnvMesh), MergeBase m → Fits m ms → ∀ b, (rectOf b).Pos → (∀ m2 ∈ ms, Inside (rectOf b) (rectOf m2.bounds)) →
    EnvTiles m b → ∃ m', EnvMesh.mergeAll m ms = .ok m' ∧ ∀ x y, -180 ≤ x ∧ x ≤ 180 → ∀ s, Shows m ms y x s → ∀ key, key ≠ "id" → ∀ v,
      ReadAt m' y x key v ↔ ReadAt s y x key v := by
  induction ms with
  | nil =>
    intro m _ _ b _ _ _
    refine ⟨m, rfl, fun x y _ s hs key _ v => ?_⟩
    rcases hs with ⟨l, r, e, -⟩ | ⟨rfl, -⟩
    · simp at e
    · exact Iff.rfl
  | cons m2 ms ih =>
    intro m h hall b hb hin ht
    obtain ⟨a1, a2, a3⟩ := hall m2 (by simp)
    obtain ⟨m1, m2', -, -, -, e1, -⟩ := (C38_merge_partial m m2 h a1).2 a2
    obtain ⟨t1, t2⟩ := C38_tiles m m2 h a1 m1 m2' e1
    obtain ⟨b1, b2, b3, b4⟩ := t2 a3
    obtain ⟨m', f1, f2⟩ := ih m1 b1 (by
      intro x hx
      rw [b2, b3, b4]
      exact hall x (by simp [hx])) b hb (fun x hx => hin x (by simp [hx])) (t1 b hb (hin m2 (by simp)) ht)
    refine ⟨m', ?_, fun x y hx s hs key hk v => ?_⟩
    · unfold EnvMesh.mergeAll at f1 ⊢
      rw [List.foldlM_cons, e1]
      exact f1
    · have hone := C138_one m m2 m1 m2' h a1 e1 b hb (hin m2 (by simp)) ht x y hx key hk v
      rcases hs with ⟨l, r, e, k1, k2⟩ | ⟨rfl, k⟩
      · cases l with
        | nil =>
          simp only [List.nil_append, List.cons.injEq] at e
          obtain ⟨rfl, rfl⟩ := e
          rw [f2 x y hx m1 (Or.inr ⟨rfl, k2⟩) key hk v]
          exact hone.1 k1
        | cons a l =>
          simp only [List.cons_append, List.cons.injEq] at e
          exact f2 x y hx s (Or.inl ⟨l, r, e.2, k1, k2⟩) key hk v
      · rw [f2 x y hx m1 (Or.inr ⟨rfl, fun t ht => k t (by simp [ht])⟩) key hk v]
        exact hone.2 (k m2 (by simp))

/-- C138: the order in which meshes are merged in makes no difference at any point if their regions do not overlap. -/
theorem C138_order (m : EnvMesh) (ms ms' : List EnvMesh) (hperm : ms.Perm ms') (h : MergeBase m) (hf : Fits m ms) (b : Boundary) (hb : (rectOf b).Pos)
    (hin : ∀ m2 ∈ ms, Inside (rectOf b) (rectOf m2.bounds)) (ht : EnvTiles m b)
    (hdis : ms.Pairwise (fun p q => ¬ (rectOf p.bounds).Overlap (rectOf q.bounds))) :
    ∃ m' m'', EnvMesh.mergeAll m ms = .ok m' ∧ EnvMesh.mergeAll m ms' = .ok m'' ∧ ∀ x y, -180 ≤ x ∧ x ≤ 180 → ∀ key, key ≠ "id" → ∀ v,
      ReadAt m' y x key v ↔ ReadAt m'' y x key v := by
  obtain ⟨m', e1, r1⟩ := C138_last ms m h hf b hb hin ht
  obtain ⟨m'', e2, r2⟩ := C138_last ms' m h (fun t ht => hf t (hperm.mem_iff.2 ht)) b hb (fun t ht => hin t (hperm.mem_iff.2 ht)) ht
  refine ⟨m', m'', e1, e2, fun x y hx key hk v => ?_⟩
  obtain ⟨s, hs⟩ := shows_exists m ms y x
  obtain ⟨s', hs'⟩ := shows_exists m ms' y x
  rw [r1 x y hx s hs key hk v, r2 x y hx s' hs' key hk v]
  have hsame : ∀ p ∈ ms, ∀ q ∈ ms, (rectOf p.bounds).IMem x y → (rectOf q.bounds).Mem x y → p = q := by
    intro p hp q hq ⟨p1, p2, p3, p4⟩ ⟨q1, q2, q3, q4⟩
    by_contra hne
    have : Std.Symm (fun p q : EnvMesh => ¬ (rectOf p.bounds).Overlap (rectOf q.bounds)) := ⟨fun p q h ⟨a1, a2, a3, a4⟩ => h ⟨a2, a1, a4, a3⟩⟩
    exact List.Pairwise.forall hdis hp hq hne ⟨by linarith, by linarith, by linarith, by linarith⟩
  rcases hs with ⟨l, r, e, k1, k2⟩ | ⟨rfl, k⟩
  · have hsm : s ∈ ms := by rw [e]; simp
    rcases hs' with ⟨l', r', e', k1', k2'⟩ | ⟨rfl, k'⟩
    · have hsm' : s' ∈ ms := hperm.mem_iff.2 (by rw [e']; simp)
      constructor
      · intro hr
        have := hsame s hsm s' hsm' (readAt_inside (hf s hsm).1 hx hr) k1'
        exact this ▸ hr
      · intro hr
        have := hsame s' hsm' s hsm (readAt_inside (hf s' hsm').1 hx hr) k1
        exact this ▸ hr
    · exact absurd k1 (k' s (hperm.mem_iff.1 hsm))
  · rcases hs' with ⟨l', r', e', k1', k2'⟩ | ⟨rfl, k'⟩
    · exact absurd k1' (k s' (hperm.mem_iff.2 (by rw [e']; simp)))
    · exact Iff.rfl

/-- The cell at a point and what it gives, for two meshes over the same region merged in one order. -/
def exInOrder (p q : List ℕ) : Py (Option (Option Val)) := do
  let m ← exBuild exRegion 10 5 [2]
  let m2 ← exBuild exSmall 5 5 p
  let m3 ← exBuild exSmall 5 5 q
  let m' ← m.mergeAll [m2, m3]
  let i ← m'.queryIndex (-59, 14)
  return (EnvMesh.getCellbox m'.cells i).map (fun c => c.data.get? "a")

/-- Where regions overlap the order does make a difference. -/
theorem C138_overlap_false : exInOrder [] [0] = .ok (some (some (.num (some (25/2))))) ∧ exInOrder [0] [] = .ok (some (some (.num (some 10)))) := by
  decide +kernel

/-- The region of a further mesh of the examples. -/
def exCorner : Boundary := ⟨-55, -50, 0, 10, []⟩

theorem exCorner_proper : ProperGrid exCorner 5 5 := by
  refine ⟨by norm_num [Valid, exCorner], by norm_num [exCorner], by norm_num, by norm_num, ?_⟩
  intro h
  have : exCorner.width = 10 := by decide +kernel
  rw [this] at h; norm_num at h

/-- The hypotheses are met by a mesh of four 10 by 5 cells (one split), and two meshes of 5 by 5 cells over two of its cells. -/
example : ∃ m m2 m3 : EnvMesh, exBuild exRegion 10 5 [2] = .ok m ∧ exBuild exSmall 5 5 [0] = .ok m2 ∧ exBuild exCorner 5 5 [] = .ok m3 ∧ MergeBase m ∧
    Fits m [m2, m3] ∧ (rectOf exRegion).Pos ∧ (∀ t ∈ [m2, m3], Inside (rectOf exRegion) (rectOf t.bounds)) ∧ EnvTiles m exRegion ∧
    [m2, m3].Pairwise (fun p q => ¬ (rectOf p.bounds).Overlap (rectOf q.bounds)) ∧ [m2, m3].Perm [m3, m2] := by
  obtain ⟨m, h1, h2, h2', h3, h4, h5⟩ := exBuild_ok exRegion 10 5 [2] exRegion_proper (by norm_num [exRegion]) (by norm_num [exRegion])
    (by norm_num [exRegion]) (by decide +kernel)
  obtain ⟨m2, k1, -, k2, k3, -⟩ := exBuild_ok exSmall 5 5 [0] exSmall_proper (by norm_num [exSmall]) (by norm_num [exSmall])
    (by norm_num [exSmall]) (by decide +kernel)
  obtain ⟨m3, l1, -, l2, l3, -⟩ := exBuild_ok exCorner 5 5 [] exCorner_proper (by norm_num [exCorner]) (by norm_num [exCorner])
    (by norm_num [exCorner]) (by decide +kernel)
  refine ⟨m, m2, m3, h1, k1, l1, h2, ?_, by norm_num [Rect.Pos, rectOf, exRegion], ?_, h3 ▸ h2'.tiles, ?_, List.Perm.swap _ _ _⟩
  · intro t ht
    simp only [List.mem_cons, List.not_mem_nil, or_false] at ht
    rcases ht with rfl | rfl
    · refine ⟨k2, ⟨1, 2, 0, 1, ?_⟩, fun c hc => ⟨1, 0, ?_⟩⟩
      · rw [h3, h4, h5, k3]; norm_num [exRegion, exSmall]
      · obtain ⟨i1, i2, i3, i4⟩ := inside_of_tiles k2.mergeable.ok k2.tiles k2.valid k2.pos hc
        rw [h3, h4, h5]
        rw [k3] at i1 i2 i3 i4
        norm_num [exRegion, exSmall, rectOf] at i1 i2 i3 i4 ⊢
        exact ⟨i1, i2, i3, i4⟩
    · refine ⟨l2, ⟨0, 1, 1, 2, ?_⟩, fun c hc => ⟨0, 1, ?_⟩⟩
      · rw [h3, h4, h5, l3]; norm_num [exRegion, exCorner]
      · obtain ⟨i1, i2, i3, i4⟩ := inside_of_tiles l2.mergeable.ok l2.tiles l2.valid l2.pos hc
        rw [h3, h4, h5]
        rw [l3] at i1 i2 i3 i4
        norm_num [exRegion, exCorner, rectOf] at i1 i2 i3 i4 ⊢
        exact ⟨i1, i2, i3, i4⟩
  · intro t ht
    simp only [List.mem_cons, List.not_mem_nil, or_false] at ht
    rcases ht with rfl | rfl
    · rw [k3]; norm_num [Inside, rectOf, exRegion, exSmall]
    · rw [l3]; norm_num [Inside, rectOf, exRegion, exCorner]
  · simp only [List.pairwise_cons, List.mem_singleton, forall_eq, List.not_mem_nil, false_implies, implies_true, List.Pairwise.nil, and_true]
    rw [k3, l3]
    norm_num [Rect.Overlap, rectOf, exSmall, exCorner]

end Verif
