import Verif.Proof.EnvMerge
import Verif.Proof.History
import Verif.Props.EnvSplits
import Verif.Props.EnvOps

/-!
# C38, C39: merging two meshes
-/

namespace Verif
open Spec

variable {D : Type}

instance (B r : Rect) : Decidable (Spec.Inside B r) := by unfold Spec.Inside; infer_instance

/-- The rectangle lies within one square of the lattice of `W` by `H` boxes with a corner at
`(x0, y0)`. -/
def Spec.InSquare (x0 y0 W H : ℚ) (r : Rect) : Prop :=
  ∃ i j : ℤ, x0 + i * W ≤ r.w ∧ r.e ≤ x0 + (i + 1) * W ∧ y0 + j * H ≤ r.s ∧ r.n ≤ y0 + (j + 1) * H

/-- One axis of the alignment: an interval within one step of a lattice is within, left of, or right
of an interval between lattice points. -/
theorem lattice_axis {x0 W lo hi w e : ℚ} (hW : 0 < W) {a n i : ℤ} (hlo : lo = x0 + a * W) (hhi : hi = x0 + n * W)
    (h1 : x0 + i * W ≤ w) (h2 : e ≤ x0 + (i + 1) * W) : (lo ≤ w ∧ e ≤ hi) ∨ e ≤ lo ∨ hi ≤ w := by
  have mono : ∀ p q : ℤ, p ≤ q → (p : ℚ) * W ≤ q * W := fun p q h => mul_le_mul_of_nonneg_right (by exact_mod_cast h) hW.le
  by_cases c1 : a ≤ i
  · by_cases c2 : i + 1 ≤ n
    · left
      have e1 := mono _ _ c1
      have e2 := mono _ _ c2
      push_cast at e2
      exact ⟨by linarith, by linarith⟩
    · right; right
      have e1 := mono n i (by omega)
      linarith
  · right; left
    have e1 := mono (i + 1) a (by omega)
    push_cast at e1
    linarith

/-- The exact meaning of the compatibility check: the corners of the second region are lattice points. -/
theorem compatible_iff {m m2 : EnvMesh} (hW : 0 < m.config.cellWidth) (hH : 0 < m.config.cellHeight) (hB : (rectOf m2.bounds).Pos) :
    EnvMesh.compatible m m2 = .ok true ↔ ∃ a n c k : ℤ,
      m2.bounds.longMin = m.bounds.longMin + a * m.config.cellWidth ∧ m2.bounds.longMax = m.bounds.longMin + n * m.config.cellWidth ∧
      m2.bounds.latMin = m.bounds.latMin + c * m.config.cellHeight ∧ m2.bounds.latMax = m.bounds.latMin + k * m.config.cellHeight := by
  have hw := width_of_lt hB.1
  simp only [EnvMesh.compatible, if_neg hW.ne', if_neg hH.ne']
  have e : ∀ p q r s : Prop, [Decidable p] → [Decidable q] → [Decidable r] → [Decidable s] →
      ((if ¬ p then (Except.ok false : Py Bool) else if ¬ q then .ok false else if ¬ r then .ok false else if ¬ s then .ok false else .ok true) = .ok true ↔
      p ∧ q ∧ r ∧ s) := by
    intro p q r s _ _ _ _
    by_cases p <;> by_cases q <;> by_cases r <;> by_cases s <;> simp_all
  rw [e, pyMod_eq_zero_iff hH.ne', pyMod_eq_zero_iff hW.ne', pyMod_eq_zero_iff hH.ne', pyMod_eq_zero_iff hW.ne', hw]
  unfold Boundary.height
  constructor
  · rintro ⟨⟨k, hk⟩, ⟨n, hn⟩, ⟨c, hc⟩, ⟨a, ha⟩⟩
    refine ⟨-a, n - a, -c, k - c, ?_, ?_, ?_, ?_⟩ <;> push_cast <;> linarith
  · rintro ⟨a, n, c, k, h1, h2, h3, h4⟩
    refine ⟨⟨k - c, ?_⟩, ⟨n - a, ?_⟩, ⟨-c, ?_⟩, ⟨-a, ?_⟩⟩ <;> push_cast <;> linarith

/-- Cells within lattice squares are aligned with a compatible mesh. -/
theorem aligned_of_compatible {m m2 : EnvMesh} (hW : 0 < m.config.cellWidth) (hH : 0 < m.config.cellHeight) (hB : (rectOf m2.bounds).Pos)
    (hc : EnvMesh.compatible m m2 = .ok true) {r : Rect}
    (hr : InSquare m.bounds.longMin m.bounds.latMin m.config.cellWidth m.config.cellHeight r) : Aligned (rectOf m2.bounds) r := by
  obtain ⟨a, n, c, k, h1, h2, h3, h4⟩ := (compatible_iff hW hH hB).1 hc
  obtain ⟨i, j, s1, s2, s3, s4⟩ := hr
  exact ⟨lattice_axis hW h1 h2 s1 s2, lattice_axis hH h3 h4 s3 s4⟩

theorem hcovers_iff {b : Boundary} (h : b.longMin < b.longMax) (x y : ℚ) :
    HCovers b x y ↔ (∃ n : ℤ, b.longMin < x + 360 * n ∧ x + 360 * n ≤ b.longMax) ∧ b.latMin < y ∧ y ≤ b.latMax := by
  unfold HCovers eastEdge
  rw [if_pos h]

/-- Replacing the cells inside `B` by a tiling of `B`. -/
theorem tiles_replace_inside {l l2 : List Boundary} {b B : Boundary} (h : Tiles l b) (h2 : Tiles l2 B)
    (hl : ∀ c ∈ l, Valid c ∧ (rectOf c).Pos) (hBp : (rectOf B).Pos) (hBv : Valid B)
    (hal : ∀ c ∈ l, Aligned (rectOf B) (rectOf c)) (hb : (rectOf b).Pos) (hin : Inside (rectOf b) (rectOf B)) :
    Tiles (l.filter (fun c => ¬ Inside (rectOf B) (rectOf c)) ++ l2) b := by
  have mono : ∀ p q : Boundary, (rectOf p).Pos → (rectOf q).Pos → Inside (rectOf q) (rectOf p) → ∀ x y, HCovers p x y → HCovers q x y := by
    rintro p q hp hq ⟨i1, i2, i3, i4⟩ x y hx
    rw [hcovers_iff hp.1] at hx
    rw [hcovers_iff hq.1]
    simp only [rectOf] at i1 i2 i3 i4
    obtain ⟨⟨n, e1, e2⟩, e3, e4⟩ := hx
    exact ⟨⟨n, by linarith, by linarith⟩, by linarith, by linarith⟩
  have disj : ∀ c ∈ l, ¬ Inside (rectOf B) (rectOf c) → ∀ x y, HCovers c x y → HCovers B x y → False := by
    intro c hc hni x y hx hy
    obtain ⟨hv, hp⟩ := hl c hc
    have ha := hal c hc
    rw [hcovers_iff hp.1] at hx
    rw [hcovers_iff hBp.1] at hy
    obtain ⟨⟨n, e1, e2⟩, e3, e4⟩ := hx
    obtain ⟨⟨k, f1, f2⟩, f3, f4⟩ := hy
    have hnk : n = k := by
      have v1 := hv.2.1
      have v2 := hv.2.2.2.2.1
      have w1 := hBv.2.1
      have w2 := hBv.2.2.2.2.1
      have d1 : (n : ℚ) - k < 1 := by linarith
      have d2 : (k : ℚ) - n < 1 := by linarith
      have d1' : n - k < 1 := by exact_mod_cast d1
      have d2' : k - n < 1 := by exact_mod_cast d2
      omega
    subst hnk
    unfold Aligned at ha
    unfold Inside at hni
    simp only [rectOf] at ha hni
    grind
  refine ⟨?_, ?_⟩
  · intro x y
    simp only [List.mem_append, List.mem_filter, decide_eq_true_eq]
    constructor
    · intro hx
      obtain ⟨c, hc, hx⟩ := (h.1 x y).1 hx
      by_cases hi : Inside (rectOf B) (rectOf c)
      · obtain ⟨c', hc', hx'⟩ := (h2.1 x y).1 (mono c B (hl c hc).2 hBp hi x y hx)
        exact ⟨c', Or.inr hc', hx'⟩
      · exact ⟨c, Or.inl ⟨hc, hi⟩, hx⟩
    · rintro ⟨c, ⟨hc, -⟩ | hc, hx⟩
      · exact (h.1 x y).2 ⟨c, hc, hx⟩
      · exact mono B b hBp hb hin x y ((h2.1 x y).2 ⟨c, hc, hx⟩)
  · rw [List.pairwise_append]
    refine ⟨List.Pairwise.sublist List.filter_sublist h.2, h2.2, ?_⟩
    intro c hc c' hc' x y ⟨e1, e2⟩
    simp only [List.mem_filter, decide_eq_true_eq] at hc
    exact disj c hc.1 hc.2 x y e1 ((h2.1 x y).2 ⟨c', hc', e2⟩)

/-- A mesh that can be merged: consistent, loaded from JSON. -/
structure Spec.Mergeable (m : EnvMesh) : Prop where
  ok : EnvOK m
  loaded : Loaded m
  keys : m.graph.KeysNodup

/-- What merging does, for aligned cells. -/
theorem merge_ok (m m2 : EnvMesh) (h : EnvOK m) (hl : Loaded m) (h2 : Mergeable m2) (hB : (rectOf m2.bounds).Pos)
    (hcomp : EnvMesh.compatible m m2 = .ok true)
    (hin : ∀ a ∈ m2.cells, Inside (rectOf m2.bounds) (rectOf a.bounds))
    (hal : ∀ l ∈ m.cells, Aligned (rectOf m2.bounds) (rectOf l.bounds)) :
    ∃ (n : ℕ) (m' : EnvMesh), m.mergeMesh m2 = .ok (m', { m2.incrementIds n with graph := EnvMesh.shareMaps m'.graph (m2.incrementIds n).graph }) ∧ EnvOK m' ∧ Loaded m' ∧
      m'.cells = m.cells.filter (fun c => ¬ Inside (rectOf m2.bounds) (rectOf c.bounds)) ++ (m2.incrementIds n).cells ∧
      (∀ c ∈ m.cells, ¬ Inside (rectOf m2.bounds) (rectOf c.bounds) → c.id < n) ∧
      m'.bounds = m.bounds ∧ m'.config = { m.config with merged := m.config.merged ++ [m2.config] } ∧
      m'.graph.isGlobal = m.graph.isGlobal := by
  have wi : ∀ c, EnvMesh.isWithin m2.bounds c = true ↔ Inside (rectOf m2.bounds) (rectOf c.bounds) := by
    intro c
    simp only [EnvMesh.isWithin, Bool.and_eq_true, decide_eq_true_eq, Inside, rectOf, and_assoc]
  set mc : EnvMesh := { m with config := { m.config with merged := m.config.merged ++ [m2.config] } } with hmc
  have hmcok : EnvOK mc := ⟨h.ids, h.valid, h.graph⟩
  obtain ⟨g1, r1, r2, r3⟩ := removeAll_ok (mc.within m2.bounds) mc hmcok (List.Nodup.filter _ (nodup_of_ids h.ids))
    (fun c hc => List.mem_of_mem_filter hc)
  have e : mc.cells.filter (fun x => x ∉ mc.within m2.bounds) = m.cells.filter (fun c => ¬ Inside (rectOf m2.bounds) (rectOf c.bounds)) := by
    refine List.filter_congr ?_
    intro c hc
    have : c ∈ mc.within m2.bounds ↔ Inside (rectOf m2.bounds) (rectOf c.bounds) := by
      simp only [EnvMesh.within, List.mem_filter, wi]
      exact ⟨fun x => x.2, fun x => ⟨hc, x⟩⟩
    simp only [this]
  rw [e] at r1 r2
  set m1 : EnvMesh := { mc with cells := m.cells.filter (fun c => ¬ Inside (rectOf m2.bounds) (rectOf c.bounds)), graph := g1 } with hm1
  set n := EnvMesh.maxId m1.cells + 1 with hn
  have h2' := increment_ok h2.ok h2.keys n
  have hk2 := incrementGraph_keys h2.keys n
  have hcell2 : ∀ a ∈ (m2.incrementIds n).cells, ∃ c ∈ m2.cells, a.id = c.id + n ∧ a.bounds = c.bounds := by
    intro a ha
    simp only [EnvMesh.incrementIds, List.mem_map] at ha
    obtain ⟨c, hc, rfl⟩ := ha
    exact ⟨c, hc, rfl, rfl⟩
  have hlt : ∀ c ∈ m1.cells, c.id < n := fun c hc => Nat.lt_succ_of_le (le_maxId hc)
  obtain ⟨l1, l2⟩ := look_foldl_addNode (m2.incrementIds n).graph.nodes g1 hk2
  obtain ⟨g', t1, t2, t3⟩ := ties_exact m1 (m2.incrementIds n) r2 h2' hB
    (by
      intro l hl a ha
      obtain ⟨c, -, e, -⟩ := hcell2 a ha
      have := hlt l hl
      omega)
    (by
      intro a ha
      obtain ⟨c, hc, -, e⟩ := hcell2 a ha
      rw [e]; exact hin c hc)
    (fun l hl => hal l (List.mem_of_mem_filter hl))
    (by
      intro l hl
      have := (List.mem_filter.1 hl).2
      simp only [decide_eq_true_eq] at this
      exact this)
    _ l1 { m1 with cells := m1.cells ++ (m2.incrementIds n).cells } rfl
  refine ⟨n, { m1 with cells := m1.cells ++ (m2.incrementIds n).cells, graph := g' }, ?_, t3, hl, rfl, ?_, rfl, rfl, ?_⟩
  · unfold EnvMesh.mergeMesh
    have hstr : (m.strNodes && m.strDirs && m2.strNodes && m2.strDirs) = true := by
      rw [hl.1, hl.2, h2.loaded.1, h2.loaded.2]; rfl
    rw [hcomp]
    have hrem : EnvMesh.removeWithin mc m2.bounds = .ok m1 := r1
    simp only [bind, Except.bind, hstr, Bool.true_eq_false, if_false, ← hmc, hrem, ← hn]
    have ht := ties_eq ((m2.incrementIds n).graph.nodes.foldl (fun (g : Graph) p => g.addNode p.1 p.2) g1)
      { m1 with cells := m1.cells ++ (m2.incrementIds n).cells } (m2.incrementIds n) m2.bounds
    rw [show (m2.incrementIds n).bounds = m2.bounds from rfl] at t1
    rw [t1] at ht
    simp only [bind, Except.bind] at ht
    revert ht
    cases EnvMesh.tieNorthern _ (EnvMesh.northOf { m1 with cells := m1.cells ++ (m2.incrementIds n).cells } m2.bounds) (m2.incrementIds n).topEdge with
    | error _ => intro ht; cases ht
    | ok ga =>
      simp only
      cases EnvMesh.tieSouthern ga (EnvMesh.southOf { m1 with cells := m1.cells ++ (m2.incrementIds n).cells } m2.bounds) (m2.incrementIds n).bottomEdge with
      | error _ => intro ht; cases ht
      | ok gb =>
        simp only
        cases EnvMesh.tieEastern gb (EnvMesh.eastOf { m1 with cells := m1.cells ++ (m2.incrementIds n).cells } m2.bounds) (m2.incrementIds n).rightEdge with
        | error _ => intro ht; cases ht
        | ok gc =>
          simp only
          intro ht
          rw [ht]
          rfl
  · intro c hc hni
    exact hlt c (by rw [hm1]; simp only [List.mem_filter, decide_eq_true_eq]; exact ⟨hc, hni⟩)
  · rw [show ({ m1 with cells := m1.cells ++ (m2.incrementIds n).cells, graph := g' } : EnvMesh).graph.isGlobal = g'.isGlobal from rfl, t2, l2, r3]

/-- The cells of a tiling are inside the tiled box. -/
theorem inside_of_tiles {m : EnvMesh} (h : EnvOK m) {b : Boundary} (ht : EnvTiles m b) (hb : Valid b) (hp : (rectOf b).Pos) {c : AggCell}
    (hc : c ∈ m.cells) : Inside (rectOf b) (rectOf c.bounds) := by
  obtain ⟨⟨c1, c2⟩, v1, v2, -⟩ := EnvOK.pos h hc
  have cov : ∀ x y, c.bounds.longMin < x → x ≤ c.bounds.longMax → c.bounds.latMin < y → y ≤ c.bounds.latMax →
      (b.longMin < x ∧ x ≤ b.longMax) ∧ b.latMin < y ∧ y ≤ b.latMax := by
    intro x y e1 e2 e3 e4
    have := (ht.1 x y).2 ⟨c.bounds, List.mem_map.2 ⟨c, hc, rfl⟩, (hcovers_iff c1 x y).2 ⟨⟨0, by simpa using e1, by simpa using e2⟩, e3, e4⟩⟩
    rw [hcovers_iff hp.1] at this
    obtain ⟨⟨n, f1, f2⟩, f3⟩ := this
    obtain ⟨-, w1, -, -, w2, -⟩ := hb
    simp only [rectOf] at v1 v2
    have d1 : (n : ℚ) < 1 := by linarith
    have d2 : (-1 : ℚ) < n := by linarith
    have d1' : n < 1 := by exact_mod_cast d1
    have d2' : -1 < n := by exact_mod_cast d2
    have : n = 0 := by omega
    subst this
    simp only [Int.cast_zero, mul_zero, add_zero] at f1 f2
    exact ⟨⟨f1, f2⟩, f3⟩
  simp only [rectOf] at c1 c2
  have top := cov c.bounds.longMax c.bounds.latMax c1 le_rfl c2 le_rfl
  refine ⟨?_, top.1.2, ?_, top.2.2⟩
  · simp only [rectOf]
    by_contra hlt
    have hmid := cov ((c.bounds.longMin + min b.longMin c.bounds.longMax) / 2) c.bounds.latMax
      (by rcases min_choice b.longMin c.bounds.longMax with e | e <;> rw [e] <;> linarith)
      (by have := min_le_right b.longMin c.bounds.longMax; linarith) c2 le_rfl
    have := min_le_left b.longMin c.bounds.longMax
    linarith [hmid.1.1]
  · simp only [rectOf]
    by_contra hlt
    have hmid := cov c.bounds.longMax ((c.bounds.latMin + min b.latMin c.bounds.latMax) / 2) c1 le_rfl
      (by rcases min_choice b.latMin c.bounds.latMax with e | e <;> rw [e] <;> linarith)
      (by have := min_le_right b.latMin c.bounds.latMax; linarith)
    have := min_le_left b.latMin c.bounds.latMax
    linarith [hmid.2.1]

/-- A mesh with the bounds of the region it tiles. -/
structure Spec.MergeIn (m2 : EnvMesh) : Prop where
  mergeable : Mergeable m2
  valid : Valid m2.bounds
  pos : (rectOf m2.bounds).Pos
  tiles : EnvTiles m2 m2.bounds

/-- A mesh that others can be merged into: consistent, loaded, every cell within one box of the
lattice of initial cells. -/
structure Spec.MergeBase (m : EnvMesh) : Prop where
  ok : EnvOK m
  loaded : Loaded m
  wpos : 0 < m.config.cellWidth
  hpos : 0 < m.config.cellHeight
  lattice : ∀ c ∈ m.cells, InSquare m.bounds.longMin m.bounds.latMin m.config.cellWidth m.config.cellHeight (rectOf c.bounds)

/-- C38 (every mesh whose cells lie within boxes of its lattice of initial cells; any second mesh that
tiles its own region): merging succeeds exactly when the corners of the second region are lattice
points and raises `AssertionError` otherwise.  When it succeeds, the cells inside the second region
are gone, all others are untouched, the cells of the second mesh follow under ids shifted beyond all
kept ones, with their bounds and data, and the neighbour graph is exactly geometric adjacency of all
of these. -/
theorem C38_merge_partial (m m2 : EnvMesh) (h : MergeBase m) (h2 : MergeIn m2) :
    ((¬ ∃ a n c k : ℤ, m2.bounds.longMin = m.bounds.longMin + a * m.config.cellWidth ∧
        m2.bounds.longMax = m.bounds.longMin + n * m.config.cellWidth ∧ m2.bounds.latMin = m.bounds.latMin + c * m.config.cellHeight ∧
        m2.bounds.latMax = m.bounds.latMin + k * m.config.cellHeight) → m.mergeMesh m2 = .error .assertionError) ∧
    ((∃ a n c k : ℤ, m2.bounds.longMin = m.bounds.longMin + a * m.config.cellWidth ∧
        m2.bounds.longMax = m.bounds.longMin + n * m.config.cellWidth ∧ m2.bounds.latMin = m.bounds.latMin + c * m.config.cellHeight ∧
        m2.bounds.latMax = m.bounds.latMin + k * m.config.cellHeight) →
      ∃ (m' m2' : EnvMesh) (n : ℕ) (kept added : List AggCell), m.mergeMesh m2 = .ok (m', m2') ∧ EnvOK m' ∧ Loaded m' ∧
        m'.cells = kept ++ added ∧
        kept.Sublist m.cells ∧ (∀ c ∈ m.cells, c ∈ kept ↔ ¬ Inside (rectOf m2.bounds) (rectOf c.bounds)) ∧
        added.length = m2.cells.length ∧
        (∀ (p : ℕ) (c : AggCell), m2.cells[p]? = some c → ∃ c', added[p]? = some c' ∧ c'.id = c.id + n ∧ c'.bounds = c.bounds ∧ SameData c' c) ∧
        (∀ c ∈ kept, c.id < n) ∧ m'.bounds = m.bounds ∧ m'.config = { m.config with merged := m.config.merged ++ [m2.config] }) := by
  constructor
  · intro hno
    have hnc : ¬ EnvMesh.compatible m m2 = .ok true := fun hc => hno ((compatible_iff h.wpos h.hpos h2.pos).1 hc)
    have : EnvMesh.compatible m m2 = .ok false := by
      revert hnc
      unfold EnvMesh.compatible
      simp only [if_neg h.wpos.ne', if_neg h.hpos.ne']
      split_ifs <;> simp
    unfold EnvMesh.mergeMesh
    simp only [this, bind, Except.bind, if_true]
  · intro hyes
    have hc := (compatible_iff h.wpos h.hpos h2.pos).2 hyes
    obtain ⟨n, m', e1, e2, e3, e4, e5, e6, e7, -⟩ := merge_ok m m2 h.ok h.loaded h2.mergeable h2.pos hc
      (fun a ha => inside_of_tiles h2.mergeable.ok h2.tiles h2.valid h2.pos ha)
      (fun l hl => aligned_of_compatible h.wpos h.hpos h2.pos hc (h.lattice l hl))
    obtain ⟨i1, i2, -⟩ := C40_isomorphism m2 h2.mergeable.keys n
    refine ⟨m', _, n, _, _, e1, e2, e3, e4, List.filter_sublist, ?_, i1, i2, ?_, e6, e7⟩
    · intro c hc
      simp only [List.mem_filter, decide_eq_true_eq]
      exact ⟨fun x => x.2, fun x => ⟨hc, x⟩⟩
    · intro c hc
      simp only [List.mem_filter, decide_eq_true_eq] at hc
      exact e5 c hc.1 hc.2

/-- If the second region lies in the region tiled by the first mesh, the merged mesh tiles that
region too; and if the cells of the second mesh lie within lattice boxes of the first, the result can
be merged into again. -/
theorem C38_tiles (m m2 : EnvMesh) (h : MergeBase m) (h2 : MergeIn m2) (m' m2' : EnvMesh) (he : m.mergeMesh m2 = .ok (m', m2')) :
    (∀ b, (rectOf b).Pos → Inside (rectOf b) (rectOf m2.bounds) → EnvTiles m b → EnvTiles m' b) ∧
    ((∀ c ∈ m2.cells, InSquare m.bounds.longMin m.bounds.latMin m.config.cellWidth m.config.cellHeight (rectOf c.bounds)) →
      MergeBase m' ∧ m'.bounds = m.bounds ∧ m'.config.cellWidth = m.config.cellWidth ∧ m'.config.cellHeight = m.config.cellHeight) := by
  have hc : EnvMesh.compatible m m2 = .ok true := by
    by_contra hnc
    have := (C38_merge_partial m m2 h h2).1 (fun hy => hnc ((compatible_iff h.wpos h.hpos h2.pos).2 hy))
    rw [this] at he; cases he
  obtain ⟨n, m1, e1, e2, e3, e4, e5, e6, e7, -⟩ := merge_ok m m2 h.ok h.loaded h2.mergeable h2.pos hc
    (fun a ha => inside_of_tiles h2.mergeable.ok h2.tiles h2.valid h2.pos ha)
    (fun l hl => aligned_of_compatible h.wpos h.hpos h2.pos hc (h.lattice l hl))
  rw [e1] at he
  injection he with he
  injection he with he1 he2
  subst he1
  constructor
  · intro b hb hin ht
    have hb2 : (m2.incrementIds n).cells.map (·.bounds) = m2.cells.map (·.bounds) := by
      simp [EnvMesh.incrementIds, EnvMesh.incrementCell]
    have := tiles_replace_inside ht h2.tiles (by
        intro q hq
        obtain ⟨c, hc, rfl⟩ := List.mem_map.1 hq
        exact ⟨h.ok.valid c hc, (EnvOK.pos h.ok hc).1⟩) h2.pos h2.valid (by
        intro q hq
        obtain ⟨c, hcm, rfl⟩ := List.mem_map.1 hq
        exact aligned_of_compatible h.wpos h.hpos h2.pos hc (h.lattice c hcm)) hb hin
    unfold EnvTiles
    rw [e4, List.map_append, hb2]
    rw [List.filter_map] at this
    exact this
  · intro hsq
    refine ⟨⟨e2, e3, ?_, ?_, ?_⟩, e6, ?_, ?_⟩
    · rw [e7]; exact h.wpos
    · rw [e7]; exact h.hpos
    · intro c hc
      rw [e4, List.mem_append] at hc
      rw [e6, e7]
      rcases hc with hc | hc
      · exact h.lattice c (List.mem_of_mem_filter hc)
      · simp only [EnvMesh.incrementIds, List.mem_map] at hc
        obtain ⟨c0, hc0, rfl⟩ := hc
        exact hsq c0 hc0
    · rw [e7]
    · rw [e7]

/-- Any sequence of merges of meshes that fit the lattice of the first one (region and every cell)
succeeds and gives an exact mesh, which still tiles the region if they lie in it. -/
theorem C38_sequences (ms : List EnvMesh) : ∀ (m : EnvMesh), MergeBase m →
    (∀ m2 ∈ ms, MergeIn m2 ∧ (∃ a n c k : ℤ, m2.bounds.longMin = m.bounds.longMin + a * m.config.cellWidth ∧
        m2.bounds.longMax = m.bounds.longMin + n * m.config.cellWidth ∧ m2.bounds.latMin = m.bounds.latMin + c * m.config.cellHeight ∧
        m2.bounds.latMax = m.bounds.latMin + k * m.config.cellHeight) ∧
      ∀ c ∈ m2.cells, InSquare m.bounds.longMin m.bounds.latMin m.config.cellWidth m.config.cellHeight (rectOf c.bounds)) →
    ∃ m', EnvMesh.mergeAll m ms = .ok m' ∧ MergeBase m' ∧ m'.bounds = m.bounds ∧
      ∀ b, (rectOf b).Pos → (∀ m2 ∈ ms, Inside (rectOf b) (rectOf m2.bounds)) → EnvTiles m b → EnvTiles m' b := by
  induction ms with
  | nil => intro m h _; exact ⟨m, rfl, h, rfl, fun b _ _ ht => ht⟩
  | cons m2 ms ih =>
    intro m h hall
    obtain ⟨a1, a2, a3⟩ := hall m2 (by simp)
    obtain ⟨m1, m2', -, -, -, e1, -⟩ := (C38_merge_partial m m2 h a1).2 a2
    obtain ⟨t1, t2⟩ := C38_tiles m m2 h a1 m1 m2' e1
    obtain ⟨b1, b2, b3, b4⟩ := t2 a3
    obtain ⟨m', f1, f2, f3, f4⟩ := ih m1 b1 (by
      intro x hx
      rw [b2, b3, b4]
      exact hall x (by simp [hx]))
    refine ⟨m', ?_, f2, f3.trans b2, ?_⟩
    · unfold EnvMesh.mergeAll at f1 ⊢
      rw [List.foldlM_cons, e1]
      exact f1
    · intro b hb hin ht
      exact f4 b hb (fun x hx => hin x (by simp [hx])) (t1 b hb (hin m2 (by simp)) ht)

/-- Every cell of a mesh reached by splits lies within a box of the initial lattice. -/
theorem reach_lattice {ops : DataOps D} {b : Boundary} {W H : ℚ} {initData : Boundary → D} {depth : ℕ}
    (hp : ProperGrid b W H) (hcr : b.longMin < b.longMax) {m : MeshState D} (h : Reach ops b W H initData depth m) {i : ℕ}
    {c : CellBox D} (hl : Live m i c) : InSquare b.longMin b.latMin W H (rectOf c.bounds) := by
  have key := (reach_history_gen (ops := ops) hp (fun q => q.longMin < q.longMax ∧ q.latMin ≤ q.latMax ∧ InSquare b.longMin b.latMin W H (rectOf q)) ?_ ?_ h hl).1
  · exact key.all.1.2.2
  · intro m0 i c h0 hl
    obtain ⟨_, _, _, hval, _⟩ := init_inv h0
    obtain ⟨nx, ny, hnx0, hnx, hny⟩ := hp.fits hval
    have hw := width_of_lt hcr
    obtain ⟨boxes, g, glob, -, hb, -, rfl⟩ := init_inv h0
    rw [initializeCells_eq b hp.valid hp.wpos hp.hpos (by
      have : (1 : ℚ) ≤ nx := by exact_mod_cast hnx0
      have h3 : 1 * W ≤ nx * W := mul_le_mul_of_nonneg_right this hp.wpos.le
      have h4 := hp.valid
      have h5 := h4.2.1
      have h6 := h4.2.2.2.2.1
      linarith) nx ny (by unfold eastEdge; rw [if_pos hcr, ← hnx, hw]) hny] at hb
    cases hb
    obtain ⟨cb, hcb, rfl⟩ := live_init.1 hl
    simp only
    rw [List.getElem?_map] at hcb
    obtain ⟨i', hi', rfl⟩ := Option.map_eq_some_iff.1 hcb
    obtain ⟨hi1, hi2⟩ := List.getElem?_eq_some_iff.1 hi'
    rw [List.getElem_range] at hi2
    subst hi2
    obtain ⟨r, cc, hcc, rfl⟩ := idx_exists hnx0 i
    have hr := rectOf_gridCell (r := r) (H := H) hp.valid hp.wpos (nx := nx) (by
      rw [← hnx, hw]; linarith [hp.valid.2.2.2.2.1]) hcc
    refine ⟨?_, ?_, cc, r, ?_⟩
    · unfold rectOf gridRect at hr
      simp only [Rect.mk.injEq] at hr
      obtain ⟨e1, e2, -, -⟩ := hr
      rw [e1, e2]; linarith [hp.wpos]
    · unfold rectOf gridRect at hr
      simp only [Rect.mk.injEq] at hr
      obtain ⟨-, -, e1, e2⟩ := hr
      rw [e1, e2]; linarith [hp.hpos]
    · rw [hr]
      unfold gridRect
      simp only [Int.cast_natCast]
      refine ⟨?_, ?_, ?_, ?_⟩ <;> linarith
  · intro c0 n new hv hd hP hsp q hq
    obtain ⟨f, hsp', hf⟩ := split_quarters ops c0 n hv hP.1
    rw [hsp] at hsp'
    cases hsp'
    obtain ⟨q', rfl⟩ : ∃ q', q = f q' := by
      simp only [List.mem_cons, List.not_mem_nil, or_false] at hq
      rcases hq with rfl | rfl | rfl | rfl
      · exact ⟨.nw, rfl⟩
      · exact ⟨.ne, rfl⟩
      · exact ⟨.sw, rfl⟩
      · exact ⟨.se, rfl⟩
    have hr := hf q'
    obtain ⟨c1, c2, i, j, s1, s2, s3, s4⟩ := hP
    have hr' := hr
    unfold rectOf at hr
    simp only [rectOf] at s1 s2 s3 s4
    refine ⟨?_, ?_, i, j, ?_⟩
    · cases q' <;> simp only [Rect.quarter, Rect.mk.injEq] at hr <;> obtain ⟨e1, e2, e3, e4⟩ := hr <;> linarith
    · cases q' <;> simp only [Rect.quarter, Rect.mk.injEq] at hr <;> obtain ⟨e1, e2, e3, e4⟩ := hr <;> linarith
    · rw [hr']
      cases q' <;> simp only [Rect.quarter, rectOf] <;> refine ⟨?_, ?_, ?_, ?_⟩ <;> linarith

/-- A built regional mesh, saved and loaded, can be merged into and merged in: the hypotheses of C38
hold for every mesh the builder and any history of splits produce. -/
theorem C38_built (ops : DataOps D) (b : Boundary) (W H : ℚ) (hp : ProperGrid b W H) (hcr : b.longMin < b.longMax) (hlat : b.latMin < b.latMax)
    (hreg : ¬ (b.longMin = -180 ∧ b.longMax = 180)) (initData : Boundary → D) (depth : ℕ)
    (m : MeshState D) (h : Reach ops b W H initData depth m) (agg : CellBox D → Py (Dict String Val)) (config : MeshConfig)
    (hcfg : config.region = b ∧ config.cellWidth = W ∧ config.cellHeight = H)
    (em : EnvMesh) (he : MeshBuilder.toEnvMesh agg config m = .ok em)
    (hagg : ∀ i c d, Live m i c → agg c = .ok d → (d.map Prod.fst).Nodup ∧ "geometry" ∉ d.map Prod.fst) :
    ∃ em', EnvMesh.fromJson em.toJson = .ok em' ∧ MergeBase em' ∧ MergeIn em' ∧ em'.bounds = b ∧ em'.config = config := by
  obtain ⟨em', h1, h2, h3, h4, h5, h6, h7, h8⟩ := C34_loaded_consistent ops b W H hp hcr hreg initData depth m h agg config em he hagg
  obtain ⟨c1, c2, c3⟩ := hcfg
  have hb : em'.bounds = b := h6.trans c1
  refine ⟨em', h1, ⟨h2, h3, ?_, ?_, ?_⟩, ⟨⟨h2, h3, h8⟩, ?_, ?_, ?_⟩, hb, h7⟩
  · rw [h7, c2]; exact hp.wpos
  · rw [h7, c3]; exact hp.hpos
  · intro c hc
    have := (envRect_iff h2.ids c.id _).2 ⟨c, hc, rfl, rfl⟩
    rw [h5] at this
    obtain ⟨cl, hl, e⟩ := liveRect_some this
    rw [hb, h7, c2, c3, ← e]
    exact reach_lattice hp hcr h hl
  · rw [hb]; exact hp.valid
  · rw [hb]; exact ⟨hcr, hlat⟩
  · rw [hb]; exact h4

/-! ## C39 -/

/-- C39 does not hold: merging renumbers the mesh that is merged in, by more than zero, whatever the
two meshes are; what it keeps of it are the number and order of cells, their bounds and data, the
region and the configuration. -/
theorem C39_renumbered_partial (m m2 : EnvMesh) (h : MergeBase m) (h2 : MergeIn m2) (m' m2' : EnvMesh) (he : m.mergeMesh m2 = .ok (m', m2')) :
    m2'.cells.length = m2.cells.length ∧ m2'.bounds = m2.bounds ∧ m2'.config = m2.config ∧
    ∃ n, 0 < n ∧ ∀ (p : ℕ) (c : AggCell), m2.cells[p]? = some c →
      ∃ c', m2'.cells[p]? = some c' ∧ c'.bounds = c.bounds ∧ SameData c' c ∧ c'.id = c.id + n := by
  have hc : EnvMesh.compatible m m2 = .ok true := by
    by_contra hnc
    have := (C38_merge_partial m m2 h h2).1 (fun hy => hnc ((compatible_iff h.wpos h.hpos h2.pos).2 hy))
    rw [this] at he; cases he
  unfold EnvMesh.mergeMesh at he
  have hstr : (m.strNodes && m.strDirs && m2.strNodes && m2.strDirs) = true := by
    rw [h.loaded.1, h.loaded.2, h2.mergeable.loaded.1, h2.mergeable.loaded.2]; rfl
  simp only [hc, bind, Except.bind, hstr, Bool.true_eq_false, if_false] at he
  split at he
  · cases he
  · rename_i m1 _
    split at he
    · cases he
    · split at he
      · cases he
      · split at he
        · cases he
        · split at he
          · cases he
          · simp only [pure, Except.pure, Except.ok.injEq, Prod.mk.injEq] at he
            obtain ⟨-, rfl⟩ := he
            obtain ⟨i1, i2, -⟩ := C40_isomorphism m2 h2.mergeable.keys (EnvMesh.maxId m1.cells + 1)
            refine ⟨i1, rfl, rfl, EnvMesh.maxId m1.cells + 1, Nat.succ_pos _, ?_⟩
            intro p c hp
            obtain ⟨c', e1, e2, e3, e4⟩ := i2 p c hp
            exact ⟨c', e1, e3, e4, e2⟩

/-! ## Examples -/

/-- Build, split, save and load a mesh. -/
def exBuild (b : Boundary) (W H : ℚ) (splits : List ℕ) : Py EnvMesh := do
  let m ← runSplits (MeshBuilder.init b W H (fun _ => ()) 3) splits
  let em ← MeshBuilder.toEnvMesh exAgg { region := b, cellWidth := W, cellHeight := H, splitDepth := some 3 } m
  EnvMesh.fromJson em.toJson

theorem exBuild_ok (b : Boundary) (W H : ℚ) (splits : List ℕ) (hp : ProperGrid b W H) (hcr : b.longMin < b.longMax) (hlat : b.latMin < b.latMax)
    (hreg : ¬ (b.longMin = -180 ∧ b.longMax = 180))
    (hok : (match runSplits (MeshBuilder.init b W H (fun _ => ()) 3) splits with | .ok _ => true | .error _ => false) = true) :
    ∃ m, exBuild b W H splits = .ok m ∧ MergeBase m ∧ MergeIn m ∧ m.bounds = b ∧ m.config.cellWidth = W ∧ m.config.cellHeight = H := by
  rcases hm : runSplits (MeshBuilder.init b W H (fun _ => ()) 3) splits with e | m
  · rw [hm] at hok; cases hok
  · have hr := runSplits_reach splits hm
    obtain ⟨em, he⟩ := toEnvMesh_total (agg := exAgg) { region := b, cellWidth := W, cellHeight := H, splitDepth := some 3 } (m := m) (fun i c _ => ⟨_, rfl⟩)
    obtain ⟨em', h1, h2, h3, h4, h5⟩ := C38_built unitOps b W H hp hcr hlat hreg (fun _ => ()) 3 m hr exAgg _ ⟨rfl, rfl, rfl⟩ em he
      (by intro i c d _ h; cases h; exact ⟨by simp, by simp⟩)
    refine ⟨em', ?_, h2, h3, h4, by rw [h5], by rw [h5]⟩
    unfold exBuild
    simp only [hm, he, bind, Except.bind, h1]

/-- The region of the second mesh of the examples. -/
def exSmall : Boundary := ⟨-60, -55, 10, 20, []⟩

theorem exSmall_proper : ProperGrid exSmall 5 5 := by
  refine ⟨by norm_num [Valid, exSmall], by norm_num [exSmall], by norm_num, by norm_num, ?_⟩
  intro h
  have : exSmall.width = 10 := by decide +kernel
  rw [this] at h; norm_num at h

/-- A mesh of four 10 by 5 cells (one split), and one of two 5 by 5 cells (one split) over one of
its cells. -/
theorem exMerge_hyps : ∃ m m2 : EnvMesh, exBuild exRegion 10 5 [2] = .ok m ∧ exBuild exSmall 5 5 [0] = .ok m2 ∧
    MergeBase m ∧ MergeIn m2 ∧
    (∃ a n c k : ℤ, m2.bounds.longMin = m.bounds.longMin + a * m.config.cellWidth ∧
        m2.bounds.longMax = m.bounds.longMin + n * m.config.cellWidth ∧ m2.bounds.latMin = m.bounds.latMin + c * m.config.cellHeight ∧
        m2.bounds.latMax = m.bounds.latMin + k * m.config.cellHeight) ∧
    (∀ c ∈ m2.cells, InSquare m.bounds.longMin m.bounds.latMin m.config.cellWidth m.config.cellHeight (rectOf c.bounds)) := by
  obtain ⟨m, h1, h2, -, h3, h4, h5⟩ := exBuild_ok exRegion 10 5 [2] exRegion_proper (by norm_num [exRegion]) (by norm_num [exRegion])
    (by norm_num [exRegion]) (by decide +kernel)
  obtain ⟨m2, k1, -, k2, k3, k4, k5⟩ := exBuild_ok exSmall 5 5 [0] exSmall_proper (by norm_num [exSmall]) (by norm_num [exSmall])
    (by norm_num [exSmall]) (by decide +kernel)
  refine ⟨m, m2, h1, k1, h2, k2, ⟨1, 2, 0, 1, ?_⟩, ?_⟩
  · rw [h3, h4, h5, k3]; norm_num [exRegion, exSmall]
  · intro c hc
    obtain ⟨i1, i2, i3, i4⟩ := inside_of_tiles k2.mergeable.ok k2.tiles k2.valid k2.pos hc
    refine ⟨1, 0, ?_⟩
    rw [h3, h4, h5]
    rw [k3] at i1 i2 i3 i4
    norm_num [exRegion, exSmall, rectOf] at i1 i2 i3 i4 ⊢
    exact ⟨i1, i2, i3, i4⟩

/-- The merged mesh of the example. -/
def exMerged : Py EnvMesh := do
  let m ← exBuild exRegion 10 5 [2]
  let m2 ← exBuild exSmall 5 5 [0]
  let r ← m.mergeMesh m2
  return r.1

/-- The second mesh after the merge of the example. -/
def exMergedIn : Py EnvMesh := do
  let m ← exBuild exRegion 10 5 [2]
  let m2 ← exBuild exSmall 5 5 [0]
  let r ← m.mergeMesh m2
  return r.2

example : (exMerged.map (fun m => m.cells.map (fun c => (c.id, rectOf c.bounds))) : Py (List (ℕ × Rect))) =
    .ok [(0, ⟨0, 10, -60, -55⟩), (3, ⟨10, 20, -55, -50⟩), (4, ⟨0, 5, -105/2, -50⟩), (5, ⟨5, 10, -105/2, -50⟩), (6, ⟨0, 5, -55, -105/2⟩),
      (7, ⟨5, 10, -55, -105/2⟩), (9, ⟨15, 20, -60, -55⟩), (10, ⟨10, 25/2, -115/2, -55⟩), (11, ⟨25/2, 15, -115/2, -55⟩),
      (12, ⟨10, 25/2, -60, -115/2⟩), (13, ⟨25/2, 15, -60, -115/2⟩)] := by decide +kernel

example : (exMerged.map (fun m => [0, 10].map (fun i => (m.graph.nodes.get? i).map (fun f => [f .west, f .east, f .north, f .south, f .northWest, f .northEast, f .southEast])))
    : Py (List (Option (List (List ℕ))))) =
    .ok [some [[], [10, 12], [6, 7], [], [], [3], []], some [[0], [11], [3], [12], [7], [], [13]]] := by decide +kernel

/-- **C39 is false**: after the merge of the example, the neighbour graph of the mesh that was merged
in lists cells that are not in it. -/
theorem C39_false : ∃ m2', exMergedIn = .ok m2' ∧ (∃ f, m2'.graph.nodes.get? 10 = some f ∧ 0 ∈ f .west) ∧ (∀ c ∈ m2'.cells, c.id ≠ 0) ∧ ¬ EnvOK m2' := by
  have key : (exMergedIn.map (fun m => ((m.graph.nodes.get? 10).map (fun f => f .west), m.cells.map (·.id))) : Py (Option (List ℕ) × List ℕ)) =
      .ok (some [0], [9, 10, 11, 12, 13]) := by decide +kernel
  rcases he : exMergedIn with e | m2'
  · rw [he] at key; cases key
  · rw [he] at key
    simp only [Except.map, Except.ok.injEq, Prod.mk.injEq] at key
    obtain ⟨k1, k2⟩ := key
    obtain ⟨f, hf, hw⟩ := Option.map_eq_some_iff.1 k1
    have hno : ∀ c ∈ m2'.cells, c.id ≠ 0 := by
      intro c hc h0
      have : c.id ∈ m2'.cells.map (·.id) := List.mem_map.2 ⟨c, hc, rfl⟩
      rw [k2, h0] at this
      simp at this
    refine ⟨m2', rfl, ⟨f, hf, by rw [hw]; simp⟩, hno, ?_⟩
    intro hok
    have : (10 : ℕ) ∈ m2'.cells.map (·.id) := by rw [k2]; simp
    obtain ⟨c, hc, hid⟩ := List.mem_map.1 this
    have hr := (envRect_iff hok.ids 10 _).2 ⟨c, hc, hid, rfl⟩
    obtain ⟨b, hb, -⟩ := (hok.graph.mem 10 f .west 0 _ hf hr).1 (by rw [hw]; simp)
    obtain ⟨c0, hc0, h0, -⟩ := (envRect_iff hok.ids 0 _).1 hb
    exact hno c0 hc0 h0

/-- A mesh of one 10 by 5 cell, merged into a mesh of 5 by 5 cells, then a mesh over half of that
cell. -/
def exCoarse : Py EnvMesh := do
  let m ← exBuild exRegion 5 5 []
  let m2 ← exBuild exSmall 10 5 []
  let m3 ← exBuild ⟨-60, -55, 10, 15, []⟩ 5 5 []
  m.mergeAll [m2, m3]

/-- **C38 is false without the lattice condition**: all checks pass and no exception is raised, but a
cell of an earlier merge that is larger than the lattice stays although half of it is covered by the
mesh merged later; the merged mesh has two cells over the same ground. -/
theorem C38_coarse_false : ∃ m, exCoarse = .ok m ∧ ¬ EnvOK m ∧ ∃ c ∈ m.cells, ∃ c' ∈ m.cells, c.id ≠ c'.id ∧
    rectOf c.bounds = ⟨10, 20, -60, -55⟩ ∧ rectOf c'.bounds = ⟨10, 15, -60, -55⟩ := by
  have key : (exCoarse.map (fun m => m.cells.map (fun c => (c.id, rectOf c.bounds))) : Py (List (ℕ × Rect))) =
      .ok [(0, ⟨0, 5, -60, -55⟩), (1, ⟨5, 10, -60, -55⟩), (4, ⟨0, 5, -55, -50⟩), (5, ⟨5, 10, -55, -50⟩), (6, ⟨10, 15, -55, -50⟩),
        (7, ⟨15, 20, -55, -50⟩), (8, ⟨10, 20, -60, -55⟩), (9, ⟨10, 15, -60, -55⟩)] := by decide +kernel
  rcases he : exCoarse with e | m
  · rw [he] at key; cases key
  · rw [he] at key
    simp only [Except.map, Except.ok.injEq] at key
    have get : ∀ i r, (i, r) ∈ m.cells.map (fun c => (c.id, rectOf c.bounds)) → ∃ c ∈ m.cells, c.id = i ∧ rectOf c.bounds = r := by
      intro i r h
      obtain ⟨c, hc, e⟩ := List.mem_map.1 h
      simp only [Prod.mk.injEq] at e
      exact ⟨c, hc, e⟩
    obtain ⟨c, hc, i1, r1⟩ := get 8 ⟨10, 20, -60, -55⟩ (by rw [key]; simp)
    obtain ⟨c', hc', i2, r2⟩ := get 9 ⟨10, 15, -60, -55⟩ (by rw [key]; simp)
    refine ⟨m, rfl, ?_, c, hc, c', hc', by omega, r1, r2⟩
    intro hok
    refine hok.graph.disjoint 8 9 _ _ (by decide) ((envRect_iff hok.ids _ _).2 ⟨c, hc, i1, r1⟩) ((envRect_iff hok.ids _ _).2 ⟨c', hc', i2, r2⟩) ?_
    norm_num [Rect.Overlap]

end Verif
