import Verif.Proof.Connected
import Verif.Props.Build
import Verif.Props.EnvMerge
import Verif.Props.CrossingGraph

/-!
# C112: the neighbour graph of a mesh is connected
-/

namespace Verif
open Spec

variable {D : Type}

/-- Away from the antimeridian a point is in a box if it is in its rectangle. -/
theorem hcovers_rect (b : Boundary) (h1 : b.longMin < b.longMax) (h2 : -180 ≤ b.longMin) (h3 : b.longMax ≤ 180) {x y : ℚ}
    (x1 : -180 < x) (x2 : x ≤ 180) : HCovers b x y ↔ (rectOf b).HMem x y := by
  unfold HCovers eastEdge
  rw [if_pos h1]
  constructor
  · rintro ⟨⟨n, n1, n2⟩, n3, n4⟩
    have h0 : n = 0 := by
      have a1 : (-1 : ℚ) < n := by linarith
      have a2 : (n : ℚ) < 1 := by linarith
      have a1 : (-1 : ℤ) < n := by exact_mod_cast a1
      have a2 : n < (1 : ℤ) := by exact_mod_cast a2
      omega
    subst h0
    simp only [Int.cast_zero, mul_zero, add_zero] at n1 n2
    exact ⟨n1, n2, n3, n4⟩
  · rintro ⟨n1, n2, n3, n4⟩
    have n1 : b.longMin < x := n1
    have n2 : x ≤ b.longMax := n2
    exact ⟨⟨0, by simpa using n1, by simpa using n2⟩, n3, n4⟩

/-- A point of the rectangle of an admissible cell lies away from the antimeridian. -/
theorem cellOK_domain {glob : Bool} {r : Rect} (h : CellOK glob r) {x y : ℚ} (hm : r.HMem x y) : -180 < x ∧ x ≤ 180 :=
  ⟨lt_of_le_of_lt h.2.1 hm.1, hm.2.1.trans h.2.2.1⟩

/-- **C112** While a mesh of a region that does not cross the antimeridian is grown, one always comes from every cell to every other cell over
cells listed as neighbours to the north, east, south or west. -/
theorem C112_grown (ops : DataOps D) (b : Boundary) (W H : ℚ) (hp : ProperGrid b W H) (hcr : b.longMin < b.longMax)
    (hcol : b.longMin = -180 ∧ b.longMax = 180 → W ≤ 180) (initData : Boundary → D) (depth : ℕ) (m : MeshState D)
    (h : Reach ops b W H initData depth m) (i j : ℕ) (c c' : CellBox D) (hi : Live m i c) (hj : Live m j c') : Linked (nbrs m) i j := by
  obtain ⟨hc, -, hg⟩ := reach_graph hp hcr (fun hg => hcol (by simpa [globalRegion] using hg)) h
  have hrect : ∀ i r, liveRect m i = some r ↔ ∃ c, Live m i c ∧ rectOf c.bounds = r := by
    intro i r
    unfold liveRect Live
    constructor
    · intro h
      split at h
      · rename_i c hc
        exact ⟨c, hc, Option.some.inj h⟩
      · cases h
    · rintro ⟨c, hc, rfl⟩
      rw [hc]
  have hb2 : -180 ≤ b.longMin := hp.valid.2.1
  have hb3 : b.longMax ≤ 180 := hp.valid.2.2.2.2.1
  refine linked_of_exact hg (N := m.cells.length) ?_ (rectOf b) ?_ ?_ ((hrect i _).2 ⟨c, hi, rfl⟩) ((hrect j _).2 ⟨c', hj, rfl⟩)
  · intro i r h
    obtain ⟨c, hl, -⟩ := (hrect i r).1 h
    exact live_lt hl
  · intro x y hxy
    have x1 : -180 < x := lt_of_le_of_lt hb2 hxy.1
    have x2 : x ≤ 180 := hxy.2.1.trans hb3
    obtain ⟨i, c, hl, hcv⟩ := (hc.cover x y).1 ((hcovers_rect b hcr hb2 hb3 x1 x2).2 hxy)
    have hr := (hrect i _).2 ⟨c, hl, rfl⟩
    obtain ⟨⟨p1, -⟩, p2, p3, -⟩ := hg.ok i _ hr
    exact ⟨i, _, hr, (hcovers_rect c.bounds p1 p2 p3 x1 x2).1 hcv⟩
  · intro i r x y h hm
    obtain ⟨x1, x2⟩ := cellOK_domain (hg.ok i r h) hm
    obtain ⟨c, hl, rfl⟩ := (hrect i r).1 h
    obtain ⟨⟨p1, -⟩, p2, p3, -⟩ := hg.ok i _ h
    exact (hcovers_rect b hcr hb2 hb3 x1 x2).1 ((hc.cover x y).2 ⟨i, c, hl, (hcovers_rect c.bounds p1 p2 p3 x1 x2).2 hm⟩)

example : ∃ m, exMesh = .ok m ∧ ProperGrid exRegion 10 5 ∧ Reach unitOps exRegion 10 5 (fun _ => ()) 3 m ∧
    (∃ c c', Live m 3 c ∧ Live m 11 c') ∧ Linked (nbrs m) 3 11 := by
  obtain ⟨m, h1, h2⟩ := exMesh_ok
  have key : (exMesh.map (fun m => (m.cells[3]?.join.isSome, m.cells[11]?.join.isSome)) : Py (Bool × Bool)) = .ok (true, true) := by
    decide +kernel
  rw [h1] at key
  simp only [Except.map, Except.ok.injEq, Prod.mk.injEq, Option.isSome_iff_exists] at key
  obtain ⟨⟨c, hc⟩, c', hc'⟩ := key
  have hc := Option.join_eq_some_iff.1 hc
  have hc' := Option.join_eq_some_iff.1 hc'
  exact ⟨m, h1, exRegion_proper, h2, ⟨c, c', hc, hc'⟩,
    C112_grown unitOps exRegion 10 5 exRegion_proper (by norm_num [exRegion]) (by norm_num [exRegion]) _ 3 m h2 3 11 c c' hc hc'⟩

example : ∃ m, exGlobe = .ok m ∧ ProperGrid exBand 90 5 ∧ Reach unitOps exBand 90 5 (fun _ => ()) 3 m :=
  let ⟨m, h1, h2⟩ := exGlobe_ok
  ⟨m, h1, exBand_proper, h2⟩

/-- The same for an aggregated mesh, regional or global. -/
theorem linked_env {glob : Bool} (m : EnvMesh) (b : Boundary) (hids : (m.cells.map (·.id)).Nodup)
    (hg : Exact glob (envRect m) (fun i => m.graph.nodes.get? i)) (ht : EnvTiles m b) (hcr : b.longMin < b.longMax) (hb2 : -180 ≤ b.longMin)
    (hb3 : b.longMax ≤ 180) : ∀ c ∈ m.cells, ∀ c' ∈ m.cells, Linked (fun i => m.graph.nodes.get? i) c.id c'.id := by
  intro c hc c' hc'
  have hrect := envRect_iff hids
  have hN : ∃ N, ∀ c ∈ m.cells, c.id < N := by
    generalize m.cells = l
    induction l with
    | nil => exact ⟨0, by simp⟩
    | cons a l ih =>
      obtain ⟨N, h⟩ := ih
      refine ⟨max N (a.id + 1), fun c hc => ?_⟩
      rcases List.mem_cons.1 hc with rfl | hc
      · omega
      · have := h c hc
        omega
  obtain ⟨N, hN⟩ := hN
  have hcov : ∀ x y, HCovers b x y ↔ ∃ c ∈ m.cells, HCovers c.bounds x y := by
    intro x y
    rw [ht.1 x y]
    simp
  refine linked_of_exact hg (N := N) ?_ (rectOf b) ?_ ?_ ((hrect _ _).2 ⟨c, hc, rfl, rfl⟩) ((hrect _ _).2 ⟨c', hc', rfl, rfl⟩)
  · intro i r h
    obtain ⟨c, hl, rfl, -⟩ := (hrect i r).1 h
    exact hN c hl
  · intro x y hxy
    have x1 : -180 < x := lt_of_le_of_lt hb2 hxy.1
    have x2 : x ≤ 180 := hxy.2.1.trans hb3
    obtain ⟨c, hl, hcv⟩ := (hcov x y).1 ((hcovers_rect b hcr hb2 hb3 x1 x2).2 hxy)
    have hr := (hrect c.id _).2 ⟨c, hl, rfl, rfl⟩
    obtain ⟨⟨p1, -⟩, p2, p3, -⟩ := hg.ok _ _ hr
    exact ⟨_, _, hr, (hcovers_rect c.bounds p1 p2 p3 x1 x2).1 hcv⟩
  · intro i r x y h hm
    obtain ⟨x1, x2⟩ := cellOK_domain (hg.ok i r h) hm
    obtain ⟨c, hl, rfl, rfl⟩ := (hrect i r).1 h
    obtain ⟨⟨p1, -⟩, p2, p3, -⟩ := hg.ok _ _ h
    exact (hcovers_rect b hcr hb2 hb3 x1 x2).1 ((hcov x y).2 ⟨c, hl, (hcovers_rect c.bounds p1 p2 p3 x1 x2).2 hm⟩)

/-- **C112** The mesh that a build of an accepted region ends with is connected, whatever the sources decide. -/
theorem C112_built (ops : DataOps D) (agg : CellBox D → Py (Dict String Val)) (config : MeshConfig) (b : Boundary) (W H : ℚ)
    (hp : ProperGrid b W H) (hcr : b.longMin < b.longMax) (hh : b.latMin < b.latMax) (hcol : b.longMin = -180 ∧ b.longMax = 180 → W ≤ 180)
    (hacc : MeshBuilder.validateBounds b W H = .ok ()) (initData : Boundary → D) (depth : ℕ) :
    ∃ m0, MeshBuilder.init b W H initData depth = .ok m0 ∧ ∃ N, ∀ fuel, N ≤ fuel → ∀ em,
      MeshBuilder.buildEnvironmentalMesh ops agg fuel config m0 = .ok em →
      em.cells ≠ [] ∧ ∀ c ∈ em.cells, ∀ c' ∈ em.cells, Linked (fun i => em.graph.nodes.get? i) c.id c'.id := by
  obtain ⟨m0, h0, N, hN⟩ := C52_build_partial ops agg config b W H hp hcr hh hcol hacc initData depth
  refine ⟨m0, h0, N, fun fuel hf em he => ?_⟩
  rcases hN fuel hf with ⟨em', m, h1, hok, -⟩ | ⟨e, h1, -⟩
  · rw [he] at h1
    cases h1
    refine ⟨?_, linked_env em b hok.ids hok.graph hok.tiles hcr hp.valid.2.1 hp.valid.2.2.2.2.1⟩
    intro hnil
    have hin : HCovers b b.longMax b.latMax := (hcovers_rect b hcr hp.valid.2.1 hp.valid.2.2.2.2.1
      (lt_of_le_of_lt hp.valid.2.1 hcr) hp.valid.2.2.2.2.1).2 ⟨hcr, le_refl _, hh, le_refl _⟩
    obtain ⟨c, hc, -⟩ := (hok.tiles.1 _ _).1 hin
    rw [hnil] at hc
    simp at hc
  · rw [he] at h1
    cases h1

example : ProperGrid exRegion 10 5 ∧ exRegion.longMin < exRegion.longMax ∧ exRegion.latMin < exRegion.latMax ∧
    MeshBuilder.validateBounds exRegion 10 5 = .ok () ∧
    (exBuilt.map (fun m => m.cells.map (fun c => c.id)) : Py (List ℕ)) = .ok [1, 3, 4, 5, 6, 7, 8, 9, 10, 11] :=
  ⟨exRegion_proper, by decide +kernel, by decide +kernel, by decide +kernel, by decide +kernel⟩

/-- **C112** A consistent mesh that was read from a file stays connected when any of its cells are split in any order. -/
theorem C112_splits (m : EnvMesh) (h : EnvOK m) (hl : Loaded m) (b : Boundary) (ht : EnvTiles m b) (hb : Valid b) (hcr : b.longMin < b.longMax)
    (m' : EnvMesh) (hs : EnvSplits m m') : ∀ c ∈ m'.cells, ∀ c' ∈ m'.cells, Linked (fun i => m'.graph.nodes.get? i) c.id c'.id := by
  obtain ⟨h1, -, h3, -⟩ := C37_sequences m h hl b ht m' hs
  exact linked_env m' b h1.ids h1.graph h3 hcr hb.2.1 hb.2.2.2.2.1

example : ∃ m : EnvMesh, exLoaded = .ok m ∧ EnvOK m ∧ Loaded m ∧ EnvTiles m exRegion ∧ Valid exRegion ∧ exRegion.longMin < exRegion.longMax :=
  let ⟨m, h1, h2, h3, h4, _⟩ := exLoaded_ok
  ⟨m, h1, h2, h3, h4, exRegion_proper.valid, by norm_num [exRegion]⟩

/-- **C112** So it does when other meshes, laid out on its grid and lying in its region, are merged into it. -/
theorem C112_merged (ms : List EnvMesh) (m : EnvMesh) (h : MergeBase m) (b : Boundary) (ht : EnvTiles m b) (hb : Valid b)
    (hpos : (rectOf b).Pos)
    (hms : ∀ m2 ∈ ms, MergeIn m2 ∧ (∃ a n c k : ℤ, m2.bounds.longMin = m.bounds.longMin + a * m.config.cellWidth ∧
        m2.bounds.longMax = m.bounds.longMin + n * m.config.cellWidth ∧ m2.bounds.latMin = m.bounds.latMin + c * m.config.cellHeight ∧
        m2.bounds.latMax = m.bounds.latMin + k * m.config.cellHeight) ∧
      ∀ c ∈ m2.cells, InSquare m.bounds.longMin m.bounds.latMin m.config.cellWidth m.config.cellHeight (rectOf c.bounds))
    (hin : ∀ m2 ∈ ms, Inside (rectOf b) (rectOf m2.bounds)) :
    ∃ m', EnvMesh.mergeAll m ms = .ok m' ∧ ∀ c ∈ m'.cells, ∀ c' ∈ m'.cells, Linked (fun i => m'.graph.nodes.get? i) c.id c'.id := by
  obtain ⟨m', e1, e2, -, e4⟩ := C38_sequences ms m h hms
  exact ⟨m', e1, linked_env m' b e2.ok.ids e2.ok.graph (e4 b hpos hin ht) hpos.1 hb.2.1 hb.2.2.2.2.1⟩

example : ∃ m m2 : EnvMesh, exBuild exRegion 10 5 [2] = .ok m ∧ exBuild exSmall 5 5 [0] = .ok m2 ∧ MergeBase m ∧ MergeIn m2 ∧
    EnvTiles m exRegion ∧ Valid exRegion ∧ (rectOf exRegion).Pos ∧ Inside (rectOf exRegion) (rectOf m2.bounds) := by
  obtain ⟨m, h1, -, h2, h3, -⟩ := exBuild_ok exRegion 10 5 [2] exRegion_proper (by norm_num [exRegion]) (by norm_num [exRegion])
    (by norm_num [exRegion]) (by decide +kernel)
  obtain ⟨m', m2, k1, k2, k3, k4, -, -⟩ := exMerge_hyps
  rw [k1] at h1
  cases h1
  obtain ⟨m2', j1, -, j2, j3, -⟩ := exBuild_ok exSmall 5 5 [0] exSmall_proper (by norm_num [exSmall]) (by norm_num [exSmall])
    (by norm_num [exSmall]) (by decide +kernel)
  rw [k2] at j1
  cases j1
  refine ⟨m, m2, k1, k2, k3, k4, ?_, exRegion_proper.valid, ?_, ?_⟩
  · rw [← h3]; exact h2.tiles
  · norm_num [Rect.Pos, rectOf, exRegion]
  · rw [j3]; norm_num [Inside, rectOf, exRegion, exSmall]

/-- **C112** In a region over the antimeridian still every part is connected: one comes from every cell that starts west of the antimeridian or
on it to every other such cell, and likewise within the columns that start east of it. -/
theorem C112_parts (ops : DataOps D) (b : Boundary) (W H : ℚ) (hp : ProperGrid b W H) (hcr : b.longMax ≤ b.longMin)
    (hwidth : b.width < 360) (hstart : b.longMin < 180) (initData : Boundary → D) (depth : ℕ) (m : MeshState D)
    (h : Reach ops b W H initData depth m) (i j : ℕ) (c c' : CellBox D) (hi : Live m i c) (hj : Live m j c')
    (hpart : SamePart b W c.bounds.longMin c'.bounds.longMin) : Linked (nbrs m) i j := by
  have hflag : ¬ (b.longMax = 180 ∧ (b.longMin = -180 ∨ b.longMin = 180)) := by
    rintro ⟨h1, h2 | h2⟩ <;> linarith
  obtain ⟨hm, U, hU⟩ := reach_seam hp hflag (fun h => absurd h hwidth.ne) h
  have hS := hU.sound
  obtain ⟨-, b1, b2, -⟩ := hp.valid
  have hwe := Boundary.width_eq b
  have hW := hp.wpos
  -- where an unrolled cell starts
  have side : ∀ i c r, Live m i c → U i = some r → (r.w ≤ 180 ∧ c.bounds.longMin = r.w) ∨ (180 < r.w ∧ c.bounds.longMin = r.w - 360) := by
    intro i c r hl hr
    have hs := hU.sheet i c r hl hr
    obtain ⟨w1, w2, -⟩ := hU.within i r hr
    obtain ⟨p1, -⟩ := hS.pos i r hr
    rcases le_or_gt r.w 180 with h | h
    · exact Or.inl ⟨h, by rw [hs]; exact (C01_longitude_domain _).2.2.1 (by linarith) h⟩
    · exact Or.inr ⟨h, by rw [hs]; exact domain_past h (by linarith)⟩
  -- latitudes
  have lats : ∀ i r, U i = some r → b.latMin ≤ r.s ∧ r.n ≤ b.latMax := by
    intro i r hr
    obtain ⟨c, hl⟩ := hU.dead i r hr
    obtain ⟨t, ht⟩ := hU.live i c hl
    rw [hr] at ht
    have hr' := Option.some.inj ht
    obtain ⟨p1, p2⟩ := hS.pos i r hr
    have e1 : r.s = c.bounds.latMin := by rw [hr']; rfl
    have e2 : r.n = c.bounds.latMax := by rw [hr']; rfl
    have e3 : c.bounds.longMin < eastEdge c.bounds := by
      have : (arcOf c.bounds).w < (arcOf c.bounds).e := by
        rw [hr'] at p1
        simpa [Rect.shift] using p1
      exact this
    rw [e1, e2] at p2
    have hin : ∀ y, c.bounds.latMin < y → y ≤ c.bounds.latMax → b.latMin < y ∧ y ≤ b.latMax := by
      intro y y1 y2
      have := (hm.cover (eastEdge c.bounds) y).2 ⟨i, c, hl, ⟨0, by simpa using e3, by simp⟩, y1, y2⟩
      exact this.2
    rw [e1, e2]
    refine ⟨?_, (hin _ p2 (le_refl _)).2⟩
    by_contra hlt
    have hlt := not_le.1 hlt
    have := (hin (min b.latMin c.bounds.latMax) (lt_min hlt p2) (min_le_right _ _)).1
    exact absurd (min_le_left b.latMin c.bounds.latMax) (not_le.2 this)
  -- every point of the region is in an unrolled cell
  have cover : ∀ x y, b.longMin < x → x ≤ eastEdge b → b.latMin < y → y ≤ b.latMax → ∃ i r, U i = some r ∧ r.HMem x y := by
    intro x y x1 x2 y1 y2
    obtain ⟨i, c, hl, ⟨n, n1, n2⟩, n3, n4⟩ := (hm.cover x y).1 ⟨⟨0, by simpa using x1, by simpa using x2⟩, y1, y2⟩
    obtain ⟨t, ht⟩ := hU.live i c hl
    obtain ⟨w1, w2, -⟩ := hU.within i _ ht
    simp only [Rect.shift, arcOf] at w1 w2
    have k1 : (-1 : ℚ) < n + t := by linarith
    have k2 : (n : ℚ) + t < 1 := by linarith
    have k1 : (-1 : ℤ) < n + t := by exact_mod_cast k1
    have k2 : n + t < (1 : ℤ) := by exact_mod_cast k2
    have k3 : n = -t := by omega
    subst k3
    push_cast at n1 n2
    refine ⟨i, _, ht, ?_⟩
    simp only [Rect.HMem, Rect.shift, arcOf]
    exact ⟨by linarith, by linarith, n3, n4⟩
  -- a part
  have main : ∀ (G : Rect → Prop) (w0 X : ℚ), w0 < X → b.longMin ≤ w0 → X ≤ eastEdge b → (∀ i r, U i = some r → G r → w0 ≤ r.w ∧ r.w ≤ X) →
      (∀ i r x, U i = some r → w0 < x → x ≤ X → r.w < x → x ≤ r.e → G r) → Lists G U m.graph.look →
      ∀ i j a a', U i = some a → U j = some a' → G a → G a' → Linked (nbrs m) i j := by
    intro G w0 X hX h0 hXe hG hG' hlist i j a a' hi hj ha ha'
    classical
    let cell : ℕ → Option Rect := fun i => (U i).filter (fun r => decide (G r))
    have hcell : ∀ i r, cell i = some r ↔ U i = some r ∧ G r := by
      intro i r
      simp only [cell, Option.filter_eq_some_iff, decide_eq_true_eq]
    have htie : ∀ d, (d = .west ∨ d = .south) → ∀ i j a a', cell i = some a → cell j = some a' → Touches d a a' → Tied (nbrs m) i j := by
      intro d hd i j a a' hi hj ht
      obtain ⟨hi, ga⟩ := (hcell _ _).1 hi
      obtain ⟨hj, ga'⟩ := (hcell _ _).1 hj
      obtain ⟨f, hf⟩ := Option.isSome_iff_exists.1 ((hS.keys i).2 (by rw [hi]; rfl))
      have hm1 := hlist i j a a' d f hi hj ga ga' ht hf
      obtain ⟨f', hf', hm2⟩ := hS.symm i f d j hf hm1
      refine ⟨.single ⟨f, d, hf, ?_, hm1⟩, .single ⟨f', d.opp, hf', ?_, hm2⟩⟩
      · rcases hd with rfl | rfl <;> simp
      · rcases hd with rfl | rfl <;> simp [Dir.opp]
    refine (tied_of_cover (cell := cell) (nbrs := nbrs m) (N := m.cells.length) ?_ hX (s0 := b.latMin) (n0 := b.latMax) ?_ ?_ ?_ ?_
      (htie .west (Or.inl rfl)) (htie .south (Or.inr rfl)) ((hcell i a).2 ⟨hi, ha⟩) ((hcell j a').2 ⟨hj, ha'⟩)).1
    · intro i r h
      obtain ⟨c, hl⟩ := hU.dead i r ((hcell i r).1 h).1
      exact live_lt hl
    · intro i r h
      exact hS.pos i r ((hcell i r).1 h).1
    · intro i j a b' hne h h'
      exact hS.disjoint i j a b' hne ((hcell _ _).1 h).1 ((hcell _ _).1 h').1
    · intro i r h
      obtain ⟨h1, h2⟩ := (hcell i r).1 h
      exact ⟨(hG i r h1 h2).1, (hG i r h1 h2).2, lats i r h1⟩
    · intro x y x1 x2 y1 y2
      obtain ⟨i, r, hr, r1, r2, r3, r4⟩ := cover x y (by linarith) (by linarith) y1 y2
      exact ⟨i, r, (hcell i r).2 ⟨hr, hG' i r x hr x1 x2 r1 r2⟩, r1, r2, r3, r4⟩
  obtain ⟨t, ht⟩ := hU.live i c hi
  obtain ⟨t', ht'⟩ := hU.live j c' hj
  have o1 := side i c _ hi ht
  have o2 := side j c' _ hj ht'
  set r := (arcOf c.bounds).shift (360 * (t : ℚ)) with hr
  set r' := (arcOf c'.bounds).shift (360 * (t' : ℚ)) with hr'
  obtain ⟨p1, p2, -⟩ := hU.within i r ht
  obtain ⟨p1', p2', -⟩ := hU.within j r' ht'
  obtain ⟨q1, -⟩ := hS.pos i r ht
  obtain ⟨q1', -⟩ := hS.pos j r' ht'
  have he : 180 ≤ eastEdge b := by
    unfold eastEdge
    rw [if_neg (not_lt.2 hcr)]
    linarith [hp.valid.2.2.2.1]
  rcases hpart with ⟨a1, a2⟩ | ⟨n, a0, a1, a2, a3, a4⟩
  · have w1 : r.w ≤ 180 := by
      rcases o1 with h | ⟨h1, h2⟩
      · exact h.1
      · linarith
    have w2 : r'.w ≤ 180 := by
      rcases o2 with h | ⟨h1, h2⟩
      · exact h.1
      · linarith
    refine main (fun r => r.w ≤ 180) b.longMin 180 hstart (le_refl _) he ?_ ?_ hU.west i j r r' ht ht' w1 w2
    · intro i r hr h
      exact ⟨(hU.within i r hr).1, h⟩
    · intro i r x hr x1 x2 x3 x4
      show r.w ≤ 180
      linarith
  · have w1 : b.longMin + n * W ≤ r.w := by
      rcases o1 with ⟨h1, h2⟩ | h
      · linarith
      · linarith [h.2]
    have w2 : b.longMin + n * W ≤ r'.w := by
      rcases o2 with ⟨h1, h2⟩ | h
      · linarith
      · linarith [h.2]
    refine main (fun r => b.longMin + n * W ≤ r.w) (b.longMin + n * W) (eastEdge b) (by linarith) (by linarith) (le_refl _) ?_ ?_ ?_ i j r r' ht ht' w1 w2
    · intro i r hr h
      have := hU.within i r hr
      have := (hS.pos i r hr).1
      exact ⟨h, by linarith⟩
    · intro i r x hr x1 x2 x3 x4
      obtain ⟨k, k1, k2⟩ := hU.cols i r hr
      have h1 : (n : ℚ) * W < (k + 1) * W := by linarith
      have h2 : (n : ℚ) < k + 1 := lt_of_mul_lt_mul_right h1 hW.le
      have h3 : n ≤ k := by
        have : n < k + 1 := by exact_mod_cast h2
        omega
      have h4 : (n : ℚ) * W ≤ k * W := mul_le_mul_of_nonneg_right (by exact_mod_cast h3) hW.le
      show b.longMin + n * W ≤ r.w
      linarith
    · intro i j a a' d f hi hj ga ga' ht hf
      exact hU.east i j a a' d f hi hj ⟨n, a0, ga⟩ ⟨n, a0, ga'⟩ ht hf

example : (∃ m, exCrossParts = .ok m ∧ Reach unitOps exCross 10 5 (fun _ => ()) 3 m) ∧ ProperGrid exCross 10 5 ∧ exCross.width < 360 ∧
    exCross.longMax ≤ exCross.longMin ∧ exCross.longMin < 180 ∧ SamePart exCross 10 180 175 ∧ SamePart exCross 10 (-170) (-165) := by
  have hok : (match exCrossParts with | .ok _ => true | .error _ => false) = true := by decide +kernel
  refine ⟨?_, exCross_proper, by decide +kernel, by norm_num [exCross], by norm_num [exCross], Or.inl (by norm_num [exCross]),
    Or.inr ⟨2, by norm_num [exCross]⟩⟩
  rcases h : exCrossParts with e | m
  · rw [h] at hok; cases hok
  · exact ⟨m, rfl, runSplits_reach [0, 2, 5] h⟩

/-- **C112** Where a region crosses the antimeridian the claim is false: three cells in a row, of which the eastern one was split, fall into two
parts without any link, not even over corners. -/
theorem C112_crossing_false : ∃ (b : Boundary) (W H : ℚ) (m : MeshState Unit) (f0 f1 : NMap), ProperGrid b W H ∧ b.longMax ≤ b.longMin ∧
    Reach unitOps b W H (fun _ => ()) 3 m ∧ nbrs m 0 = some f0 ∧ nbrs m 1 = some f1 ∧
    (∃ c c', Live m 1 c ∧ Live m 3 c' ∧ CylAdj .east c.bounds c'.bounds) ∧
    (∀ d, ∀ j ∈ f0 d, j = 0 ∨ j = 1) ∧ (∀ d, ∀ j ∈ f1 d, j = 0 ∨ j = 1) ∧ ¬ Linked (nbrs m) 1 3 := by
  let b : Boundary := ⟨-60, -50, 170, -160, []⟩
  have hp : ProperGrid b 10 10 := by
    refine ⟨by norm_num [Valid, b], by norm_num [b], by norm_num, by norm_num, ?_⟩
    intro h
    have : b.width = 30 := by decide +kernel
    rw [this] at h; norm_num at h
  have hok : (match runSplits (MeshBuilder.init b 10 10 (fun _ => ()) 3) [2] with | .ok _ => true | .error _ => false) = true := by
    decide +kernel
  rcases h : runSplits (MeshBuilder.init b 10 10 (fun _ => ()) 3) [2] with e | m
  · rw [h] at hok; cases hok
  have b1 : ((runSplits (MeshBuilder.init b 10 10 (fun _ => ()) 3) [2]).map
      (fun m => (m.cells[1]?.join.map (fun c => c.bounds), m.cells[3]?.join.map (fun c => c.bounds))) : Py (Option Boundary × Option Boundary)) =
      .ok (some ⟨-60, -50, 180, -170, []⟩, some ⟨-55, -50, -170, -165, []⟩) := by decide +kernel
  have n0 : Dir.all.map (fun d => listOf (runSplits (MeshBuilder.init b 10 10 (fun _ => ()) 3) [2]) 0 d) =
      [some [], some [1], some [], some [], some [], some [], some [], some []] := by decide +kernel
  have n1 : Dir.all.map (fun d => listOf (runSplits (MeshBuilder.init b 10 10 (fun _ => ()) 3) [2]) 1 d) =
      [some [], some [], some [], some [], some [], some [0], some [], some []] := by decide +kernel
  rw [h] at b1 n0 n1
  simp only [Except.map, Except.ok.injEq, Prod.mk.injEq] at b1
  obtain ⟨h1, h3⟩ := b1
  obtain ⟨c, hc, hcb⟩ := Option.map_eq_some_iff.1 h1
  obtain ⟨c', hc', hcb'⟩ := Option.map_eq_some_iff.1 h3
  have only : ∀ i (L : List (List ℕ)), Dir.all.map (fun d => listOf (.ok m) i d) = L.map some → (∀ l ∈ L, ∀ j ∈ l, j = 0 ∨ j = 1) →
      ∃ f, nbrs m i = some f ∧ ∀ d, ∀ j ∈ f d, j = 0 ∨ j = 1 := by
    intro i L hL hj
    rcases hf : nbrs m i with _ | f
    · rcases L with _ | ⟨l, L⟩
      · simp [Dir.all] at hL
      · simp [Dir.all, listOf, hf] at hL
    · refine ⟨f, rfl, fun d j hm => ?_⟩
      have hd : d ∈ Dir.all := by cases d <;> decide
      have h1 : some (f d) ∈ L.map some := by
        rw [← hL]
        exact List.mem_map.2 ⟨d, hd, by simp [listOf, hf]⟩
      obtain ⟨l, hl, hl'⟩ := List.mem_map.1 h1
      cases hl'
      exact hj _ hl j hm
  obtain ⟨f0, e0, a0⟩ := only 0 [[], [1], [], [], [], [], [], []] n0 (by decide)
  obtain ⟨f1, e1, a1⟩ := only 1 [[], [], [], [], [], [0], [], []] n1 (by decide)
  refine ⟨b, 10, 10, m, f0, f1, hp, by decide +kernel, runSplits_reach [2] h, e0, e1,
    ⟨c, c', Option.join_eq_some_iff.1 hc, Option.join_eq_some_iff.1 hc', ?_⟩, a0, a1, ?_⟩
  · rw [hcb, hcb']
    refine ⟨1, ?_⟩
    constructor
    · show eastEdge ⟨-60, -50, 180, -170, []⟩ = (-170 : ℚ) + 360 * ((1 : ℤ) : ℚ)
      norm_num [eastEdge]
    · constructor
      · show (-55 : ℚ) < -50; norm_num
      · show (-60 : ℚ) < -50; norm_num
  · intro hl
    have inv : ∀ k, Linked (nbrs m) 1 k → k = 0 ∨ k = 1 := by
      intro k hk
      induction hk with
      | refl => exact Or.inr rfl
      | tail _ hb ih =>
        obtain ⟨f, d, hf, -, hm⟩ := hb
        rcases ih with rfl | rfl
        · rw [e0] at hf; cases hf; exact a0 _ _ hm
        · rw [e1] at hf; cases hf; exact a1 _ _ hm
    rcases inv 3 hl with h | h <;> omega

end Verif
