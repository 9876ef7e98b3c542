import Verif.Props.CrossingGraph
import Verif.Proof.SplitLoop

/-!
# C21, C22: depth-limited splitting
-/

namespace Verif
open Spec

variable {D : Type}

/-- C21, depth: in any freshly built mesh, with any data and any split decisions, depth-limited splitting
never produces a cell deeper than the limit. -/
theorem C21_depth_bound (ops : DataOps D) (b : Boundary) (W H : ℚ) (initData : Boundary → D)
    (depth sd fuel : ℕ) (m0 m : MeshState D) (h0 : MeshBuilder.init b W H initData depth = .ok m0)
    (h : MeshBuilder.splitToDepth ops fuel sd m0 = .ok m) : ∀ i c, Live m i c → c.depth ≤ sd := by
  obtain ⟨boxes, g, glob, -, -, -, rfl⟩ := init_inv h0
  refine (splitToDepth_sound ?_ h).2
  intro j c hl
  obtain ⟨cb, -, rfl⟩ := live_init.1 hl
  exact Nat.zero_le _

/-- C21, sizes (proper grids): a cell at depth `k` has exactly `1 / 2 ^ k` of the initial width and
height. -/
theorem C21_sizes_partial (ops : DataOps D) (b : Boundary) (W H : ℚ) (hp : ProperGrid b W H) (initData : Boundary → D)
    (depth sd fuel : ℕ) (m0 m : MeshState D) (h0 : MeshBuilder.init b W H initData depth = .ok m0)
    (h : MeshBuilder.splitToDepth ops fuel sd m0 = .ok m) :
    ∀ i c, Live m i c → c.depth ≤ sd ∧ c.bounds.width = W / 2 ^ c.depth ∧ c.bounds.height = H / 2 ^ c.depth := by
  obtain ⟨_, _, _, hval, _⟩ := init_inv h0
  obtain ⟨nx, ny, -, hnx, hny⟩ := hp.fits hval
  obtain ⟨hc0, -, hz⟩ := CellsOK.init hp.valid hp.nondeg hp.wpos hp.hpos hnx hny h0
  obtain ⟨h1, h2⟩ := splitToDepth_sound (fun j c hl => by rw [(hz j c hl).1]; omega) h
  intro i c hl
  have hs := (hc0.splits h1).size i c hl
  have hne : (2 : ℚ) ^ c.depth ≠ 0 := by positivity
  refine ⟨h2 i c hl, ?_, ?_⟩
  · rw [← hs.1]; field_simp
  · rw [← hs.2]; field_simp

theorem foldlM_mem {α β : Type} {f : α → Py β} {P : β → Prop} : ∀ (l : List α) (acc r : List β), (∀ x ∈ l, ∀ y, f x = .ok y → P y) →
    (∀ y ∈ acc, P y) → l.foldlM (fun acc x => do let y ← f x; return acc ++ [y]) acc = (.ok r : Py (List β)) → ∀ y ∈ r, P y := by
  intro l
  induction l with
  | nil => intro acc r _ hacc h; cases h; exact hacc
  | cons a l ih =>
    intro acc r hf hacc h
    rw [List.foldlM_cons] at h
    simp only [bind, Except.bind, pure, Except.pure] at h
    rcases hx : f a with e | y
    · rw [hx] at h; cases h
    · rw [hx] at h
      refine ih (acc ++ [y]) r (fun x hx => hf x (by simp [hx])) ?_ h
      intro z hz
      rcases List.mem_append.1 hz with h' | h'
      · exact hacc z h'
      · rw [List.mem_singleton] at h'; subst h'; exact hf a (by simp) _ hx

/-- Every initial cell of every accepted region, also where the grid does not fit the region. -/
theorem initial_sizes {b : Boundary} {W H : ℚ} (hv : Valid b) (hW1 : W ≤ 360) {boxes : List Boundary}
    (h : MeshBuilder.initializeCells b W H = .ok boxes) : ∀ q ∈ boxes, Valid q ∧ q.width = W ∧ q.height = H ∧ 0 < W := by
  have hcell : ∀ lat, ∀ long ∈ MeshBuilder.longStarts b W, ∀ q, MeshBuilder.initialCell b.time W H lat long = .ok q →
      Valid q ∧ q.width = W ∧ q.height = H ∧ 0 < W := by
    intro lat long hl q hq
    have hWpos : 0 < W := by
      unfold MeshBuilder.longStarts longitudeDomainList at hl
      obtain ⟨x, hx, -⟩ := List.mem_map.1 hl
      have hx' : x ∈ arange b.longMin (eastEdge b) W := by
        unfold eastEdge
        split at hx <;> rename_i hc <;> simpa [hc] using hx
      have hw : 0 ≤ eastEdge b - b.longMin := by
        obtain ⟨-, v1, v2, v3, v4, -⟩ := hv
        unfold eastEdge; split <;> linarith
      by_contra hneg
      push Not at hneg
      unfold arange arangeLen at hx'
      have : (eastEdge b - b.longMin) / W ≤ 0 := div_nonpos_of_nonneg_of_nonpos hw hneg
      have : ⌈(eastEdge b - b.longMin) / W⌉ ≤ 0 := Int.ceil_le.2 (by simpa using this)
      rw [Int.toNat_of_nonpos this] at hx'
      simp at hx'
    have hdom : -180 ≤ long ∧ long ≤ 180 := by
      unfold MeshBuilder.longStarts longitudeDomainList at hl
      obtain ⟨x, -, rfl⟩ := List.mem_map.1 hl
      exact (C01_longitude_domain x).1
    unfold MeshBuilder.initialCell at hq
    split at hq
    · rename_i h180
      obtain ⟨a, a', la, c, d, lo, e1, e2, h1, h2, h3, h4, rfl⟩ := (C03_construction_table _ _ _ _).1 hq
      simp only [List.cons.injEq] at e1 e2
      obtain ⟨rfl, rfl, -⟩ := e1
      obtain ⟨rfl, rfl, -⟩ := e2
      refine ⟨⟨h1, h2, hdom.2, ?_, h3, h4⟩, ?_, ?_, hWpos⟩
      · show -180 ≤ long + W; linarith
      · rw [width_of_lt (by show long < long + W; linarith)]; show long + W - long = W; ring
      · show lat + H - lat = H; ring
    · rename_i h180
      push Not at h180
      obtain ⟨a, a', la, c, d, lo, e1, e2, h1, h2, h3, h4, rfl⟩ := (C03_construction_table _ _ _ _).1 hq
      simp only [List.cons.injEq] at e1 e2
      obtain ⟨rfl, rfl, -⟩ := e1
      obtain ⟨rfl, rfl, -⟩ := e2
      refine ⟨⟨h1, h2, hdom.2, ?_, h3, h4⟩, ?_, ?_, hWpos⟩
      · show -180 ≤ long + W - 360; linarith
      · rw [Boundary.width_eq]
        unfold eastEdge
        rw [if_neg (by show ¬ long < long + W - 360; linarith)]
        show long + W - 360 + 360 - long = W; ring
      · show lat + H - lat = H; ring
  unfold MeshBuilder.initializeCells at h
  have outer : ∀ (lats : List ℚ) (acc r : List Boundary), (∀ q ∈ acc, Valid q ∧ q.width = W ∧ q.height = H ∧ 0 < W) →
      lats.foldlM (fun acc lat => (MeshBuilder.longStarts b W).foldlM (fun acc long => do
        let cb ← MeshBuilder.initialCell b.time W H lat long
        return acc ++ [cb]) acc) acc = .ok r → ∀ q ∈ r, Valid q ∧ q.width = W ∧ q.height = H ∧ 0 < W := by
    intro lats
    induction lats with
    | nil => intro acc r hacc h; cases h; exact hacc
    | cons lat lats ih =>
      intro acc r hacc h
      rw [List.foldlM_cons] at h
      rcases h1 : (MeshBuilder.longStarts b W).foldlM (fun acc long => do
        let cb ← MeshBuilder.initialCell b.time W H lat long
        return acc ++ [cb]) acc with e | acc'
      · rw [h1] at h; cases h
      · rw [h1] at h
        exact ih acc' r (foldlM_mem _ acc acc' (hcell lat) hacc h1) h
  exact outer _ [] boxes (by simp) h

/-- C21, sizes: in every accepted region, also where the grid does not fit it, and for every cell size up to a full turn,
a cell at depth `k` has exactly `1 / 2 ^ k` of the initial width and height. -/
theorem C21_all_sizes_partial (ops : DataOps D) (b : Boundary) (W H : ℚ) (hv : Valid b) (hW1 : W ≤ 360) (initData : Boundary → D)
    (depth : ℕ) (m : MeshState D) (h : Reach ops b W H initData depth m) :
    ∀ i c, Live m i c → c.bounds.width = W / 2 ^ c.depth ∧ c.bounds.height = H / 2 ^ c.depth := by
  obtain ⟨m0, h0, hs⟩ := h
  have key : ∀ i c, Live m i c → Valid c.bounds ∧ 0 < W ∧ c.bounds.width = W / 2 ^ c.depth ∧ c.bounds.height = H / 2 ^ c.depth := by
    induction hs with
    | refl =>
      obtain ⟨boxes, g, glob, -, hb, -, rfl⟩ := init_inv h0
      intro i c hl
      obtain ⟨cb, hcb, rfl⟩ := live_init.1 hl
      obtain ⟨h1, h2, h3, h4⟩ := initial_sizes hv hW1 hb cb (List.mem_of_getElem? hcb)
      simp [h1, h2, h3, h4]
    | @step m1 m2 k hs1 he ih =>
      obtain ⟨c, new, g, hk, hsp, -, rfl⟩ := splitAndReplace_inv he
      obtain ⟨v, wpos, w, hh⟩ := ih k c hk
      have hd : ¬ (c.bounds.longMin = 180 ∧ c.bounds.longMax = -180) := by
        rintro ⟨q1, q2⟩
        have : c.bounds.width = 0 := by unfold Boundary.width; rw [q1, q2]; norm_num
        rw [w] at this
        have : 0 < W / 2 ^ c.depth := by positivity
        linarith
      obtain ⟨nw, ne, sw, se, hsp', -, -, -, -, -, hq, -⟩ := C14_cell_split_partial ops c m1.cells.length v hd
      rw [hsp'] at hsp
      cases hsp
      intro i q hl
      have L := (live_after hk nw ne sw se g i q).1 hl
      have hnew : q ∈ [nw, ne, sw, se] → Valid q.bounds ∧ 0 < W ∧ q.bounds.width = W / 2 ^ q.depth ∧ q.bounds.height = H / 2 ^ q.depth := by
        intro hmem
        obtain ⟨v', -, d', -, w', h', -⟩ := hq q hmem
        refine ⟨v', wpos, ?_, ?_⟩
        · rw [w', w, d', pow_succ]; field_simp
        · rw [h', hh, d', pow_succ]; field_simp
      rcases L with ⟨-, hl⟩ | ⟨-, rfl⟩ | ⟨-, rfl⟩ | ⟨-, rfl⟩ | ⟨-, rfl⟩
      · exact ih i q hl
      all_goals exact hnew (by simp)
  intro i c hl
  exact (key i c hl).2.2

/-- A full circle of 80-degree cells: the fifth one reaches over the first, but has its size. -/
example : Valid ⟨-60, -50, 0, 0, []⟩ ∧ ((runSplits (MeshBuilder.init ⟨-60, -50, 0, 0, []⟩ 80 5 (fun _ => ()) 3) []).map
    (fun m => (m.cells.length, m.cells[4]?.join.map (fun c => (c.depth, c.bounds.longMin, c.bounds.width)))) : Py _) =
    .ok (10, some (0, (-40 : ℚ), (80 : ℚ))) := by
  refine ⟨by norm_num [Valid], by decide +kernel⟩

/-- C21 is false for cells wider than a full turn, which the code accepts for full circles: they shrink to what is left
after a full turn. -/
theorem C21_wide_false : ∃ b W H m c, Valid b ∧ 0 < W ∧ 0 < H ∧ Reach unitOps b W H (fun _ => ()) 3 m ∧ Live m 0 c ∧ c.depth = 0 ∧
    c.bounds.width ≠ W := by
  have hok : (match runSplits (MeshBuilder.init ⟨-60, -50, 0, 0, []⟩ 400 5 (fun _ => ()) 3) [] with | .ok _ => true | .error _ => false) = true := by
    decide +kernel
  rcases h : runSplits (MeshBuilder.init ⟨-60, -50, 0, 0, []⟩ 400 5 (fun _ => ()) 3) [] with e | m
  · rw [h] at hok; cases hok
  have n1 : ((runSplits (MeshBuilder.init ⟨-60, -50, 0, 0, []⟩ 400 5 (fun _ => ()) 3) []).map
      (fun m => m.cells[0]?.join.map (fun c => (c.depth, c.bounds.width))) : Py (Option (ℕ × ℚ))) = .ok (some (0, 40)) := by
    decide +kernel
  rw [h] at n1
  simp only [Except.map, Except.ok.injEq] at n1
  obtain ⟨c, hc, hc'⟩ := Option.map_eq_some_iff.1 n1
  simp only [Prod.mk.injEq] at hc'
  refine ⟨⟨-60, -50, 0, 0, []⟩, 400, 5, m, c, by norm_num [Valid], by norm_num, by norm_num, runSplits_reach [] h, Option.join_eq_some_iff.1 hc, hc'.1, ?_⟩
  rw [hc'.2]; norm_num

/-- Data sources of the examples: one source with one condition that always wants to split cells
wider than 3 degrees whose western edge is 0. -/
def exOps : DataOps Unit :=
  { trim := fun _ _ => (), nConds := fun _ => [1, 0], shouldSplit := fun _ b _ => .ok (decide (b.longMin = 0 ∧ b.width > 3)) }

example : ((MeshBuilder.init exRegion 10 5 (fun _ => ()) 3 >>= fun m => MeshBuilder.splitToDepth exOps 100 3 m).map
    (fun m => (List.range m.cells.length).map (fun i => (m.cells[i]?.join.map (fun c => (c.depth, c.bounds.width)))))
    : Py (List (Option (ℕ × ℚ)))) =
    .ok [none, some (0, 10), none, some (0, 10), none, some (1, 5), none, some (1, 5), none, some (1, 5), none, some (1, 5),
      some (2, 5/2), some (2, 5/2), some (2, 5/2), some (2, 5/2), some (2, 5/2), some (2, 5/2), some (2, 5/2), some (2, 5/2),
      some (2, 5/2), some (2, 5/2), some (2, 5/2), some (2, 5/2), some (2, 5/2), some (2, 5/2), some (2, 5/2), some (2, 5/2)] := by
  decide +kernel

/-- Every mesh over such a region can be split further, at any live cell. -/
theorem keeps_mesh (ops : DataOps D) {b : Boundary} {W H : ℚ} (hp : ProperGrid b W H) (hcol : b.width = 360 → W ≤ 180) :
    Keeps ops (fun m => CellsOK b W H m ∧ ((∃ glob, GraphOK glob m) ∨ (∃ U, SeamOK b W m U) ∨ ∃ U, RingOK m U)) := by
  have hpos := (C04_geometry_partial b hp.valid hp.nondeg).1
  have hw : b.width < 360 ∨ b.width = 360 ∧ W ≤ 180 := by
    rcases lt_or_eq_of_le hpos.2 with h | h
    · exact Or.inl h
    · exact Or.inr ⟨h, hcol h⟩
  rintro m k c ⟨hc, ⟨glob, hg⟩ | ⟨U, hU⟩ | ⟨U, hU⟩⟩ hk
  · obtain ⟨m', h1, h2⟩ := GraphOK.split ops hc hg hk
    exact ⟨m', h1, hc.split h1, Or.inl ⟨glob, h2⟩⟩
  · obtain ⟨m', U', h1, h2⟩ := SeamOK.split hp.valid hw ops hc hU hk
    exact ⟨m', h1, hc.split h1, Or.inr (Or.inl ⟨U', h2⟩)⟩
  · obtain ⟨m', U', h1, h2⟩ := RingOK.split ops hc hU hk
    exact ⟨m', h1, hc.split h1, Or.inr (Or.inr ⟨U', h2⟩)⟩

/-- C22: on a fresh mesh over a region of positive height, crossing the antimeridian or not,
depth-limited splitting ends (with one result `m`, given enough fuel) without raising, whatever the
data decide (as long as the decision itself does not raise).  `ms p` are the meshes before each source's
pass: the next one comes about by splits only, it is the same if the source has no splitting conditions, and
otherwise all its live cells are at the limit or not to be split according to the sources up to this one.
Afterwards every live cell is within the limit, and if `p` is the last source with splitting conditions, every live
cell is at the limit or not to be split according to the sources up to `p`.  Excluded: a full circle
with a single column. -/
theorem C22_terminates_partial (ops : DataOps D) (hdec : Decides ops) (b : Boundary) (W H : ℚ) (hp : ProperGrid b W H)
    (hh : b.latMin < b.latMax) (hcol : b.width = 360 → W ≤ 180)
    (initData : Boundary → D) (depth sd : ℕ) (m0 : MeshState D) (h0 : MeshBuilder.init b W H initData depth = .ok m0) :
    ∃ c0 N m, Live m0 0 c0 ∧ (∀ fuel, N ≤ fuel → MeshBuilder.splitToDepth ops fuel sd m0 = .ok m) ∧ Splits ops m0 m ∧
      (∃ ms : ℕ → MeshState D, ms 0 = m0 ∧ ms (ops.nConds c0.data).length = m ∧ ∀ p, p < (ops.nConds c0.data).length →
        Splits ops (ms p) (ms (p + 1)) ∧ ((ops.nConds c0.data).getD p 0 = 0 → ms (p + 1) = ms p) ∧
        (0 < (ops.nConds c0.data).getD p 0 → ∀ i c, Live (ms (p + 1)) i c →
          sd ≤ c.depth ∨ ops.shouldSplit (p + 1) c.bounds c.data = .ok false)) ∧
      (∀ i c, Live m i c → c.depth ≤ sd) ∧
      (∀ p, 0 < (ops.nConds c0.data).getD p 0 → (∀ p', p < p' → (ops.nConds c0.data).getD p' 0 = 0) →
        ∀ i c, Live m i c → c.depth = sd ∨ ops.shouldSplit (p + 1) c.bounds c.data = .ok false) := by
  obtain ⟨_, _, _, hval, _⟩ := init_inv h0
  obtain ⟨nx, ny, hnx0, hnx, hny⟩ := hp.fits hval
  obtain ⟨hc0, hlen, hz⟩ := CellsOK.init hp.valid hp.nondeg hp.wpos hp.hpos hnx hny h0
  have hg0 : (∃ glob, GraphOK glob m0) ∨ (∃ U, SeamOK b W m0 U) ∨ ∃ U, RingOK m0 U := by
    by_cases hband : b.longMin = -180 ∧ b.longMax = 180
    · have hlt : b.longMin < b.longMax := by rw [hband.1, hband.2]; norm_num
      left
      refine ⟨_, (reach_graph (ops := ops) hp hlt (fun _ => hcol ?_) ⟨m0, h0, .refl m0⟩).2⟩
      rw [width_of_lt hlt, hband.1, hband.2]; norm_num
    · right
      by_cases hstart : b.longMin = 180 ∧ b.longMax = 180
      · exact Or.inr (reach_ring (ops := ops) hp hstart hcol ⟨m0, h0, .refl m0⟩).2
      · left
        refine (reach_seam (ops := ops) hp ?_ hcol ⟨m0, h0, .refl m0⟩).2
        rintro ⟨h1, h2 | h2⟩
        · exact hband ⟨h2, h1⟩
        · exact hstart ⟨h2, h1⟩
  -- the first cell exists
  have hny0 : 0 < ny := by
    rcases Nat.eq_zero_or_pos ny with h | h
    · subst h; simp only [Boundary.height, Nat.cast_zero, zero_mul] at hny; linarith
    · exact h
  have hpos : 0 < m0.cells.length := by rw [hlen]; positivity
  obtain ⟨c0, hl0⟩ : ∃ c0, Live m0 0 c0 := by
    obtain ⟨boxes, g, glob, -, -, -, rfl⟩ := init_inv h0
    have : 0 < boxes.length := by simpa using hpos
    exact ⟨_, live_init.2 ⟨boxes[0], List.getElem?_eq_getElem this, rfl⟩⟩
  obtain ⟨ms, e1, e2, e3, e4⟩ := splitSources_ok (keeps_mesh ops hp hcol) hdec sd (totalWeight sd m0.cells + 1)
    (ops.nConds c0.data) 0 m0 ⟨hc0, hg0⟩ (fun j c hl => by rw [(hz j c hl).1]; omega) (by omega)
  have hsp : ∀ p, p ≤ (ops.nConds c0.data).length → Splits ops m0 (ms p) := by
    intro p
    induction p with
    | zero => intro _; rw [e2]; exact .refl m0
    | succ p ih => intro hp; exact splits_trans (ih (by omega)) (e4 p (by omega)).1
  refine ⟨c0, totalWeight sd m0.cells + 1, ms (ops.nConds c0.data).length, hl0, ?_, hsp _ le_rfl, ⟨ms, e2, rfl, ?_⟩, e3, ?_⟩
  · intro fuel hf
    unfold MeshBuilder.splitToDepth
    simp only [bind, Except.bind, cellAt_ok_iff.2 hl0]
    exact splitSources_mono _ _ fuel 0 m0 _ hf e1
  · intro p hp
    obtain ⟨a1, a2, a3⟩ := e4 p hp
    rw [Nat.zero_add] at a3
    exact ⟨a1, a2, a3⟩
  · intro p hp1 hp2 i c hl
    have hplt : p < (ops.nConds c0.data).length := by
      by_contra hge
      rw [List.getD_eq_getElem?_getD, List.getElem?_eq_none (by omega)] at hp1
      simp at hp1
    have hsame : ∀ q, p < q → q ≤ (ops.nConds c0.data).length → ms q = ms (p + 1) := by
      intro q
      induction q with
      | zero => intro h; omega
      | succ q ih =>
        intro h1 h2
        rcases Nat.lt_or_ge p q with h | h
        · rw [(e4 q (by omega)).2.1 (hp2 q h), ih h (by omega)]
        · have : p = q := by omega
          rw [this]
    rw [hsame _ hplt le_rfl] at hl
    rcases (e4 p hplt).2.2 hp1 i c hl with h | h
    · exact Or.inl (le_antisymm (e3 i c (by rw [hsame _ hplt le_rfl]; exact hl)) h)
    · right
      rw [Nat.zero_add] at h; exact h

example : Decides exOps ∧ ProperGrid exCross 10 5 ∧ exCross.width ≠ 360 ∧ exCross.latMin < exCross.latMax ∧ ProperGrid exRegion 10 5 ∧ exRegion.latMin < exRegion.latMax ∧
    0 < (exOps.nConds ()).getD 0 0 ∧ ∀ p', 0 < p' → (exOps.nConds ()).getD p' 0 = 0 := by
  refine ⟨fun n b d => ⟨_, rfl⟩, exCross_proper, by decide +kernel, by norm_num [exCross], exRegion_proper, by norm_num [exRegion], by decide, ?_⟩
  intro p' hp'
  rcases p' with _ | _ | p'
  · omega
  · rfl
  · simp [exOps]

/-- C22 needs the positive height: a region with equal latitudes is accepted, has no cells, and
depth-limited splitting then raises `IndexError`. -/
theorem C22_zero_height_raises : ∃ b m0, Valid b ∧ ProperGrid b 10 5 ∧
    MeshBuilder.init b 10 5 (fun _ => ()) 3 = .ok m0 ∧ ∀ fuel sd, MeshBuilder.splitToDepth exOps fuel sd m0 = .error .indexError := by
  have hp : ProperGrid ⟨-60, -60, 0, 20, []⟩ 10 5 := by
    refine ⟨by norm_num [Valid], by norm_num, by norm_num, by norm_num, ?_⟩
    intro h
    have : (⟨-60, -60, 0, 20, []⟩ : Boundary).width = 20 := by decide +kernel
    rw [this] at h; norm_num at h
  obtain ⟨m0, h, hlen⟩ := C10_construction_succeeds (D := Unit) ⟨-60, -60, 0, 20, []⟩ 10 5 (by norm_num [Valid]) (by norm_num)
    (by norm_num) (by norm_num) (by norm_num) 2 0 (by decide +kernel) (by decide +kernel) (fun _ => ()) 3
  refine ⟨⟨-60, -60, 0, 20, []⟩, m0, by norm_num [Valid], hp, h, ?_⟩
  intro fuel sd
  have : m0.cells = [] := List.length_eq_zero_iff.1 (by simpa using hlen)
  unfold MeshBuilder.splitToDepth cellAt
  rw [this]; rfl

/-- C22 needs the grid to fit: a full circle whose width is not a multiple of the cell width is accepted, and then
splitting its first cell raises `ValueError`, since the initial graph is not symmetric. -/
theorem C22_misfit_raises : ∃ b m c, Valid b ∧ Reach unitOps b 80 5 (fun _ => ()) 3 m ∧ Live m 0 c ∧
    MeshBuilder.splitAndReplace unitOps m 0 = .error .valueError := by
  have hok : (match runSplits (MeshBuilder.init ⟨-60, -50, 0, 0, []⟩ 80 5 (fun _ => ()) 3) [] with | .ok _ => true | .error _ => false) = true := by
    decide +kernel
  rcases h : runSplits (MeshBuilder.init ⟨-60, -50, 0, 0, []⟩ 80 5 (fun _ => ()) 3) [] with e | m
  · rw [h] at hok; cases hok
  have n1 : (runSplits (MeshBuilder.init ⟨-60, -50, 0, 0, []⟩ 80 5 (fun _ => ()) 3) []).map (fun m => m.cells[0]?.join.isSome) = .ok true := by
    decide +kernel
  have n2 : ((runSplits (MeshBuilder.init ⟨-60, -50, 0, 0, []⟩ 80 5 (fun _ => ()) 3) [] >>= fun m => MeshBuilder.splitAndReplace unitOps m 0).map
      (fun m => m.cells.length) : Py ℕ) = .error .valueError := by
    decide +kernel
  rw [h] at n1 n2
  simp only [Except.map, Except.ok.injEq] at n1
  obtain ⟨c, hc⟩ := Option.isSome_iff_exists.1 n1
  refine ⟨_, m, c, by norm_num [Valid], runSplits_reach [] h, Option.join_eq_some_iff.1 hc, ?_⟩
  simp only [bind, Except.bind, Except.map] at n2
  split at n2
  · rename_i e he
    cases n2
    exact he
  · cases n2

/-- The loop cannot be entered a second time once the first cell has been replaced: `split_to_depth`
reads the data sources from `cellboxes[0]`. -/
theorem C22_second_call_raises (ops : DataOps D) (m : MeshState D) (h : m.cells[0]? = some none) (fuel sd : ℕ) :
    MeshBuilder.splitToDepth ops fuel sd m = .error .attributeError := by
  unfold MeshBuilder.splitToDepth cellAt
  rw [h]; rfl

example : ((MeshBuilder.init exRegion 10 5 (fun _ => ()) 3 >>= fun m => MeshBuilder.splitToDepth exOps 100 1 m).map
    (fun m => m.cells[0]?.map Option.isNone) : Py (Option Bool)) = .ok (some true) := by decide +kernel

end Verif
