import Verif.Props.BuildCrossing
import Verif.Props.BuildValues

/-!
# Building a mesh from sources of any kind

What depth-limited splitting and aggregation do with sources whose trimming composes and whose decisions and values on a box
are known from the full data.
-/

namespace Verif
open Spec

variable {S C : Type}

/-- A proper box inside another that does not cross the antimeridian. -/
def Inner (b q : Boundary) : Prop := ProperBox q ∧ q.longMin < q.longMax ∧ Within q b

theorem Inner.trans {b p q : Boundary} (h : Inner p q) (h' : Inner b p) : Inner b q := ⟨h.1, h.2.1, h.2.2.trans h'.2.2⟩

/-- Among the boxes `In`, the source trims to a box as its full data does, whatever enclosing box it was trimmed to before, and finds
there the verdict of the full data. -/
structure FaithfulOn (In : Boundary → Prop) (s : Source S C) (verdict : Boundary → C → Verdict) : Prop where
  trims : ∀ p q, In p → In q → Within q p → s.loader.trim q (s.loader.trim p s.subset) = s.loader.trim q s.subset
  decides : ∀ q, In q → ∀ c ∈ s.conds, s.loader.homCond q c (s.loader.trim q s.subset) = .ok (verdict q c)

/-- Among the boxes in a region that does not cross the antimeridian. -/
abbrev Faithful (b : Boundary) (s : Source S C) (verdict : Boundary → C → Verdict) : Prop := FaithfulOn (Inner b) s verdict

/-- The boxes `In` comprise those of the initial grid, which are those in `start`, and the parts of each of them, which are those in
`parts` and lie in it. -/
structure BoxSystem (b : Boundary) (W H : ℚ) (In start : Boundary → Prop) (parts : Boundary → List Boundary) : Prop where
  roots : ∀ roots, MeshBuilder.initializeCells b W H = .ok roots → ∀ q, q ∈ roots ↔ start q
  first : ∀ q, start q → In q
  part_iff : ∀ p q, In p → (PartOf q p ↔ q ∈ parts p)
  within : ∀ p q, In p → q ∈ parts p → In q ∧ Within q p

theorem verdictsOf_total (q : Boundary) (d : List (Source S C))
    (h : ∀ s ∈ d, ∀ c ∈ s.conds, ∃ v, s.loader.homCond q c s.subset = .ok v) : ∃ l, verdictsOf q d = .ok l := by
  induction d with
  | nil => exact ⟨[], rfl⟩
  | cons s d ih =>
    obtain ⟨l, hl⟩ := ih (fun s hs => h s (List.mem_cons_of_mem _ hs))
    have key : ∀ cs : List C, (∀ c ∈ cs, c ∈ s.conds) → ∃ l, cs.mapM (fun c => s.loader.homCond q c s.subset) = (.ok l : Py _) := by
      intro cs
      induction cs with
      | nil => intro _; exact ⟨[], rfl⟩
      | cons c cs ih =>
        intro hc
        obtain ⟨l, hl⟩ := ih (fun c' hc' => hc c' (List.mem_cons_of_mem _ hc'))
        obtain ⟨v, hv⟩ := h s (by simp) c (hc c (by simp))
        rw [List.mapM_cons, hl, hv]
        exact ⟨_, rfl⟩
    obtain ⟨l', hl'⟩ := key s.conds (fun _ h => h)
    exact ⟨l' ++ l, by simp only [verdictsOf, hl, Source.verdicts, hl', bind, Except.bind, pure, Except.pure]⟩

/-- Some source finds the box inhomogeneous. -/
def Wants (verdict : Source S C → Boundary → C → Verdict) (full : List (Source S C)) (q : Boundary) : Prop :=
  ∃ s ∈ full, ∃ c ∈ s.conds, verdict s q c = .het

/-- No source prevents splitting. -/
def NoLocks (verdict : Source S C → Boundary → C → Verdict) (In : Boundary → Prop) (full : List (Source S C)) : Prop :=
  ∀ s ∈ full, ∀ c ∈ s.conds, ∀ q, In q → verdict s q c = .clr ∨ verdict s q c = .het

section Generic

variable {b : Boundary} {W H : ℚ} {In start : Boundary → Prop} {parts : Boundary → List Boundary} {full : List (Source S C)} {verdict : Source S C → Boundary → C → Verdict}

theorem faithful_decision (hf : ∀ s ∈ full, FaithfulOn In s (verdict s)) {q : Boundary} (hq : In q) (n : ℕ) (hn : n ≤ full.length) :
    ∃ r, shouldSplit n q (trimSources q full) = .ok r ∧ (NoLocks verdict In full → (r = true ↔ Wants verdict (full.take n) q)) := by
  have hlen : (trimSources q full).length = full.length := by unfold trimSources; simp
  have htake : (trimSources q full).take n = (full.take n).map (fun s => { s with subset := s.loader.trim q s.subset }) := by
    unfold trimSources; rw [List.map_take]
  obtain ⟨l, hl⟩ := verdictsOf_total q ((trimSources q full).take n) (by
    intro s' hs' c hc
    rw [htake] at hs'
    obtain ⟨s, hs, rfl⟩ := List.mem_map.1 hs'
    exact ⟨_, (hf s (List.mem_of_mem_take hs)).decides q hq c hc⟩)
  have hr : shouldSplit n q (trimSources q full) = .ok (decideSplit l) := by
    unfold shouldSplit
    rw [hl]
    simp only [bind, Except.bind, pure, Except.pure]
    rw [if_neg (by omega)]
  refine ⟨_, hr, fun hlock => ?_⟩
  rw [(C28_split_iff hr).2, htake]
  have hverd : ∀ s ∈ full, ∀ c ∈ s.conds, s.loader.homCond q c (s.loader.trim q s.subset) = .ok (verdict s q c) :=
    fun s hs c hc => (hf s hs).decides q hq c hc
  constructor
  · rintro ⟨-, s', hs', c, hc, v, hv, hne⟩
    obtain ⟨s, hs, rfl⟩ := List.mem_map.1 hs'
    have hsf := List.mem_of_mem_take hs
    simp only at hc hv
    rw [hverd s hsf c hc] at hv
    cases hv
    exact ⟨s, hs, c, hc, (hlock s hsf c hc q hq).resolve_left hne⟩
  · rintro ⟨s, hs, c, hc, hv⟩
    have hsf := List.mem_of_mem_take hs
    refine ⟨?_, _, List.mem_map.2 ⟨s, hs, rfl⟩, c, hc, .het, ?_, by simp⟩
    · rintro ⟨s', hs', c', hc', h⟩
      obtain ⟨s, hs, rfl⟩ := List.mem_map.1 hs'
      have hsf' := List.mem_of_mem_take hs
      simp only at hc' h
      rw [hverd s hsf' c' hc'] at h
      rcases hlock s hsf' c' hc' q hq with h' | h' <;> rw [h'] at h <;> rcases h with h | h <;> cases h
    · rw [hverd s hsf c hc, hv]

theorem faithful_part (hf : ∀ s ∈ full, FaithfulOn In s (verdict s)) {p q : Boundary} (hp : In p) (hq : In q) (hw : Within q p) :
    trimSources q (trimSources p full) = trimSources q full := by
  unfold trimSources
  rw [List.map_map]
  apply List.map_congr_left
  intro s hs
  simp only [Function.comp, Source.mk.injEq, true_and]
  exact (hf s hs).trims p q hp hq hw

/-- What is known of the boxes that come about. -/
def Traced (In : Boundary → Prop) (full : List (Source S C)) (x : Boundary × List (Source S C)) : Prop := In x.1 ∧ x.2 = trimSources x.1 full

theorem chains_traced (hf : ∀ s ∈ full, FaithfulOn In s (verdict s)) (hS : BoxSystem b W H In start parts)
    {roots : List Boundary} (hroots : ∀ q, q ∈ roots ↔ start q) {sd : ℕ} (asks : Boundary → List (Source S C) → Prop)
    (t : List (Boundary × List (Source S C))) (h : Chains (sourceOps S C) asks sd roots (fun q => trimSources q full) t) :
    (∀ x ∈ t, Traced In full x) ∧ LineageBy parts start (t.map Prod.fst) := by
  induction h with
  | @root q hq =>
    refine ⟨?_, .root ((hroots _).1 hq)⟩
    intro x hx
    rw [List.mem_singleton] at hx
    subst hx
    exact ⟨hS.first _ ((hroots q).1 hq), rfl⟩
  | @part p q d t hch hlt ha hq ih =>
    obtain ⟨k1, k2⟩ := ih.1 (p, d) (by simp)
    simp only at k1 k2
    have hq' := (hS.part_iff _ _ k1).1 hq
    refine ⟨?_, .quarter ih.2 hq'⟩
    intro x hx
    rcases List.mem_cons.1 hx with rfl | hx
    · obtain ⟨h1, h2⟩ := hS.within _ _ k1 hq'
      refine ⟨h1, ?_⟩
      simp only
      rw [k2]
      exact faithful_part hf k1 h1 h2
    · exact ih.1 x hx

theorem chains_refine (hf : ∀ s ∈ full, FaithfulOn In s (verdict s)) (hS : BoxSystem b W H In start parts)
    {roots : List Boundary} (hroots : ∀ q, q ∈ roots ↔ start q) {sd : ℕ}
    {asks : Boundary → List (Source S C) → Prop} {wants : Boundary → Prop}
    (haw : ∀ q, In q → (asks q (trimSources q full) ↔ wants q)) (k : ℕ) (q : Boundary) :
    RefinedBy parts wants start sd k q ↔ ∃ t, t.length = k ∧
      Chains (sourceOps S C) asks sd roots (fun q => trimSources q full) ((q, trimSources q full) :: t) := by
  constructor
  · intro h
    induction h with
    | start hq => exact ⟨[], rfl, .root ((hroots _).2 hq)⟩
    | @quarter k q q' hq hk hw hq' ih =>
      obtain ⟨t, ht, hch⟩ := ih
      obtain ⟨k1, -⟩ := (chains_traced hf hS hroots asks _ hch).1 _ (by simp : (q, trimSources q full) ∈ (q, trimSources q full) :: t)
      simp only at k1
      refine ⟨(q, trimSources q full) :: t, by simp [ht], ?_⟩
      obtain ⟨h1, h2⟩ := hS.within _ _ k1 hq'
      rw [← faithful_part hf k1 h1 h2]
      exact .part hch (by omega) ((haw q k1).2 hw) ((hS.part_iff _ _ k1).2 hq')
  · rintro ⟨t, ht, hch⟩
    generalize hu : (q, trimSources q full) :: t = u at hch
    induction hch generalizing q k t with
    | root hq =>
      simp only [List.cons.injEq, Prod.mk.injEq] at hu
      obtain ⟨⟨rfl, -⟩, rfl⟩ := hu
      rw [← ht]
      exact .start ((hroots _).1 hq)
    | @part p q' d t' hch hlt ha hq ih =>
      simp only [List.cons.injEq, Prod.mk.injEq] at hu
      obtain ⟨⟨rfl, -⟩, rfl⟩ := hu
      obtain ⟨k1, k2⟩ := (chains_traced hf hS hroots asks _ hch).1 _ (by simp : (p, d) ∈ (p, d) :: t')
      simp only at k1 k2
      subst k2
      rw [← ht]
      exact .quarter (ih _ p t' rfl rfl) hlt ((haw p k1).1 ha) ((hS.part_iff _ _ k1).1 hq)

theorem history_traced (hf : ∀ s ∈ full, FaithfulOn In s (verdict s)) {q : Boundary} {d : List (Source S C)}
    {anc : List (Boundary × List (Source S C))} (h : History (sourceOps S C) (fun q => trimSources q full) In q d anc) :
    Traced In full (q, d) := by
  induction h with
  | root q hq => exact ⟨hq, rfl⟩
  | @child p d anc q hh hw hq ih =>
    obtain ⟨k1, k2⟩ := ih
    simp only at k1 k2
    refine ⟨hq, ?_⟩
    subst k2
    exact faithful_part hf k1 hq hw

/-- The boxes of all cells are among those considered. -/
theorem reach_boxes {D : Type} {ops : DataOps D} {initData : Boundary → D} {depth : ℕ} (hp : ProperGrid b W H) (hS : BoxSystem b W H In start parts)
    {m : MeshState D} (h : Reach ops b W H initData depth m) {i : ℕ} {c : CellBox D} (hl : Live m i c) :
    History ops initData In c.bounds c.data c.anc := by
  refine (reach_history_gen hp In ?_ ?_ h hl).1
  · intro m0 i c h0 hl
    obtain ⟨roots, g, glob, -, hr, -, rfl⟩ := init_inv h0
    obtain ⟨cb, hcb, rfl⟩ := live_init.1 hl
    exact hS.first _ ((hS.roots roots hr _).1 (List.mem_of_getElem? hcb))
  · intro c0 n new _ _ hP hsp q hq
    exact (hS.within _ _ hP ((hS.part_iff _ _ hP).1 ((split_parts hsp q.bounds).2 ⟨q, hq, rfl⟩))).1

/-- Construction succeeds for every accepted grid. -/
theorem init_any {D : Type} (hp : ProperGrid b W H) (hcol : b.width = 360 → W ≤ 180)
    (hacc : MeshBuilder.validateBounds b W H = .ok ()) (initData : Boundary → D) (depth : ℕ) :
    ∃ m0, MeshBuilder.init b W H initData depth = .ok m0 := by
  by_cases hg : b.longMin = -180 ∧ b.longMax = 180
  · have hcr : b.longMin < b.longMax := by rw [hg.1, hg.2]; norm_num
    obtain ⟨nx, ny, hnx0, hnx, hny⟩ := hp.fits hacc
    obtain ⟨m0, h0, -⟩ := init_exact hp.valid hcr hp.wpos hp.hpos hnx hny (by
      intro hg
      have hw := width_of_lt hcr
      have hW := hcol (by rw [hw, hg.1, hg.2]; norm_num)
      rw [hnx, hg.1, hg.2] at hw
      by_contra hlt
      have : (nx : ℚ) ≤ 1 := by exact_mod_cast (by omega : nx ≤ 1)
      have := mul_le_mul_of_nonneg_right this hp.wpos.le
      linarith) initData depth
    exact ⟨m0, h0⟩
  · rcases le_or_gt b.longMax b.longMin with hcr | hcr
    · exact init_crossing hp hcr hcol hacc initData depth
    · refine init_unflagged hp ?_ hacc initData depth
      rintro ⟨h1, h2 | h2⟩
      · exact hg ⟨h2, h1⟩
      · linarith

theorem faithful_runs (hf : ∀ s ∈ full, FaithfulOn In s (verdict s)) (hS : BoxSystem b W H In start parts) (hp : ProperGrid b W H)
    (hh : b.latMin < b.latMax) (hcol : b.width = 360 → W ≤ 180)
    (hacc : MeshBuilder.validateBounds b W H = .ok ()) (depth sd : ℕ) :
    ∃ m0, MeshBuilder.init b W H (fun q => trimSources q full) depth = .ok m0 ∧ ∃ N m, ∀ fuel, N ≤ fuel →
      MeshBuilder.splitToDepth (sourceOps S C) fuel sd m0 = .ok m := by
  obtain ⟨m0, h0⟩ := init_any hp hcol hacc (fun q => trimSources q full) depth
  obtain ⟨c0, N, m, hc0, hrun, -⟩ := C22_terminates_partial (calm (sourceOps S C)) (calm_decides _) b W H hp hh hcol
    (fun q => trimSources q full) depth sd m0 h0
  refine ⟨m0, h0, N, m, fun fuel hfu => ?_⟩
  rw [← hrun fuel hfu]
  unfold MeshBuilder.splitToDepth
  simp only [bind, Except.bind, cellAt_ok_iff.2 hc0]
  have hdata : ∀ m, Reach (sourceOps S C) b W H (fun q => trimSources q full) depth m → ∀ j c, Live m j c → Traced In full (c.bounds, c.data) :=
    fun m hm j c hl => history_traced hf (reach_boxes hp hS hm hl)
  refine sources_calm_on (J := Reach (sourceOps S C) b W H (fun q => trimSources q full) depth) ?_ _ 0 m0
    ⟨m0, h0, .refl m0⟩ ?_
  · rintro m k m1 ⟨m0', h0', hs⟩ he
    exact ⟨m0', h0', .step k hs he⟩
  · intro p hp' m j c hm hl
    obtain ⟨e1, e2⟩ := hdata m hm j c hl
    simp only at e1 e2
    have hlen : p < full.length := by
      have := congrArg List.length (hdata m0 ⟨m0, h0, .refl m0⟩ 0 c0 hc0).2
      simp only [trimSources, List.length_map] at this
      simp only [sourceOps, List.length_map] at hp'
      omega
    rw [Nat.zero_add, e2]
    obtain ⟨r, hr, -⟩ := faithful_decision hf e1 (p + 1) (by omega)
    exact ⟨r, hr⟩

/-- Without locks the cells are exactly the boxes obtained from the grid by dividing every box above the limit that some source
finds inhomogeneous. -/
theorem faithful_cells (hf : ∀ s ∈ full, FaithfulOn In s (verdict s)) (hlock : NoLocks verdict In full)
    (hS : BoxSystem b W H In start parts) (hp : ProperGrid b W H)
    (hh : b.latMin < b.latMax) (hcol : b.width = 360 → W ≤ 180)
    (hacc : MeshBuilder.validateBounds b W H = .ok ()) (depth sd : ℕ) :
    ∃ m0, MeshBuilder.init b W H (fun q => trimSources q full) depth = .ok m0 ∧ ∃ N m,
      (∀ fuel, N ≤ fuel → MeshBuilder.splitToDepth (sourceOps S C) fuel sd m0 = .ok m) ∧
      ∀ q k, (∃ i c, Live m i c ∧ c.bounds = q ∧ c.depth = k) ↔
        RefinedBy parts (Wants verdict full) start sd k q ∧ (k = sd ∨ ¬ Wants verdict full q) := by
  obtain ⟨m0, h0, N, m, hrun⟩ := faithful_runs hf hS hp hh hcol hacc depth sd
  refine ⟨m0, h0, N, m, hrun, ?_⟩
  obtain ⟨roots, g, glob, -, hr, -, hm0⟩ := init_inv h0
  have hroots := hS.roots roots hr
  have hrunN := hrun N le_rfl
  obtain ⟨c0, hc0, hT⟩ := tracked_splitToDepth h0 hr hrunN
  have hc0d : ((sourceOps S C).nConds c0.data) = full.map (fun s => s.conds.length) := by
    have : c0.data = trimSources c0.bounds full := by
      subst hm0
      obtain ⟨cb, -, rfl⟩ := live_init.1 hc0
      rfl
    simp only [sourceOps, this, trimSources, List.map_map, Function.comp_def]
  rcases last_positive (full.map (fun s => s.conds.length)) with hz | ⟨p, hplt, hp0, hlast⟩
  · -- no conditions at all
    have hno : ∀ q, ¬ Wants verdict full q := by
      rintro q ⟨s, hs, c, hc, -⟩
      obtain ⟨p, hplt, hpe⟩ := List.getElem_of_mem hs
      have := hz p
      rw [List.getD_eq_getElem?_getD, List.getElem?_map, List.getElem?_eq_getElem hplt, hpe] at this
      simp only [Option.map_some, Option.getD_some, List.length_eq_zero_iff] at this
      rw [this] at hc
      cases hc
    have hmm : m = m0 := by
      unfold MeshBuilder.splitToDepth at hrunN
      simp only [bind, Except.bind, cellAt_ok_iff.2 hc0, hc0d] at hrunN
      rw [splitSources_zero _ 0 m0 hz] at hrunN
      cases hrunN; rfl
    intro q k
    subst hmm
    constructor
    · rintro ⟨i, c, hl, rfl, rfl⟩
      subst hm0
      obtain ⟨cb, hcb, rfl⟩ := live_init.1 hl
      exact ⟨.start ((hroots _).1 (List.mem_of_getElem? hcb)), Or.inr (hno _)⟩
    · rintro ⟨hR, -⟩
      cases hR with
      | start hq =>
        obtain ⟨j, hj⟩ := List.mem_iff_getElem?.1 ((hroots _).2 hq)
        subst hm0
        exact ⟨j, _, live_init.2 ⟨q, hj, rfl⟩, rfl, rfl⟩
      | quarter _ _ hw _ => exact absurd hw (hno _)
  · have hplt' : p < full.length := by simpa using hplt
    have hall : ∀ q, Wants verdict (full.take (p + 1)) q ↔ Wants verdict full q := by
      intro q
      constructor
      · rintro ⟨s, hs, h⟩
        exact ⟨s, List.mem_of_mem_take hs, h⟩
      · rintro ⟨s, hs, c, hc, h⟩
        refine ⟨s, ?_, c, hc, h⟩
        obtain ⟨i, hi, hie⟩ := List.getElem_of_mem hs
        have hip : i ≤ p := by
          by_contra hgt
          have := hlast i (by omega)
          rw [List.getD_eq_getElem?_getD, List.getElem?_map, List.getElem?_eq_getElem hi, hie] at this
          simp only [Option.map_some, Option.getD_some, List.length_eq_zero_iff] at this
          rw [this] at hc
          cases hc
        rw [← hie]
        exact List.mem_take_iff_getElem.2 ⟨i, by omega, rfl⟩
    have hsub : ∀ n q, Wants verdict (full.take n) q → Wants verdict full q := by
      rintro n q ⟨s, hs, h⟩
      exact ⟨s, List.mem_of_mem_take hs, h⟩
    have haw : ∀ q, In q → (shouldSplit (p + 1) q (trimSources q full) = .ok true ↔ Wants verdict full q) := by
      intro q k1
      obtain ⟨r, hr, hri⟩ := faithful_decision hf k1 (p + 1) (by omega)
      rw [← hall q, ← hri hlock, hr]
      simp
    have haf : ∀ q, In q → (shouldSplit (p + 1) q (trimSources q full) = .ok false ↔ ¬ Wants verdict full q) := by
      intro q k1
      obtain ⟨r, hr, hri⟩ := faithful_decision hf k1 (p + 1) (by omega)
      rw [← hall q, ← hri hlock, hr]
      simp
    have hexact := chains_exact h0 hr hrunN hc0 (p := p) (by rw [hc0d]; exact hp0) (by rw [hc0d]; exact hlast)
      (fun t => ∀ x ∈ t, Traced In full x) (fun asks t ht => (chains_traced hf hS hroots asks t ht).1) (by
        intro p' q d t hg hp' hs
        obtain ⟨k1, k2⟩ := hg (q, d) (by simp)
        simp only at k1 k2
        subst k2
        rw [hc0d] at hp'
        have hp'p : p' ≤ p := by
          by_contra hgt
          rw [hlast p' (by omega)] at hp'
          omega
        obtain ⟨r, hr, hri⟩ := faithful_decision hf k1 (p' + 1) (by omega)
        have hs' : shouldSplit (p' + 1) q (trimSources q full) = .ok true := hs
        rw [hr] at hs'
        simp only [Except.ok.injEq] at hs'
        exact (haw q k1).2 (hsub _ _ ((hri hlock).1 hs')))
    have hsound := hT.sound
    intro q k
    rw [chains_refine hf hS hroots (asks := fun q d => (sourceOps S C).shouldSplit (p + 1) q d = .ok true) haw k q]
    constructor
    · rintro ⟨i, c, hl, rfl, rfl⟩
      obtain ⟨s1, -, -⟩ := hsound i c hl
      obtain ⟨k1, k2⟩ := (hexact c.bounds c.data c.anc).1 ⟨i, c, hl, rfl⟩
      obtain ⟨g1, g2⟩ := (chains_traced hf hS hroots _ _ k1).1 _ (by simp : (c.bounds, c.data) ∈ (c.bounds, c.data) :: c.anc)
      simp only at g1 g2
      rw [g2] at k1 k2
      refine ⟨⟨c.anc, s1.symm, k1⟩, ?_⟩
      rcases k2 with k2 | k2
      · left; rw [s1]; exact k2
      · exact Or.inr ((haf _ g1).1 k2)
    · rintro ⟨⟨t, ht, hch⟩, hend⟩
      obtain ⟨g1, -⟩ := (chains_traced hf hS hroots _ _ hch).1 _ (by simp : (q, trimSources q full) ∈ (q, trimSources q full) :: t)
      simp only at g1
      obtain ⟨i, c, hl, hce⟩ := (hexact q (trimSources q full) t).2 ⟨hch, by
        rcases hend with h | h
        · left; omega
        · exact Or.inr ((haf q g1).2 h)⟩
      obtain ⟨s1, -, -⟩ := hsound i c hl
      have e : (c.bounds, c.data) = (q, trimSources q full) ∧ c.anc = t := by simpa [CellBox.chain] using hce
      refine ⟨i, c, hl, (Prod.ext_iff.1 e.1).1, ?_⟩
      rw [s1, e.2, ht]

end Generic

theorem inner_quarter {p q : Boundary} {b : Boundary} (hp : Inner b p) (hq : q ∈ quarters p) : Inner p q := by
  obtain ⟨k1, k2, -⟩ := hp
  exact quarter_within k1 k2 hq

/-- The boxes in a region that does not cross the antimeridian. -/
theorem inner_system {b : Boundary} {W H : ℚ} (hp : ProperGrid b W H) (hcr : b.longMin < b.longMax)
    (hacc : MeshBuilder.validateBounds b W H = .ok ()) : BoxSystem b W H (Inner b) (GridBox b W H) quarters where
  roots := fun _ hr => roots_iff hp hcr hacc hr
  first := fun _ hq => gridBox_proper hp hcr hq
  part_iff := fun _ _ h => partOf_iff h.1.1 h.2.1
  within := fun _ _ h hq => ⟨(inner_quarter h hq).trans h, (inner_quarter h hq).2.2⟩

end Verif
