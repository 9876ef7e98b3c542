import Verif.Model.Sources
import Verif.Props.LoaderInit

/-!
# C67: every source reaches every cell with its own conditions and data; C68: adding a data loader later
-/

namespace Verif
open Sources LoaderInit Verif.Spec

/-! ## Specification -/

/-- The source attached for one entry of the configuration: its loader and data, the configured conditions
for the name of its data in the configured order, and the configured fill type. -/
structure Spec.Attached {P S C : Type} (floatStr : String → Bool) (build : SourceCfg P C → Py (Loader S C × S)) (cfg : SourceCfg P C)
    (s : Source S C) : Prop where
  built : build cfg = .ok (s.loader, s.subset)
  conds : match cfg.conds with
    | none => s.conds = []
    | some l => s.conds.length = l.length ∧ ∀ (i : ℕ) (d : Dict String C) (c : C), l[i]? = some d → s.conds[i]? = some c → (s.loader.dataName, c) ∈ d
  parent : (cfg.fill = .absent ∨ cfg.fill = .str "parent") → s.fill = .parent
  number : ∀ x, cfg.fill = .num x → s.fill = .const (.num (some x))

theorem mapM_forall₂ {α β : Type} {f : α → Py β} : ∀ {l : List α} {r : List β}, l.mapM f = .ok r → List.Forall₂ (fun a b => f a = .ok b) l r
  | [], r, h => by
    rw [List.mapM_nil] at h; cases h; exact .nil
  | a :: l, r, h => by
    rw [List.mapM_cons] at h
    rcases ha : f a with e | b
    · rw [ha] at h; cases h
    · rcases hl : l.mapM f with e | r'
      · simp only [ha, hl, bind, Except.bind] at h; cases h
      · simp only [ha, hl, bind, Except.bind, pure, Except.pure] at h
        cases h
        exact .cons ha (mapM_forall₂ hl)

theorem get_mem {C : Type} {d : Dict String C} {k : String} {c : C} (h : d.get k = .ok c) : (k, c) ∈ d := by
  unfold Dict.get at h
  rcases hg : d.get? k with _ | c'
  · rw [hg] at h; cases h
  · rw [hg] at h; cases h
    induction d with
    | nil => cases hg
    | cons p d ih =>
      obtain ⟨k', v⟩ := p
      simp only [Dict.get?] at hg
      split_ifs at hg with e
      · cases hg; subst e; exact List.mem_cons_self
      · exact List.mem_cons_of_mem _ (ih hg)

/-- C67: the sources are attached in the configured order, each with its own loader, conditions and fill
type. -/
theorem C67_attached {P S C : Type} (floatStr : String → Bool) (build : SourceCfg P C → Py (Loader S C × S)) (cfgs : List (SourceCfg P C))
    (l : List (Source S C)) (h : initMetaData floatStr build cfgs = .ok l) : List.Forall₂ (Attached floatStr build) cfgs l := by
  refine (mapM_forall₂ h).imp ?_
  intro cfg s hs
  unfold initSource at hs
  rcases hb : build cfg with e | ⟨loader, data⟩
  · simp only [hb, bind, Except.bind] at hs; cases hs
  · rcases hc : (cfg.conds.getD []).mapM (fun d => d.get loader.dataName) with e | conds
    · simp only [hb, hc, bind, Except.bind] at hs; cases hs
    · rcases hf : checkValueFillType floatStr cfg.fill with e | fill
      · simp only [hb, hc, hf, bind, Except.bind] at hs; cases hs
      · simp only [hb, hc, hf, bind, Except.bind, pure, Except.pure] at hs
        cases hs
        refine ⟨hb, ?_, ?_, ?_⟩
        · rcases hcc : cfg.conds with _ | cs
          · rw [hcc, Option.getD_none, List.mapM_nil] at hc
            cases hc; rfl
          · rw [hcc, Option.getD_some] at hc
            have := mapM_forall₂ hc
            refine ⟨this.length_eq.symm, ?_⟩
            intro i d c hi hi'
            rw [List.forall₂_iff_get] at this
            obtain ⟨hlen, hget⟩ := this
            obtain ⟨h1, h1'⟩ := List.getElem?_eq_some_iff.1 hi
            obtain ⟨h2, h2'⟩ := List.getElem?_eq_some_iff.1 hi'
            have := hget i h1 h2
            simp only [List.get_eq_getElem, h1', h2'] at this
            exact get_mem this
        · rintro (he | he) <;> rw [he] at hf <;> simp [checkValueFillType] at hf <;> exact hf.symm
        · intro x he
          rw [he] at hf; simp [checkValueFillType] at hf; exact hf.symm

/-- C67: a condition for another data name than the loader's stops building with `KeyError`. -/
theorem C67_wrong_name {P S C : Type} (floatStr : String → Bool) (build : SourceCfg P C → Py (Loader S C × S)) (cfg : SourceCfg P C)
    (loader : Loader S C) (data : S) (hb : build cfg = .ok (loader, data)) (l l' : List (Dict String C)) (d : Dict String C)
    (hc : cfg.conds = some (l ++ d :: l')) (hl : ∀ d' ∈ l, ∃ c, d'.get? loader.dataName = some c) (hd : ∀ c, (loader.dataName, c) ∉ d) :
    initSource floatStr build cfg = .error .keyError := by
  have hnone : d.get loader.dataName = .error .keyError := by
    unfold Dict.get
    rcases hg : d.get? loader.dataName with _ | c
    · rfl
    · exact absurd (get_mem (by unfold Dict.get; rw [hg])) (hd c)
  have hm : ∀ l : List (Dict String C), (∀ d' ∈ l, ∃ c, d'.get? loader.dataName = some c) →
      (l ++ d :: l').mapM (fun d => d.get loader.dataName) = .error .keyError := by
    intro l
    induction l with
    | nil => intro _; rw [List.nil_append, List.mapM_cons, hnone]; rfl
    | cons a l ih =>
      intro h
      obtain ⟨c, hc⟩ := h a List.mem_cons_self
      rw [List.cons_append, List.mapM_cons, ih (fun d' hd' => h d' (List.mem_cons_of_mem _ hd'))]
      have : a.get loader.dataName = .ok c := by unfold Dict.get; rw [hc]
      rw [this]; rfl
  unfold initSource
  rw [hb, hc]
  simp only [bind, Except.bind, Option.getD_some]
  rw [hm l hl]

/-- A builder of loaders for examples: the data name is the parameter. -/
def exBuildSource (cfg : SourceCfg String Cond) : Py (Loader (Dataset (Option ℚ)) Cond × Dataset (Option ℚ)) :=
  .ok (scalarLoader 0 cfg.params .mean 1, exTable)

example : ∃ l, initMetaData (fun _ => false) exBuildSource [⟨"a", "SIC", some [[("SIC", ⟨1, 2, 3, false⟩)]], .num 5⟩, ⟨"b", "z", none, .absent⟩] = .ok l ∧
    l.map (fun s => (s.loader.dataName, s.conds, s.fill)) = [("SIC", [⟨1, 2, 3, false⟩], .const (.num (some 5))), ("z", [], .parent)] :=
  ⟨_, rfl, by decide +kernel⟩

/-! ## From the imported data to the cells -/

/-- C67, end to end: in every mesh reached by splitting (region not over the antimeridian), the data kept
for a cell and each source is what the imported data holds inside the cell, although it was cut down
first to the region and then to each of the ancestors of the cell. -/
theorem C67_data_partial {C : Type} {b : Boundary} {W H : ℚ} {depth : ℕ} {raw full : List (Source (Dataset (Option ℚ)) C)}
    {m : MeshState (List (Source (Dataset (Option ℚ)) C))} (hp : ProperGrid b W H) (hcr : b.longMin < b.longMax)
    (hcut : List.Forall₂ (fun r s => s.loader = r.loader ∧ cutDown Option.isNone b r.subset = .ok s.subset) raw full)
    (hl : ∀ r ∈ raw, TrimsDatapoints r.loader ∧ r.subset.Sorted ∧ ∃ d', r.subset.trim b = .ok d')
    (h : Reach (sourceOps (Dataset (Option ℚ)) C) b W H (fun q => trimSources q full) depth m) {i : ℕ}
    {c : CellBox (List (Source (Dataset (Option ℚ)) C))} (hc : Live m i c) :
    List.Forall₂ (fun r s => s.loader = r.loader ∧ r.subset.trim c.bounds = .ok s.subset) raw c.data := by
  have hist := (reach_history_noncrossing hp hcr h hc).1
  obtain ⟨hcp, hcw, hcc⟩ := hist.all.1
  have hpb : ProperBox b := ⟨hp.valid, hp.nondeg, by
    have h1 := hcp.2.2
    have h2 := hcw.1 _ _ (corner_covered hcp (.inr rfl) ⟨h1, le_refl _⟩)
    linarith [h2.2.1, h2.2.2]⟩
  have right : ∀ (d : Dataset (Option ℚ)) (q : Boundary), ProperBox q → q.longMin < q.longMax → TrimsRight d q := by
    intro d q h1 h2
    refine ⟨h1, ?_⟩
    cases d with
    | table t => exact h2
    | grid g => exact Or.inl h2
  -- what cutting down yields
  have cut : ∀ r s : Source (Dataset (Option ℚ)) C, r ∈ raw → cutDown Option.isNone b r.subset = .ok s.subset →
      s.subset.Sorted ∧ ∃ d', s.subset.trim b = .ok d' := by
    intro r s hr hs
    obtain ⟨-, h2, d', hd'⟩ := hl r hr
    unfold cutDown at hs
    rcases hcv : coverage Option.isNone b r.subset with e | q
    · rw [hcv] at hs; cases hs
    · simp only [hcv, bind, Except.bind, pure, Except.pure] at hs
      split_ifs at hs with h0
      · rw [← Except.ok.inj hs]; exact ⟨h2, d', hd'⟩
      · have e := trim_inv h2 hs
        refine ⟨by rw [e]; exact trimTo_sorted b h2, ?_⟩
        exact ⟨_, (C25_composes_partial r.subset h2 (right _ b hpb hcr) (right _ b hpb hcr) (.refl b) hs).2⟩
  have hfull : ∀ s ∈ full, TrimsDatapoints s.loader ∧ s.subset.Sorted ∧ ∃ d', s.subset.trim b = .ok d' := by
    intro s hs
    obtain ⟨k, hk, rfl⟩ := List.getElem_of_mem hs
    have hk' : k < raw.length := by rw [hcut.length_eq]; exact hk
    have := (List.forall₂_iff_get.1 hcut).2 k hk' hk
    simp only [List.get_eq_getElem] at this
    have hr := List.getElem_mem hk'
    refine ⟨?_, cut _ _ hr this.2⟩
    rw [this.1]; exact (hl _ hr).1
  obtain ⟨hdata, -, hok⟩ := C25_cached_partial hp hcr hfull h hc
  rw [hdata]
  unfold trimSources
  rw [List.forall₂_map_right_iff]
  rw [List.forall₂_iff_get] at hcut ⊢
  refine ⟨hcut.1, fun k h1 h2 => ?_⟩
  obtain ⟨e1, e2⟩ := hcut.2 k h1 h2
  simp only [List.get_eq_getElem] at e1 e2 ⊢
  refine ⟨e1, ?_⟩
  obtain ⟨d', k1, k2⟩ := hok _ (List.getElem_mem h2)
  rw [k2, ← k1]
  exact (C65_lossless_partial Option.isNone _ _ (hl _ (List.getElem_mem h1)).2.1 (right _ b hpb hcr) (right _ _ hcp hcc) hcw e2).symm

/-- C67, end to end over the antimeridian, for gridded data with longitudes in the usual domain: the same for every region that is not all the way
round from a meridian to itself, and cells narrower than a full circle. -/
theorem C67_data_crossing_grid {C : Type} {b : Boundary} {W H : ℚ} {depth : ℕ} {raw full : List (Source (Dataset (Option ℚ)) C)}
    {m : MeshState (List (Source (Dataset (Option ℚ)) C))} (hp : ProperGrid b W H) (hne : b.longMin ≠ b.longMax) (hW : W < 360)
    (hcut : List.Forall₂ (fun r s => s.loader = r.loader ∧ cutDown Option.isNone b r.subset = .ok s.subset) raw full)
    (hl : ∀ r ∈ raw, TrimsDatapoints r.loader ∧ (∃ g, r.subset = .grid g ∧ ∀ x ∈ g.longs, -180 < x ∧ x ≤ 180) ∧ r.subset.Sorted ∧
      ∃ d', r.subset.trim b = .ok d')
    (h : Reach (sourceOps (Dataset (Option ℚ)) C) b W H (fun q => trimSources q full) depth m) {i : ℕ}
    {c : CellBox (List (Source (Dataset (Option ℚ)) C))} (hc : Live m i c) :
    List.Forall₂ (fun r s => s.loader = r.loader ∧ r.subset.trim c.bounds = .ok s.subset) raw c.data := by
  have hist := (reach_history hp h hc).1
  obtain ⟨hcp, hcw, hcc⟩ := hist.all.1
  have hpb : ProperBox b := ⟨hp.valid, hp.nondeg, by
    have h1 := hcp.2.2
    have hcpos := (C04_geometry_partial _ hcp.1 hcp.2.1).1.1
    have hwe := Boundary.width_eq c.bounds
    have h2 := hcw.1 (eastEdge c.bounds) _ ⟨⟨0, by push_cast; linarith, by push_cast; linarith⟩, h1, le_refl _⟩
    linarith [h2.2.1, h2.2.2]⟩
  have hcne : c.bounds.longMin ≠ c.bounds.longMax := by
    intro e
    have hwe := Boundary.width_eq c.bounds
    unfold eastEdge at hwe
    rw [if_neg (by rw [e]; exact lt_irrefl _), e] at hwe
    linarith
  have right : ∀ r ∈ raw, ∀ q : Boundary, ProperBox q → q.longMin ≠ q.longMax → TrimsRight r.subset q := by
    intro r hr q h1 h2
    obtain ⟨g, hg, hx⟩ := (hl r hr).2.1
    rw [hg]
    exact ⟨h1, Or.inr ⟨hx, h2⟩⟩
  -- what cutting down yields
  have cut : ∀ r s : Source (Dataset (Option ℚ)) C, r ∈ raw → cutDown Option.isNone b r.subset = .ok s.subset →
      (∃ g, s.subset = .grid g ∧ ∀ x ∈ g.longs, -180 < x ∧ x ≤ 180) ∧ s.subset.Sorted ∧ ∃ d', s.subset.trim b = .ok d' := by
    intro r s hr hs
    obtain ⟨-, ⟨g, hg, hx⟩, h2, d', hd'⟩ := hl r hr
    unfold cutDown at hs
    rcases hcv : coverage Option.isNone b r.subset with e | q
    · rw [hcv] at hs; cases hs
    · simp only [hcv, bind, Except.bind, pure, Except.pure] at hs
      split_ifs at hs with h0
      · rw [← Except.ok.inj hs]; exact ⟨⟨g, hg, hx⟩, h2, d', hd'⟩
      · have e := trim_inv h2 hs
        refine ⟨?_, by rw [e]; exact trimTo_sorted b h2, ?_⟩
        · rw [hg] at e
          exact ⟨_, e, fun x hm => hx x (by unfold Grid.trimTo at hm; exact List.mem_of_mem_filter hm)⟩
        · exact ⟨_, (C25_composes_partial r.subset h2 (right r hr b hpb hne) (right r hr b hpb hne) (.refl b) hs).2⟩
  have hfull : ∀ s ∈ full, TrimsDatapoints s.loader ∧ (∃ g, s.subset = .grid g ∧ ∀ x ∈ g.longs, -180 < x ∧ x ≤ 180) ∧ s.subset.Sorted ∧
      ∃ d', s.subset.trim b = .ok d' := by
    intro s hs
    obtain ⟨k, hk, rfl⟩ := List.getElem_of_mem hs
    have hk' : k < raw.length := by rw [hcut.length_eq]; exact hk
    have := (List.forall₂_iff_get.1 hcut).2 k hk' hk
    simp only [List.get_eq_getElem] at this
    have hr := List.getElem_mem hk'
    refine ⟨?_, cut _ _ hr this.2⟩
    rw [this.1]; exact (hl _ hr).1
  obtain ⟨hdata, -⟩ := C25_cached_crossing_grid hp hW hfull h hc
  rw [hdata]
  unfold trimSources
  rw [List.forall₂_map_right_iff]
  rw [List.forall₂_iff_get] at hcut ⊢
  refine ⟨hcut.1, fun k h1 h2 => ?_⟩
  obtain ⟨e1, e2⟩ := hcut.2 k h1 h2
  simp only [List.get_eq_getElem] at e1 e2 ⊢
  refine ⟨e1, ?_⟩
  have hr := List.getElem_mem h1
  have hs := hl _ hr
  have hex : ∃ d', raw[k].subset.trim c.bounds = .ok d' := by
    obtain ⟨d', hd'⟩ := hs.2.2.2
    exact ⟨_, trim_eq hs.2.2.1 (by rw [timeLimits_congr hcw.2]; exact trim_time hd')⟩
  obtain ⟨d', hd'⟩ := hex
  have hloss := C65_lossless_partial Option.isNone _ _ hs.2.2.1 (right _ hr b hpb hne) (right _ hr _ hcp hcne) hcw e2
  rw [hd'] at hloss
  rw [hd', (hfull _ (List.getElem_mem h2)).1 _ _ _ hloss]

/-- A source for examples, with the given data. -/
def exSource1 (d : Dataset (Option ℚ)) : Source (Dataset (Option ℚ)) Cond := ⟨scalarLoader 0 "a" .mean 5, [⟨1, 0, 1, false⟩], .parent, d⟩

/-- A mesh over data cut down to the region, with one cell split. -/
def exCutMesh : Py (MeshState (List (Source (Dataset (Option ℚ)) Cond))) := do
  let m ← MeshBuilder.init exRegion 10 5 (fun q => trimSources q [exSource1 (exTable.trimTo exRegion)]) 3
  MeshBuilder.splitAndReplace (sourceOps (Dataset (Option ℚ)) Cond) m 0

theorem exCut : cutDown Option.isNone exRegion exTable = .ok (exTable.trimTo exRegion) := by
  have h : (do let q ← coverage Option.isNone exRegion exTable; return decide (q = 0) : Py Bool) = .ok false := by decide +kernel
  unfold cutDown
  rcases hq : coverage Option.isNone exRegion exTable with e | q
  · rw [hq] at h; cases h
  · simp only [hq, bind, Except.bind, pure, Except.pure, Except.ok.injEq, decide_eq_false_iff_not] at h ⊢
    rw [if_neg h]
    exact trim_eq (d := exTable) trivial (by intro h; cases h)

example : ∃ (m : MeshState (List (Source (Dataset (Option ℚ)) Cond))) (c : CellBox (List (Source (Dataset (Option ℚ)) Cond))),
    Live m 5 c ∧ List.Forall₂ (fun r s => s.loader = r.loader ∧ r.subset.trim c.bounds = .ok s.subset) [exSource1 exTable] c.data := by
  have h : (exCutMesh.toOption.bind (fun m => m.cells[5]?.bind id)).isSome = true := by decide +kernel
  unfold exCutMesh at h
  simp only [bind, Except.bind] at h
  cases h0 : MeshBuilder.init exRegion 10 5 (fun q => trimSources q [exSource1 (exTable.trimTo exRegion)]) 3 with
  | error e => rw [h0] at h; cases h
  | ok m0 =>
    rw [h0] at h
    cases h1 : MeshBuilder.splitAndReplace (sourceOps (Dataset (Option ℚ)) Cond) m0 0 with
    | error e => simp only [h1] at h; cases h
    | ok m1 =>
      simp only [h1, Except.toOption, Option.bind_some] at h
      obtain ⟨c, hc⟩ := Option.isSome_iff_exists.1 h
      obtain ⟨o, ho, hoc⟩ := Option.bind_eq_some_iff.1 hc
      have hl : Live m1 5 c := by
        unfold Live
        rw [ho]
        exact congrArg some hoc
      refine ⟨m1, c, hl, C67_data_partial (raw := [exSource1 exTable]) (W := 10) (H := 5) (depth := 3) (full := [exSource1 (exTable.trimTo exRegion)])
        exRegion_proper (by norm_num [exRegion]) (.cons ⟨rfl, exCut⟩ .nil) ?_ ⟨m0, h0, .step 0 (.refl m0) h1⟩ hl⟩
      intro s hs
      simp only [List.mem_cons, List.not_mem_nil, or_false] at hs
      subst hs
      exact ⟨scalarLoader_trims _ _ _ _, trivial, _, trim_eq (d := exTable) trivial (by intro h; cases h)⟩

/-- A region over the antimeridian for examples. -/
def exCrossedRegion : Boundary := ⟨0, 20, 175, -165, []⟩

/-- A mesh over the antimeridian over gridded data cut down to the region, with one cell split. -/
def exCrossedMesh : Py (MeshState (List (Source (Dataset (Option ℚ)) Cond))) := do
  let m ← MeshBuilder.init exCrossedRegion 10 10 (fun q => trimSources q [exSource1 ((Dataset.grid exGrid).trimTo exCrossedRegion)]) 3
  MeshBuilder.splitAndReplace (sourceOps (Dataset (Option ℚ)) Cond) m 0

theorem exCrossedCut : cutDown Option.isNone exCrossedRegion (.grid exGrid) = .ok ((Dataset.grid exGrid).trimTo exCrossedRegion) := by
  have h : (do let q ← coverage Option.isNone exCrossedRegion (.grid exGrid); return decide (q = 0) : Py Bool) = .ok false := by decide +kernel
  unfold cutDown
  rcases hq : coverage Option.isNone exCrossedRegion (.grid exGrid) with e | q
  · rw [hq] at h; cases h
  · simp only [hq, bind, Except.bind, pure, Except.pure, Except.ok.injEq, decide_eq_false_iff_not] at h ⊢
    rw [if_neg h]
    exact trim_eq exGrid_sorted (by intro h; cases h)

/-- The hypotheses hold for a cell of that mesh, which has datapoints. -/
example : ∃ (m : MeshState (List (Source (Dataset (Option ℚ)) Cond))) (c : CellBox (List (Source (Dataset (Option ℚ)) Cond))),
    Live m 4 c ∧ c.data.map (fun s => s.subset.rows.length) = [1] ∧
      List.Forall₂ (fun r s => s.loader = r.loader ∧ r.subset.trim c.bounds = .ok s.subset) [exSource1 (.grid exGrid)] c.data := by
  have h : (exCrossedMesh.toOption.bind (fun m => (m.cells[4]?.bind id).map (fun c => c.data.map (fun s => s.subset.rows.length)))) = some [1] := by
    decide +kernel
  unfold exCrossedMesh at h
  simp only [bind, Except.bind] at h
  cases h0 : MeshBuilder.init exCrossedRegion 10 10 (fun q => trimSources q [exSource1 ((Dataset.grid exGrid).trimTo exCrossedRegion)]) 3 with
  | error e => rw [h0] at h; cases h
  | ok m0 =>
    rw [h0] at h
    cases h1 : MeshBuilder.splitAndReplace (sourceOps (Dataset (Option ℚ)) Cond) m0 0 with
    | error e => simp only [h1] at h; cases h
    | ok m1 =>
      simp only [h1, Except.toOption, Option.bind_some, Option.map_eq_some_iff] at h
      obtain ⟨c, hc, hrows⟩ := h
      obtain ⟨o, ho, hoc⟩ := Option.bind_eq_some_iff.1 hc
      have hl : Live m1 4 c := by
        unfold Live
        rw [ho]
        exact congrArg some hoc
      refine ⟨m1, c, hl, hrows, C67_data_crossing_grid (raw := [exSource1 (.grid exGrid)]) (W := 10) (H := 10) (depth := 3)
        (full := [exSource1 ((Dataset.grid exGrid).trimTo exCrossedRegion)])
        ⟨by norm_num [Valid, exCrossedRegion], by norm_num [exCrossedRegion], by norm_num, by norm_num, ?_⟩ (by norm_num [exCrossedRegion]) (by norm_num)
        (.cons ⟨rfl, exCrossedCut⟩ .nil) ?_ ⟨m0, h0, .step 0 (.refl m0) h1⟩ hl⟩
      · intro h
        exact absurd h (by decide +kernel)
      · intro s hs
        simp only [List.mem_cons, List.not_mem_nil, or_false] at hs
        subst hs
        exact ⟨scalarLoader_trims _ _ _ _, ⟨_, rfl, exGrid_longs⟩, exGrid_sorted, _, trim_eq exGrid_sorted (by intro h; cases h)⟩

/-! ## C68: adding a data loader to a mesh -/

/-- C68 (partial): adding a loader changes no cell's place and no other source.  Missing: that cells can be aggregated and split
afterwards, which is false (`C68_aggregate_false`, `C68_split_false`). -/
theorem C68_others_partial (m : MeshState (List (Source Subset Cond))) (loader : Loader Subset Cond) (whole : Dataset (Option ℚ)) (conds : List Cond)
    (fill : Fill) : (addDataloader m loader whole conds fill).graph = m.graph ∧ (addDataloader m loader whole conds fill).bounds = m.bounds ∧
      ∀ i c, Live (addDataloader m loader whole conds fill) i c → ∃ c0, Live m i c0 ∧ c.bounds = c0.bounds ∧ c.id = c0.id ∧
        ∃ s, c.data = c0.data ++ [s] ∧ s.loader = loader ∧ s.conds = conds := by
  refine ⟨rfl, rfl, ?_⟩
  intro i c h
  unfold Live addDataloader at h
  simp only [List.getElem?_map, Option.map_eq_some_iff] at h
  obtain ⟨o, h1, h2⟩ := h
  obtain ⟨c0, rfl, rfl⟩ := h2
  exact ⟨c0, h1, rfl, rfl, _, rfl, rfl, rfl⟩

/-- C68 fails: after a scalar loader was added, no cell of the mesh can be aggregated. -/
theorem C68_aggregate_false (m : MeshState (List (Source Subset Cond))) (id : ℕ) (name : String) (agg : AggType) (minDp : ℕ)
    (whole : Dataset (Option ℚ)) (conds : List Cond) (fill : Fill) (i : ℕ) (c : CellBox (List (Source Subset Cond)))
    (hc : Live (addDataloader m (columnLoader id name agg minDp whole) whole conds fill) i c) : ∃ e, aggregate c = .error e := by
  unfold Live addDataloader at hc
  simp only [List.getElem?_map, Option.map_eq_some_iff] at hc
  obtain ⟨o, h1, h2⟩ := hc
  obtain ⟨c0, rfl, rfl⟩ := h2
  unfold aggregate
  rw [List.foldlM_append]
  rcases List.foldlM (aggregateStep c0.bounds c0.anc) [] c0.data with e | acc
  · exact ⟨e, rfl⟩
  · exact ⟨.typeError, rfl⟩

/-- A mesh of one cell with one source for examples. -/
def exAdded (d : Dataset (Option ℚ)) : MeshState (List (Source Subset Cond)) :=
  addDataloader ⟨⟨0, 10, 0, 10, []⟩, [some ⟨⟨0, 10, 0, 10, []⟩, 0, 0, [], []⟩], ⟨[(0, fun _ => [])], false⟩, 3⟩ (columnLoader 0 "a" .mean 5 d) d
    [⟨1, 0, 1, false⟩] .parent

example : ∃ c, Live (exAdded exTable) 0 c ∧ c.data.length = 1 := ⟨_, rfl, rfl⟩

/-- C68 fails: when the added loader has a splitting condition (and the earlier sources can be checked), no
cell's need to split can be decided any more. -/
theorem C68_split_false (m : MeshState (List (Source Subset Cond))) (id : ℕ) (name : String) (agg : AggType) (minDp : ℕ)
    (whole : Dataset (Option ℚ)) (cond : Cond) (conds : List Cond) (fill : Fill) (i : ℕ) (c : CellBox (List (Source Subset Cond)))
    (hc : Live (addDataloader m (columnLoader id name agg minDp whole) whole (cond :: conds) fill) i c) :
    ∃ e, shouldSplitBreadthFirst c.bounds c.data = .error e := by
  unfold Live addDataloader at hc
  simp only [List.getElem?_map, Option.map_eq_some_iff] at hc
  obtain ⟨o, h1, h2⟩ := hc
  obtain ⟨c0, rfl, rfl⟩ := h2
  have key : ∀ l : List (Source Subset Cond), ∃ e, verdictsOf c0.bounds
      (l ++ [⟨columnLoader id name agg minDp whole, cond :: conds, fill, .column whole.vals⟩]) = .error e := by
    intro l
    induction l with
    | nil =>
      refine ⟨.keyError, ?_⟩
      rw [List.nil_append]
      unfold verdictsOf Source.verdicts
      rw [List.mapM_cons]
      rfl
    | cons a l ih =>
      obtain ⟨e, he⟩ := ih
      rw [List.cons_append, verdictsOf]
      rcases a.verdicts c0.bounds with e' | v
      · exact ⟨e', rfl⟩
      · rw [he]; exact ⟨e, rfl⟩
  obtain ⟨e, he⟩ := key c0.data
  exact ⟨e, by unfold shouldSplitBreadthFirst; rw [he]; rfl⟩

end Verif
