import Verif.Model.Params
import Verif.Props.ParamsKept
import Verif.Props.EnvMerge

/-!
# C99: what the commands `create_mesh`, `rebuild_mesh` and `merge_mesh` write
-/

namespace Verif
open Params Config TimeStr

variable {L R : Type}

/-- A command that writes one file: where it fails nothing is changed, and otherwise only the output, which then is a JSON value. -/
def Spec.WritesOnly (command : Files → Files × Py Unit) (output : String) : Prop :=
  ∀ files, (∃ e, command files = (files, .error e)) ∨
    (command files).2 = .ok () ∧ (∃ j, Dict.get? (command files).1 output = some (some j)) ∧ ∀ k, k ≠ output → Dict.get? (command files).1 k = Dict.get? files k

theorem write_only (output : String) (result : Files → Py JVal) : Spec.WritesOnly (fun files => write files output (result files)) output := by
  intro files
  cases hr : result files with
  | error e => exact Or.inl ⟨e, by simp only [write, hr]⟩
  | ok j =>
    refine Or.inr ⟨by simp only [write, hr], ⟨j, ?_⟩, fun k hk => ?_⟩
    · simp only [write, hr, Dict.get?_set, if_true]
    · simp only [write, hr, Dict.get?_set, if_neg (Ne.symm hk)]

/-- C99: each of the commands changes no file but its output, and none where it fails.  Without an output they use a name of their own. -/
theorem C99_files (w : World L R) (r : R) (read : List Char → Py JVal) (new pad : Bool) (now : ℚ) (parse : JVal → Py MeshJson) (print : MeshJson → JVal)
    (input : String) (arg : MergeArg) :
    (∀ o, Spec.WritesOnly (createCli w r read new pad now input (some o)) o) ∧
      (∀ o, Spec.WritesOnly (rebuildCli w r read new pad now input (some o)) o) ∧ (∀ o, Spec.WritesOnly (mergeCli parse print input arg (some o)) o) ∧
      Spec.WritesOnly (createCli w r read new pad now input none) "create_mesh.output.json" ∧
      Spec.WritesOnly (rebuildCli w r read new pad now input none) "rebuild_mesh.output.json" ∧
      Spec.WritesOnly (mergeCli parse print input arg none) "merged_mesh.output.json" :=
  ⟨fun _ => write_only _ _, fun _ => write_only _ _, fun _ => write_only _ _, write_only _ _, write_only _ _, write_only _ _⟩

/-- C99: a mesh that was created and is rebuilt, from its file and on any later day, whatever has been added to the folders, is written as the same JSON, if no
source has both a file and a folder and every random field has a seed. -/
theorem C99_create_rebuild (w : World L R) (listing' : List Char → List (List Char)) (r r' : R) (read read' : List Char → Py JVal) (new new' pad : Bool)
    (now now' : ℚ) (hn : 1 ≤ ⌊now⌋) (hn' : ⌊now⌋ ≤ maxOrdinal) (config : String) (o o' : String) (files files' files'' : Files) (c : JVal)
    (hc : Dict.get? files config = some (some c)) (h : createCli w r read new pad now config (some o) files = (files', .ok ()))
    (hs : ∀ ds, getItem c "data_sources" = .ok (.arr ds) → ∀ s ∈ ds, Spec.Repeatable s) (hf : Dict.get? files'' o = Dict.get? files' o) :
    ∃ j, Dict.get? files' o = some (some j) ∧
      rebuildCli { w with listing := listing' } r' read' new' pad now' o (some o') files'' = (Dict.set files'' o' (some j), .ok ()) := by
  unfold createCli write load at h
  simp only [hc, bind, Except.bind, pure, Except.pure] at h
  cases hb : build w r read new pad now c with
  | error e => simp [hb] at h
  | ok x =>
    obtain ⟨cells, graph, c'⟩ := x
    simp only [hb, Option.getD_some] at h
    injection h with h h'
    have ho : Dict.get? files' o = some (some (meshJson cells graph c')) := by rw [← h, Dict.get?_set, if_pos rfl]
    refine ⟨_, ho, ?_⟩
    have hb' := C98_rebuild w listing' r r' read read' new new' pad now now' hn hn' c cells graph c' hb hs
    have g1 : getItem (meshJson cells graph c') "config" = .ok (.obj [("mesh_info", c')]) := rfl
    have g2 : getItem (.obj [("mesh_info", c')]) "mesh_info" = .ok c' := rfl
    unfold rebuildCli write load
    simp only [hf, ho, bind, Except.bind, g1, g2, hb', pure, Except.pure, Option.getD_some]

/-- C99: merging succeeds exactly if all meshes can be read and merged one after the other, in the order in which they are listed, and writes the result. -/
theorem C99_merge (parse : JVal → Py MeshJson) (print : MeshJson → JVal) (mesh : String) (arg : MergeArg) (o : String) (files files' : Files) :
    mergeCli parse print mesh arg (some o) files = (files', .ok ()) ↔
      ∃ m ms m', loadMesh parse files mesh = .ok m ∧ List.Forall₂ (fun name m2 => loadMesh parse files name = .ok m2) arg.names ms ∧
        EnvMesh.mergeAll m ms = .ok m' ∧ files' = Dict.set files o (some (print m'.toJson)) := by
  have hfold : ∀ (names : List String) (m m' : EnvMesh),
      names.foldlM (fun m name => do return (← EnvMesh.mergeMesh m (← loadMesh parse files name)).1) m = (Except.ok m' : Py EnvMesh) ↔
        ∃ ms, List.Forall₂ (fun name m2 => loadMesh parse files name = .ok m2) names ms ∧ EnvMesh.mergeAll m ms = .ok m' := by
    intro names
    induction names with
    | nil =>
      intro m m'
      constructor
      · intro h; exact ⟨[], .nil, h⟩
      · rintro ⟨ms, hm, h⟩; cases hm; exact h
    | cons n names ih =>
      intro m m'
      rw [List.foldlM_cons]
      simp only [bind, Except.bind, pure, Except.pure] at ih ⊢
      constructor
      · intro h
        cases hl : loadMesh parse files n with
        | error e => simp [hl] at h
        | ok m2 =>
          simp only [hl] at h
          cases hmm : EnvMesh.mergeMesh m m2 with
          | error e => simp [hmm] at h
          | ok x =>
            simp only [hmm] at h
            obtain ⟨ms, hms, hall⟩ := (ih _ _).1 h
            refine ⟨m2 :: ms, .cons hl hms, ?_⟩
            unfold EnvMesh.mergeAll at hall ⊢
            rw [List.foldlM_cons, hmm]
            exact hall
      · rintro ⟨ms, hm, h⟩
        cases hm with
        | @cons _ m2 _ ms hl hms =>
          unfold EnvMesh.mergeAll at h
          rw [List.foldlM_cons] at h
          cases hmm : EnvMesh.mergeMesh m m2 with
          | error e => rw [hmm] at h; cases h
          | ok x =>
            rw [hmm] at h
            simp only [hl, hmm]
            exact (ih _ _).2 ⟨ms, hms, h⟩
  unfold mergeCli write
  cases hm : loadMesh parse files mesh with
  | error e => simp [bind, Except.bind]
  | ok m =>
    cases hfo : arg.names.foldlM (fun m name => do return (← EnvMesh.mergeMesh m (← loadMesh parse files name)).1) m with
    | error e =>
      have : (do
          let m ← (Except.ok m : Py EnvMesh)
          let m ← arg.names.foldlM (fun m name => do return (← EnvMesh.mergeMesh m (← loadMesh parse files name)).1) m
          return print m.toJson) = (Except.error e : Py JVal) := by
        show (do
          let m ← arg.names.foldlM (fun m name => do return (← EnvMesh.mergeMesh m (← loadMesh parse files name)).1) m
          return print m.toJson) = (Except.error e : Py JVal)
        rw [hfo]; rfl
      rw [this]
      constructor
      · intro h; simp at h
      · rintro ⟨m0, ms, m', e1, hms, hall, -⟩
        cases e1
        have := (hfold _ _ _).2 ⟨ms, hms, hall⟩
        rw [hfo] at this; cases this
    | ok m' =>
      have : (do
          let m ← (Except.ok m : Py EnvMesh)
          let m ← arg.names.foldlM (fun m name => do return (← EnvMesh.mergeMesh m (← loadMesh parse files name)).1) m
          return print m.toJson) = (Except.ok (print m'.toJson) : Py JVal) := by
        show (do
          let m ← arg.names.foldlM (fun m name => do return (← EnvMesh.mergeMesh m (← loadMesh parse files name)).1) m
          return print m.toJson) = (Except.ok (print m'.toJson) : Py JVal)
        rw [hfo]; rfl
      rw [this]
      constructor
      · intro h
        simp only [Option.getD_some, Prod.mk.injEq, and_true] at h
        obtain ⟨ms, hms, hall⟩ := (hfold _ _ _).1 hfo
        exact ⟨m, ms, m', rfl, hms, hall, h.symm⟩
      · rintro ⟨m0, ms, m1, e1, hms, hall, e⟩
        cases e1
        have := (hfold _ _ _).2 ⟨ms, hms, hall⟩
        rw [hfo] at this
        injection this with this
        rw [e, this]
        rfl

/-! ## Merged meshes and other additions to the configuration -/

theorem set_comm_present {V : Type} : ∀ {d : Dict String V} {k k' : String} {v x : V}, (Dict.get? d k').isSome → k ≠ k' →
    Dict.set (Dict.set d k v) k' x = Dict.set (Dict.set d k' x) k v
  | [], _, _, _, _, h, _ => by simp at h
  | (a, y) :: r, k, k', v, x, h, hk => by
    by_cases e : a = k
    · subst e
      rw [show Dict.set ((a, y) :: r) a v = (a, v) :: r by simp [Dict.set]]
      simp [Dict.set, hk]
    · by_cases e' : a = k'
      · subst e'
        simp [Dict.set, e]
      · have h' : (Dict.get? r k').isSome := by simpa [Dict.get?, e'] using h
        simp [Dict.set, e, e', set_comm_present h' hk]

/-- C99: further keys beside the region, the sources and the splitting make no difference to a mesh and are kept.  So rebuilding a merged mesh, whose
configuration lists the meshes merged into it under `merged`, gives the mesh before merging, with that list. -/
theorem C99_extra (w : World L R) (r : R) (read : List Char → Py JVal) (new pad : Bool) (now : ℚ) (hn : 1 ≤ ⌊now⌋) (hn' : ⌊now⌋ ≤ maxOrdinal)
    (top : List (String × JVal)) (cells graph c' : JVal) (h : build w r read new pad now (.obj top) = .ok (cells, graph, c'))
    (k : String) (v : JVal) (hk : k ∉ ["region", "data_sources", "splitting"]) :
    ∃ top', c' = .obj top' ∧ build w r read new pad now (.obj (Dict.set top k v)) = .ok (cells, graph, .obj (Dict.set top' k v)) := by
  simp only [List.mem_cons, List.not_mem_nil, or_false, not_or] at hk
  obtain ⟨k1, k2, k3⟩ := hk
  obtain ⟨b, W, H, top1, minDp, depth, ds, out, hp, hds, hds1, hm1, hmin, hdep, hout, hg, rfl⟩ := build_ok hn hn' h
  refine ⟨_, rfl, ?_⟩
  have hp2 : prepare read new pad now (.obj (Dict.set top k v)) = .ok (b, W, H, .obj (Dict.set top1 k v)) := by
    obtain ⟨top0, d, t0, t1, ds0, p, q, n0, n1, e, hd, hm, -, -, -, -, -, -, -, -, -, -⟩ := prepare_ok hn hn' hp
    cases e
    have hv : validateMeshConfig read new (.obj top) = .ok () := by
      cases hv : validateMeshConfig read new (.obj top) with
      | error e => simp [prepare, hv, bind, Except.bind] at hp
      | ok u => rfl
    have hmk : ∀ x ds p q, Spec.MeshConfig (.obj top) x ds p q → Spec.MeshConfig (.obj (Dict.set top k v)) x ds p q := by
      rintro x ds p q ⟨t, e, ⟨rg, er, hr⟩, e2, h10, sp, es, hsp⟩
      cases e
      exact ⟨_, rfl, ⟨rg, by rw [Dict.get?_set, if_neg k1, er], hr⟩, by rw [Dict.get?_set, if_neg k2, e2], h10, sp,
        by rw [Dict.get?_set, if_neg k3, es], hsp⟩
    have hv2 : validateMeshConfig read new (.obj (Dict.set top k v)) = .ok () := by
      obtain ⟨y0, y1, x0, x1, W', H', t0, t1, ds, p, q, hm1, ht0, ht1, hh, hw⟩ := (C83_accepted _ _ _).1 hv
      exact (C83_accepted _ _ _).2 ⟨y0, y1, x0, x1, W', H', t0, t1, ds, p, q, hmk _ _ _ _ hm1, ht0, ht1, hh, hw⟩
    have hm2 := hmk _ _ _ _ hm
    have hd2 : Dict.get? (Dict.set top k v) "region" = some (.obj d) := by rw [Dict.get?_set, if_neg k1, hd]
    have hfj : fromJson pad now (.obj (Dict.set top k v)) = fromJson pad now (.obj top) := (fromJson_eq hm2).trans (fromJson_eq hm).symm
    rw [prepare_eq hm hd hv] at hp
    rw [prepare_eq hm2 hd2 hv2, hfj]
    simp only [bind, Except.bind, pure, Except.pure] at hp ⊢
    split at hp
    · cases hp
    · split at hp
      · cases hp
      · split at hp
        · cases hp
        · split at hp
          · cases hp
          · injection hp with hp
            simp only [Prod.mk.injEq, JVal.obj.injEq, true_and] at hp
            obtain ⟨rfl, hp⟩ := hp
            rw [set_comm_present (by rw [hd]; rfl) k1, hp]
  have hget : Dict.get? (Dict.set top1 k v) "data_sources" = some (.arr ds) := by rw [Dict.get?_set, if_neg k2, hds1]
  have hsp : ∀ k0 df, splittingOr (.obj (Dict.set top1 k v)) k0 df = splittingOr (.obj top1) k0 df := by
    intro k0 df
    have e : Dict.get? (Dict.set top1 k v) "splitting" = Dict.get? top1 "splitting" := by rw [Dict.get?_set, if_neg k3]
    simp only [splittingOr, hasKey, getItem, Dict.get, e]
    rfl
  have hi : initSources w r b minDp (.obj (Dict.set top1 k v)) = .ok (out.map Prod.fst, .obj (Dict.set (Dict.set top1 "data_sources" (.arr (out.map Prod.snd))) k v)) := by
    unfold initSources
    have hk' : hasKey (.obj (Dict.set top1 k v)) "data_sources" = true := by simp [hasKey, hget]
    simp only [hk', if_true, getItem, Dict.get, hget, bind, Except.bind, hout, pure, Except.pure, setItem]
    rw [set_comm_present (by rw [hds1]; rfl) k2]
  have hdep2 : splittingOr (.obj (Dict.set (Dict.set top1 "data_sources" (.arr (out.map Prod.snd))) k v)) "split_depth" 0 = .ok depth := by
    rw [← hdep, ← hsp, ← splittingOr_other (Dict.set top1 k v) (.arr (out.map Prod.snd)), set_comm_present (by rw [hds1]; rfl) k2]
  unfold build
  simp only [hp2, bind, Except.bind, hsp, hmin, hi, hdep2, hg, pure, Except.pure]

/-! ## Which tests are run -/

/-- C99: `meshiphi_test` runs regression tests unless only unit tests are asked for, and unit tests unless only regression tests are asked for, so at least one kind
always; with two branches the first is compared with the second, and with one the current branch with it. -/
theorem C99_tests (a : String) (b : Option String) (regression unit : Bool) :
    ((testArgs a b regression unit).2.2.1 = true ↔ ¬ (unit = true ∧ regression = false)) ∧
      ((testArgs a b regression unit).2.2.2 = true ↔ ¬ (regression = true ∧ unit = false)) ∧
      ((testArgs a b regression unit).2.2.1 = true ∨ (testArgs a b regression unit).2.2.2 = true) ∧
      (∀ x, b = some x → (testArgs a b regression unit).1 = some a ∧ (testArgs a b regression unit).2.1 = x) ∧
      (b = none → (testArgs a b regression unit).1 = none ∧ (testArgs a b regression unit).2.1 = a) := by
  cases b <;> cases regression <;> cases unit <;> simp [testArgs]

/-! ## Examples -/

/-- A run of `create_mesh` to which `C99_create_rebuild` and `C99_extra` apply. -/
example (read : List Char → Py JVal) (new : Bool) : ∃ files', createCli (exWorld exListing) 0 read new false (739544 + 1/2) "config.json" (some "mesh.json")
    [("config.json", some (exBuildConfig "TODAY".toList "TODAY + 3".toList [exSource "GEBCO" [("folder", text "d")]]))] = (files', .ok ()) := by
  obtain ⟨x, hx⟩ : ∃ x, build (exWorld exListing) 0 read new false (739544 + 1/2)
      (exBuildConfig "TODAY".toList "TODAY + 3".toList [exSource "GEBCO" [("folder", text "d")]]) = .ok x :=
    ⟨_, exBuildRun true (exWorld exListing) 0 read new _ _ (exSource_source "GEBCO" [("folder", text "d")]) rfl rfl⟩
  refine ⟨Dict.set [("config.json", some (exBuildConfig "TODAY".toList "TODAY + 3".toList [exSource "GEBCO" [("folder", text "d")]]))] "mesh.json" (some (meshJson x.1 x.2.1 x.2.2)), ?_⟩
  unfold createCli write load
  simp only [Dict.get?, if_true, bind, Except.bind, pure, Except.pure, hx]
  rfl

/-- Two files that are taken as the meshes of the example of C38. -/
def exParse : JVal → Py MeshJson
  | .int 0 => (exBuild exRegion 10 5 [2]).map EnvMesh.toJson
  | .int 1 => (exBuild exSmall 5 5 [0]).map EnvMesh.toJson
  | _ => .error .keyError

/-- Runs of `merge_mesh` to which `C99_merge` applies, with a file and with a directory; a directory with another file in it makes it fail. -/
example : ((mergeCli exParse (fun j => .int j.cellboxes.length) "a.json" (.file "b.json") none [("a.json", some (.int 0)), ("b.json", some (.int 1))]).2).toOption =
      some () ∧
    ((mergeCli exParse (fun j => .int j.cellboxes.length) "a.json" (.directory ["b.json"]) none [("a.json", some (.int 0)), ("b.json", some (.int 1))]).2).toOption =
      some () ∧
    ((mergeCli exParse (fun j => .int j.cellboxes.length) "a.json" (.directory ["b.json", "readme"]) none
      [("a.json", some (.int 0)), ("b.json", some (.int 1)), ("readme", none)]).2).toOption = none := by
  decide +kernel

/-- A run that fails: the configuration is not JSON, and no file is written. -/
example (read : List Char → Py JVal) (new : Bool) :
    createCli (exWorld exListing) 0 read new false (739544 + 1/2) "config.json" none [("config.json", none)] = ([("config.json", none)], .error .valueError) := rfl

end Verif
