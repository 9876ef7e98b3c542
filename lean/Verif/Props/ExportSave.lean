import Verif.Props.ExportGeo
import Verif.Props.Tif

/-!
# C88, C89, C90: `save`, the parameters and colours of GeoTIFF, drawings
-/

namespace Verif
open Spec Export

/-! ### Formats -/

/-- A text is a word in capitals up to the case of ASCII letters. -/
def Spec.CaseOf (s word : List Char) : Prop := List.Forall₂ (fun a b => a = b ∨ a = b.toLower) s word

theorem toUpper_eq_iff (a b : Char) (hb : 'A' ≤ b ∧ b ≤ 'Z') : a.toUpper = b ↔ a = b ∨ a = b.toLower := by
  have hb1 : 65 ≤ b.val.toNat := hb.1
  have hb2 : b.val.toNat ≤ 90 := hb.2
  have hl : b.toLower.val.toNat = b.val.toNat + 32 := by
    unfold Char.toLower
    split
    · simp only [UInt32.toNat_add]
      change (b.val.toNat + 32) % 2 ^ 32 = _
      omega
    · next h => exact absurd ⟨hb.1, hb.2⟩ h
  unfold Char.toUpper
  split
  · next h =>
    have h1 : 97 ≤ a.val.toNat := h.1
    have h2 : a.val.toNat ≤ 122 := h.2
    have hv : (a.val + ('A'.val - 'a'.val)).toNat = a.val.toNat - 32 := by
      rw [UInt32.toNat_add]
      change (a.val.toNat + 4294967264) % 2 ^ 32 = _
      omega
    constructor
    · intro e
      right
      apply Char.ext
      apply UInt32.toNat_inj.1
      rw [hl, ← e]
      simp only
      rw [hv]; omega
    · intro e
      apply Char.ext
      apply UInt32.toNat_inj.1
      simp only
      rw [hv]
      rcases e with rfl | rfl
      · omega
      · rw [hl]; omega
  · next h =>
    constructor
    · exact Or.inl
    · rintro (e | e)
      · exact e
      · exfalso
        subst e
        refine h ⟨?_, ?_⟩
        · change 97 ≤ b.toLower.val.toNat; omega
        · change b.toLower.val.toNat ≤ 122; omega

theorem upper_iff (s word : List Char) (hw : ∀ c ∈ word, 'A' ≤ c ∧ c ≤ 'Z') : upper s = word ↔ Spec.CaseOf s word := by
  unfold upper Spec.CaseOf
  induction word generalizing s with
  | nil => simp
  | cons b word ih =>
    cases s with
    | nil => simp
    | cons a s =>
      rw [List.map_cons, List.cons.injEq, List.forall₂_cons, toUpper_eq_iff a b (hw b List.mem_cons_self),
        ih s (fun c hc => hw c (List.mem_cons_of_mem _ hc))]

theorem tif_case (s : List Char) : upper s = ['T', 'I', 'F'] ↔ Spec.CaseOf s ['T', 'I', 'F'] := upper_iff _ _ (by decide)
theorem json_case (s : List Char) : upper s = ['J', 'S', 'O', 'N'] ↔ Spec.CaseOf s ['J', 'S', 'O', 'N'] := upper_iff _ _ (by decide)
theorem geojson_case (s : List Char) : upper s = ['G', 'E', 'O', 'J', 'S', 'O', 'N'] ↔ Spec.CaseOf s ['G', 'E', 'O', 'J', 'S', 'O', 'N'] :=
  upper_iff _ _ (by decide)
theorem png_case (s : List Char) : upper s = ['P', 'N', 'G'] ↔ Spec.CaseOf s ['P', 'N', 'G'] := upper_iff _ _ (by decide)

/-! ### C88: `save` -/

/-- **C88** (a): saving as JSON always succeeds; the file then holds the mesh and no other file has changed. -/
theorem C88_json (env : Env) (m : EnvMesh) (path : String × String) (format : List Char) (params : Option (Py JVal)) (files : Files)
    (h : Spec.CaseOf format ['J', 'S', 'O', 'N']) :
    (save env m path format params files).2 = .ok () ∧ ∀ f, Dict.get? (save env m path format params files).1 f =
      if f = path then some (.json m.toJson) else Dict.get? files f := by
  have h' := (json_case format).2 h
  unfold save
  rw [if_neg (by rw [h']; decide), if_pos h']
  refine ⟨rfl, fun f => ?_⟩
  simp only [Dict.get?_set]
  by_cases e : f = path
  · subst e; simp
  · simp [e, Ne.symm e]

/-- **C88** (b): saving as GeoJSON writes the features where the export succeeds; where it fails the error is raised, and the file is
left empty whatever was in it. -/
theorem C88_geojson (env : Env) (m : EnvMesh) (path : String × String) (format : List Char) (params : Option (Py JVal)) (files : Files)
    (h : Spec.CaseOf format ['G', 'E', 'O', 'J', 'S', 'O', 'N']) :
    (∀ f, toGeojson env.strings env.repr params (rowsOf m) = .ok f → (save env m path format params files).2 = .ok () ∧
      Dict.get? (save env m path format params files).1 path = some (.geojson f)) ∧
    (∀ e, toGeojson env.strings env.repr params (rowsOf m) = .error e → (save env m path format params files).2 = .error e ∧
      Dict.get? (save env m path format params files).1 path = some .empty) ∧
    ∀ f, f ≠ path → Dict.get? (save env m path format params files).1 f = Dict.get? files f := by
  have h' := (geojson_case format).2 h
  unfold save
  rw [if_neg (by rw [h']; decide), if_neg (by rw [h']; decide), if_pos h']
  cases hg : toGeojson env.strings env.repr params (rowsOf m) with
  | ok f =>
    refine ⟨?_, ?_, ?_⟩
    · intro f' e
      injection e with e
      subst e
      exact ⟨rfl, by simp [Dict.get?_set]⟩
    · intro e he; cases he
    · intro g hne; simp [Dict.get?_set, Ne.symm hne]
  | error e =>
    refine ⟨?_, ?_, ?_⟩
    · intro f' e; cases e
    · intro e' he
      injection he with he
      subst he
      exact ⟨rfl, by simp [Dict.get?_set]⟩
    · intro g hne; simp [Dict.get?_set, Ne.symm hne]

/-- **C88** (c): saving as PNG writes the drawing where there is one, and nothing where drawing fails. -/
theorem C88_png (env : Env) (m : EnvMesh) (path : String × String) (format : List Char) (params : Option (Py JVal)) (files : Files)
    (h : Spec.CaseOf format ['P', 'N', 'G']) :
    (∀ d, toPng env.known m.config.region (rowsOf m) params = .ok d → (save env m path format params files).2 = .ok () ∧
      ∀ f, Dict.get? (save env m path format params files).1 f = if f = path then some (.png d) else Dict.get? files f) ∧
    (∀ e, toPng env.known m.config.region (rowsOf m) params = .error e → save env m path format params files = (files, .error e)) := by
  have h' := (png_case format).2 h
  unfold save
  rw [if_neg (by rw [h']; decide), if_neg (by rw [h']; decide), if_neg (by rw [h']; decide), if_pos h']
  cases hg : toPng env.known m.config.region (rowsOf m) params with
  | ok d =>
    refine ⟨?_, ?_⟩
    · intro d' e
      injection e with e
      subst e
      refine ⟨rfl, fun f => ?_⟩
      simp only [Dict.get?_set]
      by_cases e : f = path
      · subst e; simp
      · simp [e, Ne.symm e]
    · intro e he; cases he
  | error e =>
    refine ⟨?_, ?_⟩
    · intro d' e; cases e
    · intro e' he
      injection he with he
      subst he
      rfl

/-- **C88** (d): any other format writes nothing and raises nothing. -/
theorem C88_unknown (env : Env) (m : EnvMesh) (path : String × String) (format : List Char) (params : Option (Py JVal)) (files : Files)
    (h : ¬ Spec.CaseOf format ['T', 'I', 'F'] ∧ ¬ Spec.CaseOf format ['J', 'S', 'O', 'N'] ∧
      ¬ Spec.CaseOf format ['G', 'E', 'O', 'J', 'S', 'O', 'N'] ∧ ¬ Spec.CaseOf format ['P', 'N', 'G']) :
    save env m path format params files = (files, .ok ()) := by
  unfold save
  rw [if_neg (fun e => h.1 ((tif_case format).1 e)), if_neg (fun e => h.2.1 ((json_case format).1 e)),
    if_neg (fun e => h.2.2.1 ((geojson_case format).1 e)), if_neg (fun e => h.2.2.2 ((png_case format).1 e))]

/-- The files that GeoTIFF uses besides the result. -/
def Spec.Scratch (cwd : String) (path f : String × String) : Prop :=
  f = (cwd, "grid_data") ∨ f = (path.1, "grid_data") ∨ f = (path.1, "grid_data.aux.xml")

/-- **C88** (e): saving as GeoTIFF changes no files but the result and its scratch files. -/
theorem C88_tif_others (env : Env) (m : EnvMesh) (path : String × String) (format : List Char) (params : Option (Py JVal)) (files : Files)
    (h : Spec.CaseOf format ['T', 'I', 'F']) (f : String × String) (hf : f ≠ path) (hs : ¬ Spec.Scratch env.cwd path f) :
    Dict.get? (save env m path format params files).1 f = Dict.get? files f := by
  have h' := (tif_case format).2 h
  unfold Spec.Scratch at hs
  simp only [not_or] at hs
  obtain ⟨h1, h2, h3⟩ := hs
  unfold save
  rw [if_pos h']
  unfold toTif
  split
  · rfl
  · simp only
    split
    · simp only [Dict.get?_set, if_neg (Ne.symm hf), if_neg (Ne.symm h1)]
    · split
      · simp only [Dict.get?_set, if_neg (Ne.symm hf), if_neg (Ne.symm h1)]
      · split
        · simp only [Dict.get?_set, if_neg (Ne.symm hf), if_neg (Ne.symm h1)]
        · simp only [removeFile, Dict.get?_del, Dict.get?_set, if_neg (Ne.symm hf), if_neg (Ne.symm h1), if_neg (Ne.symm h2), if_neg (Ne.symm h3)]

/-- **C88** (f): after GeoTIFF was saved, the scratch file in the current directory is gone exactly if the result is in that
directory; and a file `grid_data` next to the result is gone in any case. -/
theorem C88_tif_scratch (env : Env) (m : EnvMesh) (path : String × String) (format : List Char) (params : Option (Py JVal)) (files : Files)
    (h : Spec.CaseOf format ['T', 'I', 'F']) (hp : path ≠ (env.cwd, "grid_data")) (hok : (save env m path format params files).2 = .ok ()) :
    (Dict.get? (save env m path format params files).1 (env.cwd, "grid_data") = none ↔ path.1 = env.cwd) ∧
    Dict.get? (save env m path format params files).1 (path.1, "grid_data") = none := by
  have h' := (tif_case format).2 h
  unfold save at hok ⊢
  rw [if_pos h'] at hok ⊢
  unfold toTif at hok ⊢
  split at hok
  · cases hok
  · simp only at hok ⊢
    split at hok
    · cases hok
    · split at hok
      · cases hok
      · split at hok
        · cases hok
        · simp only [removeFile, Dict.get?_del, Dict.get?_set, if_neg hp, Prod.mk.injEq, and_true]
          constructor
          · by_cases e : path.1 = env.cwd
            · simp [e]
            · simp [e]
          · simp

/-- **C88** (g): the file that saving as GeoTIFF leaves: the image of the mesh with the parameters of the file, transformed and
coloured.  If no pixel has a value, `ValueError` is raised after the grey image was written. -/
theorem C88_tif (env : Env) (m : EnvMesh) (path : String × String) (format : List Char) (params : Option (Py JVal)) (files : Files)
    (h : Spec.CaseOf format ['T', 'I', 'F']) (hp : path.2 ≠ "grid_data" ∧ path.2 ≠ "grid_data.aux.xml") (p : Dict String JVal) (image : List (List (Option ℚ)))
    (name : List Char) (nlines ncols : ℕ)
    (hpar : loadParams params = .ok p) (hn : Dict.get? p "data_name" = some (.str name))
    (hres : ∃ rest, Dict.get? p "sampling_resolution" = some (.arr (.int nlines :: .int ncols :: rest)))
    (himg : EnvMesh.Tif.image m (String.ofList name) nlines ncols = .ok image) :
    (∀ proj, transformProj env.readInt p = .ok proj → (∀ row ∈ image, ∀ v ∈ row, v = none) →
      (save env m path format params files).2 = .error .valueError ∧
      Dict.get? (save env m path format params files).1 path = some (.tif image (EnvMesh.Tif.geoTransform m.bounds nlines ncols) proj .grey)) ∧
    (∀ proj lines colours, transformProj env.readInt p = .ok proj → colourLines image.flatten = .ok lines → colourFile p lines = .ok colours →
      (save env m path format params files).2 = .ok () ∧
      Dict.get? (save env m path format params files).1 path = some (.tif image (EnvMesh.Tif.geoTransform m.bounds nlines ncols) proj colours)) := by
  have h' := (tif_case format).2 h
  obtain ⟨rest, hres⟩ := hres
  have hdata : tifData m params = .ok (p, image, EnvMesh.Tif.geoTransform m.bounds nlines ncols) := by
    unfold tifData tifName resolution Dict.get
    simp only [hpar, bind, Except.bind, hn, hres]
    simp only [List.getElem?_cons_zero, List.getElem?_cons_succ, Int.natCast_nonneg, if_true, Int.toNat_natCast, pure, Except.pure, himg]
  have hne1 : ∀ s, (path.1, "grid_data") = path → s := by
    intro s e; exact absurd (congrArg Prod.snd e).symm hp.1
  have hne2 : ∀ s, (path.1, "grid_data.aux.xml") = path → s := by
    intro s e; exact absurd (congrArg Prod.snd e).symm hp.2
  unfold save
  rw [if_pos h']
  unfold toTif
  simp only [hdata]
  constructor
  · intro proj hproj hnone
    have hcol : colourLines image.flatten = .error .valueError := by
      have : image.flatten.filterMap id = [] := by
        rw [List.filterMap_eq_nil_iff]
        intro v hv
        obtain ⟨row, hr, hv⟩ := List.mem_flatten.1 hv
        exact hnone row hr v hv
      unfold colourLines
      simp only [this, Boundary.pyMax, bind, Except.bind]
    simp only [hproj, hcol]
    exact ⟨trivial, by simp [Dict.get?_set]⟩
  · intro proj lines colours hproj hcol hfile
    simp only [hproj, hcol, hfile]
    refine ⟨trivial, ?_⟩
    simp only [removeFile, Dict.get?_del, Dict.get?_set]
    rw [if_neg (fun e => hne2 False e), if_neg (fun e => hne1 False e), if_pos trivial]

/-- **C88** (h): the command line saves the mesh of the file under the given name, or under a default by the format. -/
theorem C88_cli (env : Env) (j : MeshJson) (m : EnvMesh) (hm : EnvMesh.fromJson j = .ok m) (format : List Char) (params : Option (Py JVal)) (files : Files) :
    (∀ name, exportCli env j format (some name) params files = save env m (env.cwd, name) format params files) ∧
    (Spec.CaseOf format ['J', 'S', 'O', 'N'] → exportCli env j format none params files = save env m (env.cwd, "mesh.json") format params files) ∧
    (Spec.CaseOf format ['G', 'E', 'O', 'J', 'S', 'O', 'N'] → exportCli env j format none params files = save env m (env.cwd, "mesh_geo.json") format params files) ∧
    (Spec.CaseOf format ['T', 'I', 'F'] → exportCli env j format none params files = save env m (env.cwd, "mesh.tif") format params files) ∧
    (Spec.CaseOf format ['P', 'N', 'G'] → exportCli env j format none params files = save env m (env.cwd, "mesh.png") format params files) := by
  have key : ∀ o, exportCli env j format o params files = save env m (env.cwd, o.getD (defaultOutput format)) format params files := by
    intro o; unfold exportCli; rw [hm]
  refine ⟨fun name => key _, fun h => ?_, fun h => ?_, fun h => ?_, fun h => ?_⟩
  · have h' := (json_case format).2 h
    rw [key, Option.getD_none, defaultOutput, h']; rfl
  · have h' := (geojson_case format).2 h
    rw [key, Option.getD_none, defaultOutput, h']; rfl
  · have h' := (tif_case format).2 h
    rw [key, Option.getD_none, defaultOutput, h']; rfl
  · have h' := (png_case format).2 h
    rw [key, Option.getD_none, defaultOutput, h']; rfl

/-! ### C89: parameters and colours of GeoTIFF -/

/-- The documented parameters and their defaults. -/
def Spec.tifDefault : String → Option JVal
  | "data_name" => some (.str ['S', 'I', 'C'])
  | "sampling_resolution" => some (.arr [.int 100, .int 100])
  | "projection" => some (.str ['4', '3', '2', '6'])
  | _ => none

theorem get?_override (input params : Dict String JVal) (k k' : String) :
    Dict.get? (override input params k) k' = if k = k' then (Dict.get? input k).or (Dict.get? params k) else Dict.get? params k' := by
  unfold override
  cases h : Dict.get? input k with
  | none => by_cases e : k = k' <;> simp [e]
  | some v => simp [Dict.get?_set]

theorem get?_default (k : String) : Dict.get? defaultParams k = Spec.tifDefault k := by
  unfold defaultParams
  rw [Dict.get?, Dict.get?, Dict.get?, Dict.get?_nil]
  by_cases h1 : "data_name" = k
  · subst h1; rfl
  · rw [if_neg h1]
    by_cases h2 : "sampling_resolution" = k
    · subst h2; rfl
    · rw [if_neg h2]
      by_cases h3 : "projection" = k
      · subst h3; rfl
      · rw [if_neg h3]
        unfold Spec.tifDefault
        split
        · exact absurd rfl h1
        · exact absurd rfl h2
        · exact absurd rfl h3
        · rfl

/-- **C89** (a): of the file of parameters exactly the four documented ones are taken, the others have their defaults; without a
file, or with `null` in it, all are defaults. -/
theorem C89_params :
    (∃ p, loadParams none = .ok p ∧ ∀ k, Dict.get? p k = Spec.tifDefault k) ∧
    (∃ p, loadParams (some (.ok .null)) = .ok p ∧ ∀ k, Dict.get? p k = Spec.tifDefault k) ∧
    ∀ d, ∃ p, loadParams (some (.ok (.obj d))) = .ok p ∧
      (∀ k, k = "projection" ∨ k = "data_name" ∨ k = "sampling_resolution" ∨ k = "colour_conf" → Dict.get? p k = (Dict.get? d k).or (Spec.tifDefault k)) ∧
      ∀ k, k ≠ "projection" → k ≠ "data_name" → k ≠ "sampling_resolution" → k ≠ "colour_conf" → Dict.get? p k = none := by
  refine ⟨⟨_, rfl, get?_default⟩, ⟨_, rfl, get?_default⟩, fun d => ⟨_, rfl, ?_, ?_⟩⟩
  · simp only [List.foldl_cons, List.foldl_nil]
    rintro k (rfl | rfl | rfl | rfl)
    · simp [get?_override, get?_default]
    · simp [get?_override, get?_default]
    · simp [get?_override, get?_default]
    · simp [get?_override, get?_default]
  · intro k h1 h2 h3 h4
    simp only [List.foldl_cons, List.foldl_nil, get?_override, if_neg (Ne.symm h1), if_neg (Ne.symm h2), if_neg (Ne.symm h3), if_neg (Ne.symm h4), get?_default]
    unfold Spec.tifDefault
    split
    · exact absurd rfl h2
    · exact absurd rfl h3
    · exact absurd rfl h1
    · rfl

/-- **C89** (b): the image is left as it is exactly if the projection is the text 4326. -/
theorem C89_projection (readInt : List Char → Option ℤ) (p : Dict String JVal) (v : JVal) (hv : Dict.get? p "projection" = some v) :
    (transformProj readInt p = .ok none ↔ v = .str ['4', '3', '2', '6']) ∧
    ∀ n, v = .int n → transformProj readInt p = .ok (some n) := by
  have key : ∀ w, w ≠ JVal.str ['4', '3', '2', '6'] → ∀ p', Dict.get? p' "projection" = some w →
      transformProj readInt p' = (do return some (← toInt readInt w)) := by
    intro w hw p' hp'
    unfold transformProj Dict.get
    rw [hp']
    simp only [bind, Except.bind]
  constructor
  · constructor
    · intro h
      by_contra hn
      rw [key v hn p hv] at h
      cases hi : toInt readInt v with
      | error e => rw [hi] at h; cases h
      | ok n => rw [hi] at h; cases h
    · rintro rfl
      unfold transformProj Dict.get
      rw [hv]
      rfl
  · rintro n rfl
    rw [key _ (by intro e; cases e) p hv]
    rfl

/-- **C89** (b'): what a file of parameters gets refused for: the file is no dictionary (`AttributeError`), the projection is no
integer (`ValueError` for texts and `NaN`, `TypeError` for everything else that is no number), the resolution has less than two
numbers (`IndexError`, before any file is written), the file of colours is no text (`TypeError`, the image is grey then). -/
theorem C89_refused :
    (∀ v, v ≠ JVal.null → (∀ d, v ≠ .obj d) → loadParams (some (.ok v)) = .error .attributeError) ∧
    (∀ (readInt : List Char → Option ℤ) (p : Dict String JVal) (v : JVal), Dict.get? p "projection" = some v → v ≠ .str ['4', '3', '2', '6'] →
      (∀ s, v = .str s → transformProj readInt p = (match readInt s with | some n => .ok (some n) | none => .error .valueError)) ∧
      (v = .flt none → transformProj readInt p = .error .valueError) ∧
      (v = .null ∨ (∃ l, v = .arr l) ∨ (∃ d, v = .obj d) → transformProj readInt p = .error .typeError)) ∧
    (∀ (env : Env) (m : EnvMesh) (path : String × String) (format : List Char) (params : Option (Py JVal)) (files : Files) (p : Dict String JVal)
      (name : List Char), Spec.CaseOf format ['T', 'I', 'F'] → loadParams params = .ok p → Dict.get? p "data_name" = some (.str name) →
      (Dict.get? p "sampling_resolution" = some (.arr []) ∨ ∃ n : ℕ, Dict.get? p "sampling_resolution" = some (.arr [.int n])) →
      save env m path format params files = (files, .error .indexError)) ∧
    (∀ (env : Env) (m : EnvMesh) (path : String × String) (format : List Char) (params : Option (Py JVal)) (files : Files) (p : Dict String JVal)
      (image : List (List (Option ℚ))) (gt : List ℚ) (proj : Option ℤ) (lines : List ColourLine) (v : JVal), Spec.CaseOf format ['T', 'I', 'F'] →
      tifData m params = .ok (p, image, gt) → transformProj env.readInt p = .ok proj → colourLines image.flatten = .ok lines →
      Dict.get? p "colour_conf" = some v → (∀ s, v ≠ .str s) →
      (save env m path format params files).2 = .error .typeError ∧
      Dict.get? (save env m path format params files).1 path = some (.tif image gt proj .grey)) := by
  refine ⟨?_, ?_, ?_, ?_⟩
  · intro v h1 h2
    cases v with
    | null => exact absurd rfl h1
    | obj d => exact absurd rfl (h2 d)
    | _ => rfl
  · intro readInt p v hv hn
    have key : transformProj readInt p = (do return some (← toInt readInt v)) := by
      unfold transformProj Dict.get
      rw [hv]
      simp only [bind, Except.bind]
    rw [key]
    refine ⟨?_, ?_, ?_⟩
    · rintro s rfl
      unfold toInt
      cases hr : readInt s <;> simp only [hr, bind, Except.bind, pure, Except.pure]
    · rintro rfl; rfl
    · rintro (rfl | ⟨l, rfl⟩ | ⟨d, rfl⟩) <;> rfl
  · intro env m path format params files p name h hp hn hres
    have hd : tifData m params = .error .indexError := by
      unfold tifData tifName resolution Dict.get
      rcases hres with hres | ⟨n, hres⟩
      · simp only [hp, bind, Except.bind, hn, hres, pure, Except.pure, List.getElem?_nil]
      · simp only [hp, bind, Except.bind, hn, hres, pure, Except.pure, List.getElem?_cons_zero, List.getElem?_cons_succ, List.getElem?_nil,
          Int.natCast_nonneg, if_true]
    unfold save
    rw [if_pos ((tif_case format).2 h)]
    unfold toTif
    simp only [hd]
  · intro env m path format params files p image gt proj lines v h hd hp hl hc hv
    have hf : colourFile p lines = .error .typeError := by
      unfold colourFile
      rw [hc]
      cases v with
      | str s => exact absurd rfl (hv s)
      | _ => rfl
    unfold save
    rw [if_pos ((tif_case format).2 h)]
    unfold toTif
    simp only [hd, hp, hl, hf]
    exact ⟨trivial, by simp [Dict.get?_set]⟩

/-- Example for **C89** (b'): parameters with one number as the resolution. -/
example : ∃ p, loadParams (some (.ok (.obj [("sampling_resolution", .arr [.int 50])]))) = .ok p ∧ (∃ name, Dict.get? p "data_name" = some (.str name)) ∧
    ∃ n : ℕ, Dict.get? p "sampling_resolution" = some (.arr [.int n]) := ⟨_, rfl, ⟨_, rfl⟩, 50, rfl⟩

/-- Truncation keeps the order. -/
theorem pyInt_le {x y : ℚ} (h : x ≤ y) : pyInt x ≤ pyInt y := by
  unfold pyInt
  split_ifs with h1 h2 h2
  · exact Int.floor_le_floor h
  · exact absurd (h1.trans h) h2
  · have hx : ⌈x⌉ ≤ 0 := Int.ceil_le.2 (by push_cast; linarith)
    exact hx.trans (Int.floor_nonneg.2 h2)
  · exact Int.ceil_le_ceil h

/-- **C89** (c): the colours of an image with values: the values from the first to the third quarter of their range, cut to integers, in
ascending order and within the range; the third and the fourth colour have the same value, and `nan` is red. -/
theorem C89_colours (data : List (Option ℚ)) (h : ∃ q, some q ∈ data) :
    ∃ mn mx, some mn ∈ data ∧ some mx ∈ data ∧ (∀ q, some q ∈ data → mn ≤ q ∧ q ≤ mx) ∧
      ∃ t1 t2 t3, colourLines data = .ok [(some t1, (255, 255, 255)), (some t2, (173, 216, 230)), (some t3, (0, 0, 128)), (some t3, (0, 0, 139)), (none, (255, 0, 0))] ∧
        t1 = pyInt (mn + (mx - mn) / 4) ∧ t2 = pyInt ((mn + mx) / 2) ∧ t3 = pyInt (mx - (mx - mn) / 4) ∧
        pyInt mn ≤ t1 ∧ t1 ≤ t2 ∧ t2 ≤ t3 ∧ t3 ≤ pyInt mx := by
  obtain ⟨q, hq⟩ := h
  have hmem : ∀ q, q ∈ data.filterMap id ↔ some q ∈ data := by intro q; simp
  cases hv : data.filterMap id with
  | nil =>
    have := (hmem q).2 hq
    rw [hv] at this
    exact absurd this List.not_mem_nil
  | cons a l =>
    rw [hv] at hmem
    obtain ⟨a1, a2, a3⟩ := foldl_max_spec l a
    obtain ⟨b1, b2, b3⟩ := foldl_min_spec l a
    set mx := l.foldl max a with hmx
    set mn := l.foldl min a with hmn
    have hmxm : mx ∈ a :: l := by
      rcases a1 with e | e
      · rw [e]; exact List.mem_cons_self
      · exact List.mem_cons_of_mem _ e
    have hmnm : mn ∈ a :: l := by
      rcases b1 with e | e
      · rw [e]; exact List.mem_cons_self
      · exact List.mem_cons_of_mem _ e
    have hle : mn ≤ mx := b2.trans a2
    refine ⟨mn, mx, (hmem mn).1 hmnm, (hmem mx).1 hmxm, ?_, _, _, _, ?_, rfl, rfl, rfl, ?_, ?_, ?_, ?_⟩
    · intro x hx
      rcases List.mem_cons.1 ((hmem x).2 hx) with rfl | hx
      · exact ⟨b2, a2⟩
      · exact ⟨b3 x hx, a3 x hx⟩
    · unfold colourLines
      simp only [hv, Boundary.pyMax, Boundary.pyMin, bind, Except.bind, ← hmx, ← hmn, pure, Except.pure]
      simp only [List.dropLast, List.mapIdx_cons, List.mapIdx_nil, List.length_cons, List.length_nil, List.getLastD_cons, List.cons_append, List.nil_append]
      have e1 : mn + (((0 : ℕ) : ℚ) + 1) * (mx - mn) / ((0 + 1 + 1 + 1 + 1 : ℕ) : ℚ) = mn + (mx - mn) / 4 := by push_cast; ring
      have e2 : mn + (((0 + 1 : ℕ) : ℚ) + 1) * (mx - mn) / ((0 + 1 + 1 + 1 + 1 : ℕ) : ℚ) = (mn + mx) / 2 := by push_cast; ring
      have e3 : mn + (((0 + 1 + 1 : ℕ) : ℚ) + 1) * (mx - mn) / ((0 + 1 + 1 + 1 + 1 : ℕ) : ℚ) = mx - (mx - mn) / 4 := by push_cast; ring
      have e4 : mx - (mx - mn) / ((0 + 1 + 1 + 1 + 1 : ℕ) : ℚ) = mx - (mx - mn) / 4 := by push_cast; ring
      rw [e1, e2, e3, e4]
      rfl
    · exact pyInt_le (by linarith)
    · exact pyInt_le (by linarith)
    · exact pyInt_le (by linarith)
    · exact pyInt_le (by linarith)

/-- The colours of values from 1/2 to 10. -/
example : colourLines [some 10, none, some (1 / 2), some 3] =
    .ok [(some 2, (255, 255, 255)), (some 5, (173, 216, 230)), (some 7, (0, 0, 128)), (some 7, (0, 0, 139)), (none, (255, 0, 0))] := by
  decide +kernel

/-! ### C90: drawings -/

/-- The finite values of a name. -/
def Spec.valuesOf (rows : List XRow) (name : String) (q : ℚ) : Prop := ∃ r ∈ rows, Dict.get? r name = some (.flt (.fin q))

/-- The place of a value on the colour map: nothing for `NaN` and where all values are equal, otherwise from 0 for the least value to 1
for the greatest in proportion. -/
def Spec.Shade (rows : List XRow) (name : String) (x : Flt) (t : Option ℚ) : Prop :=
  (x = .nan ∧ t = none) ∨ ∃ v, x = .fin v ∧
    (((∀ q, Spec.valuesOf rows name q → q = v) ∧ t = none) ∨
     ∃ mn mx, Spec.valuesOf rows name mn ∧ Spec.valuesOf rows name mx ∧ mn < mx ∧ (∀ q, Spec.valuesOf rows name q → mn ≤ q ∧ q ≤ mx) ∧
       t = some ((v - mn) / (mx - mn)))

theorem colMin_fin (l : List ℚ) : ∀ a, (l.map Flt.fin).foldl (fun a b => if b.lt a then b else a) (.fin a) = .fin (l.foldl min a) := by
  induction l with
  | nil => intro a; rfl
  | cons b l ih =>
    intro a
    have e : (Flt.fin b).lt (Flt.fin a) = decide (b < a) := rfl
    rw [List.map_cons, List.foldl_cons, List.foldl_cons, e]
    simp only [decide_eq_true_eq]
    by_cases h : b < a
    · rw [if_pos h, ih, min_eq_right h.le]
    · rw [if_neg h, ih, min_eq_left (not_lt.1 h)]

theorem colMax_fin (l : List ℚ) : ∀ a, (l.map Flt.fin).foldl (fun a b => if a.lt b then b else a) (.fin a) = .fin (l.foldl max a) := by
  induction l with
  | nil => intro a; rfl
  | cons b l ih =>
    intro a
    have e : (Flt.fin a).lt (Flt.fin b) = decide (a < b) := rfl
    rw [List.map_cons, List.foldl_cons, List.foldl_cons, e]
    simp only [decide_eq_true_eq]
    by_cases h : a < b
    · rw [if_pos h, ih, max_eq_right h.le]
    · rw [if_neg h, ih, max_eq_left (not_lt.1 h)]

theorem filter_nan (l : List Flt) (h : ∀ x ∈ l, x = .nan ∨ ∃ q, x = .fin q) :
    ∃ m : List ℚ, l.filter (· ≠ .nan) = m.map Flt.fin ∧ ∀ q, q ∈ m ↔ Flt.fin q ∈ l := by
  induction l with
  | nil => exact ⟨[], rfl, by simp⟩
  | cons a l ih =>
    obtain ⟨m, hm, hq⟩ := ih (fun x hx => h x (List.mem_cons_of_mem _ hx))
    rcases h a List.mem_cons_self with rfl | ⟨q, rfl⟩
    · exact ⟨m, by rw [List.filter_cons_of_neg (by simp), hm], fun q => by rw [hq q, List.mem_cons]; simp⟩
    · refine ⟨q :: m, by rw [List.filter_cons_of_pos (by simp), hm]; rfl, fun q' => ?_⟩
      rw [List.mem_cons, List.mem_cons, hq q']
      simp

/-- The normalised values of a column without infinities. -/
theorem shade_column (l : List Flt) (h : ∀ x ∈ l, x = .nan ∨ ∃ q, x = .fin q) (x : Flt) (hx : x ∈ l) :
    let t := (Flt.div (Flt.sub x (colMin l)) ((colMax l).sub (colMin l))).fin?
    (x = .nan ∧ t = none) ∨ ∃ v, x = .fin v ∧ (((∀ q, Flt.fin q ∈ l → q = v) ∧ t = none) ∨
      ∃ mn mx, Flt.fin mn ∈ l ∧ Flt.fin mx ∈ l ∧ mn < mx ∧ (∀ q, Flt.fin q ∈ l → mn ≤ q ∧ q ≤ mx) ∧ t = some ((v - mn) / (mx - mn))) := by
  intro t
  obtain ⟨m, hm, hq⟩ := filter_nan l h
  rcases h x hx with rfl | ⟨v, rfl⟩
  · left
    refine ⟨rfl, ?_⟩
    simp only [t, Flt.sub]
    cases (colMax l).sub (colMin l) <;> rfl
  · right
    refine ⟨v, rfl, ?_⟩
    have hvm := (hq v).2 hx
    cases m with
    | nil => exact absurd hvm List.not_mem_nil
    | cons a m =>
      have hmin : colMin l = .fin (m.foldl min a) := by unfold colMin; rw [hm]; exact colMin_fin m a
      have hmax : colMax l = .fin (m.foldl max a) := by unfold colMax; rw [hm]; exact colMax_fin m a
      obtain ⟨a1, a2, a3⟩ := foldl_max_spec m a
      obtain ⟨b1, b2, b3⟩ := foldl_min_spec m a
      set mx := m.foldl max a with hmx
      set mn := m.foldl min a with hmn
      have hmxm : mx ∈ a :: m := by
        rcases a1 with e | e
        · rw [e]; exact List.mem_cons_self
        · exact List.mem_cons_of_mem _ e
      have hmnm : mn ∈ a :: m := by
        rcases b1 with e | e
        · rw [e]; exact List.mem_cons_self
        · exact List.mem_cons_of_mem _ e
      have hall : ∀ q, Flt.fin q ∈ l → mn ≤ q ∧ q ≤ mx := by
        intro q hql
        rcases List.mem_cons.1 ((hq q).2 hql) with rfl | hx
        · exact ⟨b2, a2⟩
        · exact ⟨b3 q hx, a3 q hx⟩
      have ht : t = (Flt.div (.fin (v - mn)) (.fin (mx - mn))).fin? := by simp only [t, hmin, hmax, Flt.sub]
      by_cases heq : mx = mn
      · left
        refine ⟨fun q hql => ?_, ?_⟩
        · have h1 := hall q hql
          have h2 := hall v hx
          linarith [h1.1, h1.2, h2.1, h2.2]
        · have h2 := hall v hx
          have hv : v - mn = 0 := by linarith [h2.1, h2.2]
          rw [ht, heq, hv]; simp [Flt.div, Flt.fin?]
      · right
        refine ⟨mn, mx, (hq mn).1 hmnm, (hq mx).1 hmxm, lt_of_le_of_ne (b2.trans a2) (Ne.symm heq), hall, ?_⟩
        have : ¬ mx - mn = 0 := fun e => heq (by linarith)
        rw [ht]
        simp only [Flt.div, if_neg this, Flt.fin?]

theorem column_numbers (rows : List XRow) (name : String) (hne : rows ≠ [])
    (hv : ∀ r ∈ rows, Dict.get? r name = some (.flt .nan) ∨ ∃ q, Dict.get? r name = some (.flt (.fin q))) :
    ∃ l, numberColumn rows name = .ok l ∧ (∀ x ∈ l, x = .nan ∨ ∃ q, x = .fin q) ∧ (∀ q, Flt.fin q ∈ l ↔ Spec.valuesOf rows name q) ∧
      ∀ r ∈ rows, ∃ x, Dict.get? r name = some (.flt x) ∧ x ∈ l := by
  have hin : name ∈ columns rows := by
    obtain ⟨r, rest, rfl⟩ := List.exists_cons_of_ne_nil hne
    refine (mem_geo_columns _ _).2 ⟨r, List.mem_cons_self, (Dict.mem_keys_iff r _).2 ?_⟩
    rcases hv r List.mem_cons_self with h | ⟨q, h⟩ <;> rw [h] <;> rfl
  have hval : ∀ r ∈ rows, ∃ x, Dict.get? r name = some (.flt x) ∧ (x = .nan ∨ ∃ q, x = .fin q) := by
    intro r hr
    rcases hv r hr with h | ⟨q, h⟩
    · exact ⟨_, h, Or.inl rfl⟩
    · exact ⟨_, h, Or.inr ⟨q, rfl⟩⟩
  have hdt : dtype false (column rows name) = .number := by
    unfold dtype
    have h1 : ¬ (column rows name).all isBool = true := by
      obtain ⟨r, rest, rfl⟩ := List.exists_cons_of_ne_nil hne
      obtain ⟨x, hx, _⟩ := hval r List.mem_cons_self
      simp only [column, List.map_cons, List.all_cons, hx, Option.getD_some, isBool, Bool.false_and]
      decide
    have h2 : (column rows name).all isNumber = true := by
      rw [List.all_eq_true]
      intro v hv'
      obtain ⟨r, hr, rfl⟩ := List.mem_map.1 hv'
      obtain ⟨x, hx, _⟩ := hval r hr
      rw [hx]; rfl
    rw [if_neg h1, if_pos h2]
  refine ⟨_, by unfold numberColumn; rw [if_pos hin, hdt], ?_, ?_, ?_⟩
  · intro x hx
    obtain ⟨v, hv', rfl⟩ := List.mem_map.1 hx
    obtain ⟨r, hr, rfl⟩ := List.mem_map.1 hv'
    obtain ⟨y, hy, hy'⟩ := hval r hr
    rw [hy]; exact hy'
  · intro q
    constructor
    · intro hx
      obtain ⟨v, hv', e⟩ := List.mem_map.1 hx
      obtain ⟨r, hr, rfl⟩ := List.mem_map.1 hv'
      obtain ⟨y, hy, hy'⟩ := hval r hr
      rw [hy] at e
      have e : y = .fin q := e
      exact ⟨r, hr, by rw [hy, e]⟩
    · rintro ⟨r, hr, hq⟩
      exact List.mem_map.2 ⟨.flt (.fin q), List.mem_map.2 ⟨r, hr, by rw [hq]; rfl⟩, rfl⟩
  · intro r hr
    obtain ⟨x, hx, _⟩ := hval r hr
    exact ⟨x, hx, List.mem_map.2 ⟨.flt x, List.mem_map.2 ⟨r, hr, by rw [hx]; rfl⟩, rfl⟩⟩

theorem mapM_forall2 {α β : Type} (f : α → Py β) (P : α → β → Prop) (l : List α) (h : ∀ a ∈ l, ∃ b, f a = .ok b ∧ P a b) :
    ∃ r, l.mapM f = .ok r ∧ List.Forall₂ P l r := by
  induction l with
  | nil => exact ⟨[], rfl, .nil⟩
  | cons a l ih =>
    obtain ⟨b, hb, hp⟩ := h a List.mem_cons_self
    obtain ⟨r, hr, hf⟩ := ih (fun x hx => h x (List.mem_cons_of_mem _ hx))
    exact ⟨b :: r, by rw [List.mapM_cons, hb, hr]; rfl, .cons hp hf⟩

/-- **C90** (a): a layer of numbers is drawn with a polygon for every cell, in order, with the place of its value on the colour map. -/
theorem C90_cmap (known : String → Bool) (rows : List XRow) (name cmap : String) (hc : known cmap = true) (hne : rows ≠ [])
    (hg : ∀ r ∈ rows, ∃ p, Dict.get? r "geometry" = some (.wkt p))
    (hv : ∀ r ∈ rows, Dict.get? r name = some (.flt .nan) ∨ ∃ q, Dict.get? r name = some (.flt (.fin q))) :
    ∃ d, plotCmap known rows name cmap = .ok d ∧ List.Forall₂ (fun r p => Dict.get? r "geometry" = some (.wkt p.1) ∧
      ∃ x t, Dict.get? r name = some (.flt x) ∧ p.2 = .inl (cmap, t) ∧ Spec.Shade rows name x t) rows d := by
  obtain ⟨l, hl, hl1, hl2, hl3⟩ := column_numbers rows name hne hv
  unfold plotCmap
  simp only [hl, hc, bind, Except.bind, if_true]
  refine mapM_forall2 _ _ rows (fun r hr => ?_)
  obtain ⟨p, hp⟩ := hg r hr
  obtain ⟨x, hx, hxl⟩ := hl3 r hr
  refine ⟨(p, .inl (cmap, (Flt.div (Flt.sub x (colMin l)) ((colMax l).sub (colMin l))).fin?)), ?_, hp, x, _, hx, rfl, ?_⟩
  · simp only [Dict.get, hx, hp, loadWkt, pure, Except.pure]
  · have := shade_column l hl1 x hxl
    unfold Spec.Shade
    simp only [← hl2]
    exact this

/-- **C90** (a'): a layer of booleans cannot be drawn with a colour map: numpy refuses their difference. -/
theorem C90_boolean_raises (known : String → Bool) (rows : List XRow) (name cmap : String) (hne : rows ≠ [])
    (hv : ∀ r ∈ rows, ∃ b, Dict.get? r name = some (.bool b)) : plotCmap known rows name cmap = .error .typeError := by
  have hin : name ∈ columns rows := by
    obtain ⟨r, rest, rfl⟩ := List.exists_cons_of_ne_nil hne
    refine (mem_geo_columns _ _).2 ⟨r, List.mem_cons_self, (Dict.mem_keys_iff r _).2 ?_⟩
    obtain ⟨b, h⟩ := hv r List.mem_cons_self
    rw [h]; rfl
  have hdt : dtype false (column rows name) = .bool := by
    unfold dtype
    rw [if_pos]
    rw [List.all_eq_true]
    intro v hv'
    obtain ⟨r, hr, rfl⟩ := List.mem_map.1 hv'
    obtain ⟨b, hb⟩ := hv r hr
    rw [hb]; rfl
  unfold plotCmap numberColumn
  rw [if_pos hin, hdt]
  rfl

/-- Example for **C90** (a'): two cells with a flag. -/
example : ∃ rows : List XRow, rows.length = 2 ∧ ∀ r ∈ rows, ∃ b, Dict.get? r "land" = some (.bool b) :=
  ⟨[[("land", .bool true)], [("land", .bool false)]], rfl, by
    intro r hr
    simp only [List.mem_cons, List.not_mem_nil, or_false] at hr
    rcases hr with rfl | rfl
    · exact ⟨true, rfl⟩
    · exact ⟨false, rfl⟩⟩

/-- **C90** (b): places on the colour map are between 0 and 1 and in the order of the values. -/
theorem C90_shade (rows : List XRow) (name : String) (v w : ℚ) (t u : ℚ) (hv : Spec.valuesOf rows name v)
    (ht : Spec.Shade rows name (.fin v) (some t)) (hu : Spec.Shade rows name (.fin w) (some u)) : 0 ≤ t ∧ t ≤ 1 ∧ (v < w ↔ t < u) := by
  have key : ∀ v t, Spec.Shade rows name (.fin v) (some t) → ∃ mn mx, Spec.valuesOf rows name mn ∧ Spec.valuesOf rows name mx ∧ mn < mx ∧
      (∀ q, Spec.valuesOf rows name q → mn ≤ q ∧ q ≤ mx) ∧ t = (v - mn) / (mx - mn) := by
    intro v t h
    rcases h with ⟨h, _⟩ | ⟨v', h, ⟨_, h'⟩ | ⟨mn, mx, h1, h2, h3, h4, h5⟩⟩
    · cases h
    · cases h'
    · injection h with h; injection h5 with h5
      subst h
      exact ⟨mn, mx, h1, h2, h3, h4, h5⟩
  obtain ⟨mn, mx, h1, h2, h3, h4, rfl⟩ := key v t ht
  obtain ⟨mn', mx', h1', h2', h3', h4', rfl⟩ := key w u hu
  have e1 : mn' = mn := le_antisymm (h4' mn h1).1 (h4 mn' h1').1
  have e2 : mx' = mx := le_antisymm (h4 mx' h2').2 (h4' mx h2).2
  subst e1 e2
  have hpos : 0 < mx' - mn' := by linarith
  refine ⟨div_nonneg (by linarith [(h4 v hv).1]) hpos.le, (div_le_one hpos).2 (by linarith [(h4 v hv).2]), ?_⟩
  rw [div_lt_div_iff_of_pos_right hpos]
  constructor <;> intro h <;> linarith

/-- A cell that a flag marks: the value is `True`, or 1. -/
def Spec.Marked (name : String) (r : XRow) : Prop := Dict.get? r name = some (.bool true) ∨ Dict.get? r name = some (.flt (.fin 1))

theorem isTrue_iff (v : XVal) : Export.isTrue v = true ↔ v = .bool true ∨ v = .flt (.fin 1) := by
  rcases v with x | b | s | m | p
  · rcases x with _ | x | x <;> simp [Export.isTrue]
  · simp [Export.isTrue]
  · simp [Export.isTrue]
  · simp [Export.isTrue]
  · simp [Export.isTrue]

/-- **C90** (c): of a flag exactly the polygons of the marked cells are drawn, in order; every cell must have the name. -/
theorem C90_bool (rows : List XRow) (name : String) (colour : JVal) (hg : ∀ r ∈ rows, ∃ p, Dict.get? r "geometry" = some (.wkt p))
    (hv : ∀ r ∈ rows, ∃ v, Dict.get? r name = some v) :
    ∃ d marked, plotBool rows name colour = .ok d ∧ marked.Sublist rows ∧ (∀ r ∈ rows, r ∈ marked ↔ Spec.Marked name r) ∧
      List.Forall₂ (fun r p => Dict.get? r "geometry" = some (.wkt p.1) ∧ p.2 = .inr colour) marked d := by
  have h1 := mapM_forall2 (fun r => do
    let p ← loadWkt (← Dict.get r "geometry")
    let v ← Dict.get r name
    return if Export.isTrue v then some (p, (Sum.inr colour : String × Option ℚ ⊕ JVal)) else none)
    (fun r o => ∃ p, Dict.get? r "geometry" = some (.wkt p) ∧ ((Spec.Marked name r ∧ o = some (p, .inr colour)) ∨ (¬ Spec.Marked name r ∧ o = none)))
    rows (fun r hr => by
      obtain ⟨p, hp⟩ := hg r hr
      obtain ⟨v, hv⟩ := hv r hr
      refine ⟨_, by simp only [Dict.get, hp, hv, loadWkt, bind, Except.bind, pure, Except.pure]; rfl, p, hp, ?_⟩
      have hm : Spec.Marked name r ↔ Export.isTrue v = true := by
        unfold Spec.Marked
        rw [isTrue_iff, hv, Option.some.injEq, Option.some.injEq]
      by_cases h : Export.isTrue v = true
      · left; exact ⟨hm.2 h, if_pos h⟩
      · right; exact ⟨fun e => h (hm.1 e), if_neg h⟩)
  obtain ⟨l, hl, hf⟩ := h1
  have h2 : ∃ marked, marked.Sublist rows ∧ (∀ r ∈ rows, r ∈ marked ↔ Spec.Marked name r) ∧
      List.Forall₂ (fun r (p : Boundary.Poly × (String × Option ℚ ⊕ JVal)) => Dict.get? r "geometry" = some (.wkt p.1) ∧ p.2 = .inr colour)
        marked (l.filterMap id) := by
    classical
    refine ⟨rows.filter (fun r => decide (Spec.Marked name r)), List.filter_sublist, fun r hr => ?_, ?_⟩
    · rw [List.mem_filter]; simp [hr]
    · clear hl hg hv
      induction hf with
      | nil => exact .nil
      | cons h _ ih =>
        obtain ⟨p, hp, ⟨hm, rfl⟩ | ⟨hm, rfl⟩⟩ := h
        · rw [List.filter_cons_of_pos (by simpa using hm)]
          exact .cons ⟨hp, rfl⟩ ih
        · rw [List.filter_cons_of_neg (by simpa using hm)]
          exact ih
  obtain ⟨marked, hm1, hm2, hm3⟩ := h2
  exact ⟨_, marked, by unfold plotBool; rw [hl]; rfl, hm1, hm2, hm3⟩

/-- **C90** (d): a cell without the name of a flag, and a name that no cell has, raise `KeyError`. -/
theorem C90_missing (known : String → Bool) (rows : List XRow) (name cmap : String) (h : ∀ r ∈ rows, name ∉ r.map Prod.fst) :
    plotCmap known rows name cmap = .error .keyError ∧
    ∀ colour, rows ≠ [] → (∀ r ∈ rows, ∃ p, Dict.get? r "geometry" = some (.wkt p)) → plotBool rows name colour = .error .keyError := by
  constructor
  · unfold plotCmap numberColumn
    rw [if_neg (fun e => by
      obtain ⟨r, hr, hk⟩ := (mem_geo_columns rows name).1 e
      exact h r hr hk)]
    rfl
  · intro colour hne hg
    obtain ⟨r, rest, rfl⟩ := List.exists_cons_of_ne_nil hne
    obtain ⟨p, hp⟩ := hg r List.mem_cons_self
    have hn : Dict.get? r name = none := by
      by_contra hc
      exact h r List.mem_cons_self ((Dict.mem_keys_iff r name).2 (Option.isSome_iff_ne_none.2 hc))
    unfold plotBool
    rw [List.mapM_cons]
    simp only [Dict.get, hp, hn, loadWkt, bind, Except.bind]

/-- **C90** (e): meshes over the antimeridian cannot be drawn, nor can any mesh without a file of parameters. -/
theorem C90_crossing_raises (known : String → Bool) (region : Boundary) (rows : List XRow) (params : Option (Py JVal)) :
    (region.latMin < region.latMax → region.longMax < region.longMin → toPng known region rows params = .error .valueError) ∧
    (region.latMin < region.latMax → region.longMin ≤ region.longMax → toPng known region rows none = .error .unboundLocal) := by
  constructor
  · intro h1 h2
    have hp : plotterInit region = .error .valueError := by
      unfold plotterInit
      rw [if_neg (by linarith), if_pos]
      have : (region.longMax - region.longMin) / (region.latMax - region.latMin) < 0 := div_neg_of_neg_of_pos (by linarith) (by linarith)
      linarith
    unfold toPng
    rw [hp]; rfl
  · intro h1 h2
    have hp : plotterInit region = .ok () := by
      unfold plotterInit
      rw [if_neg (by linarith), if_neg]
      have : 0 ≤ (region.longMax - region.longMin) / (region.latMax - region.latMin) := div_nonneg (by linarith) (by linarith)
      linarith
    unfold toPng
    rw [hp]; rfl

theorem mapM_source {α β : Type} {f : α → Py β} {l : List α} {r : List β} (h : l.mapM f = .ok r) : ∀ b ∈ r, ∃ a ∈ l, f a = .ok b := by
  have := mapM_ok_iff.1 h
  clear h
  induction this with
  | nil => intro b hb; exact absurd hb List.not_mem_nil
  | cons h1 _ ih =>
    intro b hb
    rcases List.mem_cons.1 hb with rfl | hb
    · exact ⟨_, List.mem_cons_self, h1⟩
    · obtain ⟨a, ha, e⟩ := ih b hb
      exact ⟨a, List.mem_cons_of_mem _ ha, e⟩

theorem flatten_kind {α : Type} {f : α → Py Drawing} {Q : Boundary.Poly × (String × Option ℚ ⊕ JVal) → Prop} (hf : ∀ a d, f a = .ok d → ∀ p ∈ d, Q p)
    (l : List α) (r : List Drawing) (h : l.mapM f = .ok r) : ∀ p ∈ r.flatten, Q p := by
  have := mapM_ok_iff.1 h
  induction this with
  | nil => intro p hp; simp at hp
  | cons hd ht ih =>
    intro p hp
    rw [List.flatten_cons, List.mem_append] at hp
    rcases hp with hp | hp
    · exact hf _ _ hd p hp
    · exact ih (mapM_ok_iff.2 ht) p hp

/-- **C90** (f): in every drawing the flags are on top of the colour maps. -/
theorem C90_layers (known : String → Bool) (region : Boundary) (rows : List XRow) (params : Option (Py JVal)) (d : Drawing)
    (h : toPng known region rows params = .ok d) :
    ∃ a b, d = a ++ b ∧ (∀ p ∈ a, ∃ c t, p.2 = .inl (c, t)) ∧ ∀ p ∈ b, ∃ c, p.2 = .inr c := by
  unfold toPng at h
  cases hi : plotterInit region with
  | error e => rw [hi] at h; cases h
  | ok _ =>
    rw [hi] at h
    cases params with
    | none => cases h
    | some file =>
      simp only [bind, Except.bind] at h
      split at h
      · cases h
      · next p hp =>
        split at h
        · cases h
        · next v1 hv1 =>
          split at h
          · cases h
          · next l1 hl1 =>
            split at h
            · cases h
            · next a ha =>
              split at h
              · cases h
              · next v2 hv2 =>
                split at h
                · cases h
                · next l2 hl2 =>
                  split at h
                  · cases h
                  · next b hb =>
                    injection h with h
                    refine ⟨a.flatten, b.flatten, h.symm, ?_, ?_⟩
                    · refine flatten_kind (f := drawCmap known rows) (Q := fun p => ∃ c t, p.2 = .inl (c, t)) ?_ _ _ ha
                      intro item d' hd
                      unfold drawCmap at hd
                      simp only [bind, Except.bind] at hd
                      split at hd
                      · cases hd
                      · split at hd
                        · cases hd
                        · split at hd
                          · cases hd
                          · split at hd
                            · cases hd
                            · unfold plotCmap at hd
                              simp only [bind, Except.bind] at hd
                              split at hd
                              · cases hd
                              · split at hd
                                · intro p hp
                                  obtain ⟨r, -, h1⟩ := mapM_source hd p hp
                                  split at h1
                                  · cases h1
                                  · split at h1
                                    · cases h1
                                    · split at h1
                                      · cases h1
                                      · injection h1 with h1
                                        subst h1
                                        exact ⟨_, _, rfl⟩
                                · cases hd
                    · refine flatten_kind (f := drawBool rows) (Q := fun p => ∃ c, p.2 = .inr c) ?_ _ _ hb
                      intro item d' hd
                      unfold drawBool at hd
                      simp only [bind, Except.bind] at hd
                      split at hd
                      · cases hd
                      · split at hd
                        · cases hd
                        · split at hd
                          · cases hd
                          · unfold plotBool at hd
                            simp only [bind, Except.bind] at hd
                            split at hd
                            · cases hd
                            · next l hl =>
                              injection hd with hd
                              subst hd
                              intro p hp
                              obtain ⟨o, ho, e⟩ := List.mem_filterMap.1 hp
                              obtain ⟨r, -, h1⟩ := mapM_source hl o ho
                              split at h1
                              · cases h1
                              · split at h1
                                · cases h1
                                · split at h1
                                  · cases h1
                                  · injection h1 with h1
                                    split at h1
                                    · subst h1
                                      injection e with e
                                      subst e
                                      exact ⟨_, rfl⟩
                                    · subst h1; cases e

/-- Two layers of three cells. -/
def exDraw : List XRow :=
  [[("geometry", .wkt (.polygon [(0, 0)])), ("SIC", .flt (.fin 10)), ("land", .bool false)],
   [("geometry", .wkt (.polygon [(1, 0)])), ("SIC", .flt (.fin 40)), ("land", .bool true)],
   [("geometry", .wkt (.polygon [(2, 0)])), ("SIC", .flt (.fin 20)), ("land", .flt (.fin 1))]]

/-- The hypotheses of the theorems about drawings are met. -/
example : (∀ r ∈ exDraw, ∃ p, Dict.get? r "geometry" = some (.wkt p)) ∧
    (∀ r ∈ exDraw, Dict.get? r "SIC" = some (.flt .nan) ∨ ∃ q, Dict.get? r "SIC" = some (.flt (.fin q))) ∧ (∀ r ∈ exDraw, ∃ v, Dict.get? r "land" = some v) := by
  refine ⟨?_, ?_, ?_⟩ <;>
    (intro r hr
     simp only [exDraw, List.mem_cons, List.not_mem_nil, or_false] at hr
     rcases hr with rfl | rfl | rfl <;> simp [Dict.get?])

example : (plotCmap (fun _ => true) exDraw "SIC" "viridis").map (fun d => d.map (fun p => p.2.getLeft?)) =
    .ok [some ("viridis", some 0), some ("viridis", some 1), some ("viridis", some (1 / 3))] := by
  decide +kernel

example : (plotBool exDraw "land" .null).map (fun d => d.map Prod.fst) = .ok [.polygon [(1, 0)], .polygon [(2, 0)]] := by decide +kernel

/-- The parameters of an image of two by two pixels. -/
def exTifParams : Option (Py JVal) := some (.ok (.obj [("sampling_resolution", .arr [.int 2, .int 2]), ("projection", .int 3031), ("unknown", .null)]))

/-- The hypotheses of `C88_tif` are met. -/
example : ∃ p image, loadParams exTifParams = .ok p ∧ Dict.get? p "data_name" = some (.str ['S', 'I', 'C']) ∧
    (∃ rest, Dict.get? p "sampling_resolution" = some (.arr (.int (2 : ℕ) :: .int (2 : ℕ) :: rest))) ∧
    EnvMesh.Tif.image exTif (String.ofList ['S', 'I', 'C']) 2 2 = .ok image ∧ transformProj (fun _ => none) p = .ok (some 3031) ∧
    ∃ lines colours, colourLines image.flatten = .ok lines ∧ colourFile p lines = .ok colours := by
  refine ⟨_, [[some 10, some 20], [some 10, some 20]], rfl, rfl, ⟨_, rfl⟩, by decide +kernel, rfl, _, _, rfl, rfl⟩

/-- Saved from another directory, the scratch file stays there. -/
example : ((save ⟨false, fun _ => "", fun _ => none, fun _ => true, "/home"⟩ exTif ("/data", "a.tif") ['t', 'i', 'f'] exTifParams
    [(("/data", "grid_data"), .other 1), (("/data", "b"), .other 2)]).1.map Prod.fst) = [("/data", "b"), ("/home", "grid_data"), ("/data", "a.tif")] := by
  decide +kernel

/-- Formats in any case, and what is none. -/
example : Spec.CaseOf ['g', 'E', 'o', 'J', 's', 'o', 'n'] ['G', 'E', 'O', 'J', 'S', 'O', 'N'] ∧ ¬ Spec.CaseOf ['t', 'i', 'f', 'f'] ['T', 'I', 'F'] := by
  rw [← geojson_case, ← tif_case]; decide

end Verif
