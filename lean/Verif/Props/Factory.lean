import Verif.Model.Factory
import Mathlib.Tactic.NormNum

/-!
# C51: choice of data loaders
-/

namespace Verif
open Verif.Factory

/-- Two letters are the same up to case: equal, or a capital letter and its small letter. -/
def Spec.SameLetter (a b : Char) : Prop :=
  a = b ∨ (65 ≤ a.toNat ∧ a.toNat ≤ 90 ∧ b.toNat = a.toNat + 32) ∨ (65 ≤ b.toNat ∧ b.toNat ≤ 90 ∧ a.toNat = b.toNat + 32)

/-- Two names are the same up to case. -/
def Spec.SameName (s t : String) : Prop := List.Forall₂ Spec.SameLetter s.toList t.toList

/-- The parameters a loader can require are there: `files` counts as given with `file` or `folder`. -/
def Spec.Given (params : Dict String PVal) (k : String) : Prop :=
  (∃ v, params.get? k = some v) ∨ (k = "files" ∧ ((∃ v, params.get? "file" = some v) ∨ ∃ v, params.get? "folder" = some v))

theorem toLower_toNat (c : Char) : c.toLower.toNat = if 65 ≤ c.toNat ∧ c.toNat ≤ 90 then c.toNat + 32 else c.toNat := by
  unfold Char.toLower
  have h1 : (c.val ≥ 'A'.val ∧ c.val ≤ 'Z'.val) ↔ (65 ≤ c.toNat ∧ c.toNat ≤ 90) := Iff.rfl
  by_cases h : c.val ≥ 'A'.val ∧ c.val ≤ 'Z'.val
  · rw [dif_pos h, if_pos (h1.1 h)]
    have h2 := (h1.1 h).2
    change (c.val + ('a'.val - 'A'.val)).toNat = c.val.toNat + 32
    rw [UInt32.toNat_add]
    have h3 : ('a'.val - 'A'.val).toNat = 32 := by decide
    rw [h3]
    change c.val.toNat ≤ 90 at h2
    omega
  · rw [dif_neg h, if_neg (fun h' => h (h1.2 h'))]

theorem sameLetter_iff (a b : Char) : Spec.SameLetter a b ↔ a.toLower = b.toLower := by
  unfold Spec.SameLetter
  rw [← Char.toNat_inj, ← Char.toNat_inj, toLower_toNat, toLower_toNat]
  generalize a.toNat = x
  generalize b.toNat = y
  split <;> split <;> omega

theorem sameName_iff (s t : String) : Spec.SameName s t ↔ lower s = lower t := by
  unfold Spec.SameName lower
  rw [String.ofList_inj]
  generalize s.toList = l
  generalize t.toList = l'
  induction l generalizing l' with
  | nil => cases l' <;> simp
  | cons a l ih =>
    rcases l' with _ | ⟨b, l'⟩
    · simp
    · rw [List.forall₂_cons, ih, sameLetter_iff]
      simp

theorem table_lower : ∀ e ∈ table, lower e.1 = e.1 := by decide +kernel

theorem table_nodup : (table.map Prod.fst).Nodup := by decide +kernel

theorem table_get? (key cls : String) (req : List String) (h : (key, cls, req) ∈ table) : Dict.get? table key = some (cls, req) := by
  have hall : ∀ e ∈ table, Dict.get? table e.1 = some e.2 := by decide +kernel
  exact hall _ h

theorem table_none (name : String) (h : ∀ e ∈ table, e.1 ≠ name) : Dict.get? table name = none := by
  revert h
  generalize table = l
  intro h
  induction l with
  | nil => rfl
  | cons e l ih =>
    simp only [Dict.get?]
    rw [if_neg (h e (by simp)), ih (fun e' he' => h e' (by simp [he']))]

theorem table_required : ∀ e ∈ table, ∀ k ∈ e.2.2, k ≠ "dataloader_name" ∧ k ≠ "min_dp" ∧ k ≠ "file" ∧ k ≠ "folder" := by
  decide +kernel

theorem translate_get? (fileList listing : PVal → PVal) (params : Dict String PVal) (k : String) :
    (translate fileList listing params).get? k =
      match params.get? "file" with
      | some v => if k = "file" then none else if k = "files" then some (fileList v) else params.get? k
      | none =>
        match params.get? "folder" with
        | some v => if k = "folder" then none else if k = "files" then some (listing v) else params.get? k
        | none => params.get? k := by
  unfold translate
  rcases hf : params.get? "file" with _ | v
  · simp only
    rcases hg : params.get? "folder" with _ | v
    · simp only
    · simp only
      rw [Dict.get?_del, Dict.get?_set]
      by_cases h1 : k = "folder"
      · subst h1; simp
      · rw [if_neg (fun h => h1 h.symm), if_neg h1]
        by_cases h2 : k = "files"
        · subst h2; simp
        · rw [if_neg (fun h => h2 h.symm), if_neg h2]
  · simp only
    rw [Dict.get?_del, Dict.get?_set]
    by_cases h1 : k = "file"
    · subst h1; simp
    · rw [if_neg (fun h => h1 h.symm), if_neg h1]
      by_cases h2 : k = "files"
      · subst h2; simp
      · rw [if_neg (fun h => h2 h.symm), if_neg h2]

theorem given_iff (fileList listing : PVal → PVal) (params : Dict String PVal) (k : String) (nv mv : PVal)
    (hk : k ≠ "dataloader_name" ∧ k ≠ "min_dp" ∧ k ≠ "file" ∧ k ≠ "folder") :
    ((((translate fileList listing params).set "dataloader_name" nv).set "min_dp" mv).get? k).isSome = true ↔ Spec.Given params k := by
  rw [Dict.get?_set, if_neg (fun h => hk.2.1 h.symm), Dict.get?_set, if_neg (fun h => hk.1 h.symm), translate_get?]
  unfold Spec.Given
  rcases hf : params.get? "file" with _ | v
  · rcases hg : params.get? "folder" with _ | v
    · simp [Option.isSome_iff_exists]
    · simp only [if_neg hk.2.2.2]
      by_cases h : k = "files" <;> simp [h, Option.isSome_iff_exists]
  · simp only [if_neg hk.2.2.1]
    by_cases h : k = "files" <;> simp [h, Option.isSome_iff_exists]

/-- **C51** A name that is in the table up to the case of its letters, given with all the parameters the
table requires, yields the loader of the table, whose parameters contain the name in small letters and the
minimum number of datapoints; without one of the required parameters, `AssertionError` is raised. -/
theorem C51_known (fileList listing : PVal → PVal) (name : String) (params : Dict String PVal) (minDp : PVal)
    (key cls : String) (req : List String) (hk : (key, cls, req) ∈ table) (hs : Spec.SameName name key) :
    ((∀ k ∈ req, Spec.Given params k) →
      ∃ p, getDataloader fileList listing name params minDp = .ok (cls, p) ∧
        p.get? "dataloader_name" = some (.str key) ∧ p.get? "min_dp" = some minDp) ∧
    ((∃ k ∈ req, ¬ Spec.Given params k) → getDataloader fileList listing name params minDp = .error .assertionError) := by
  have hn : lower name = key := by rw [(sameName_iff _ _).1 hs]; exact table_lower _ hk
  have hreq := table_required _ hk
  unfold getDataloader
  simp only [hn, table_get? key cls req hk]
  constructor
  · intro h
    refine ⟨_, by rw [if_pos (List.all_eq_true.2 fun k hkr => (given_iff _ _ _ _ _ _ (hreq k hkr)).2 (h k hkr))], ?_, ?_⟩
    · rw [Dict.get?_set, if_neg (by decide), Dict.get?_set, if_pos rfl]
    · rw [Dict.get?_set, if_pos rfl]
  · rintro ⟨k, hkr, hnot⟩
    rw [if_neg]
    intro h
    exact hnot ((given_iff _ _ _ _ _ _ (hreq k hkr)).1 (List.all_eq_true.1 h k hkr))

/-- Any other name raises `ValueError`, whatever the parameters. -/
theorem C51_unknown (fileList listing : PVal → PVal) (name : String) (params : Dict String PVal) (minDp : PVal)
    (h : ∀ e ∈ table, ¬ Spec.SameName name e.1) : getDataloader fileList listing name params minDp = .error .valueError := by
  unfold getDataloader
  simp only
  rw [table_none (lower name) (fun e he heq => h e he ((sameName_iff _ _).2 (by rw [table_lower e he]; exact heq.symm)))]

/-- **C51** (partial: `files` is not given together with `file` or `folder`, nor both of these.) The loader
gets the files of `file` or `folder` as `files` instead of these, and every other parameter unchanged,
except for the two that are always set. -/
theorem C51_parameters_partial (fileList listing : PVal → PVal) (name : String) (params : Dict String PVal) (minDp : PVal)
    (cls : String) (p : Dict String PVal) (h : getDataloader fileList listing name params minDp = .ok (cls, p))
    (hone : ∀ a ∈ ["file", "folder", "files"], ∀ b ∈ ["file", "folder", "files"], (params.get? a).isSome → (params.get? b).isSome → a = b) :
    (∀ v, params.get? "file" = some v → p.get? "files" = some (fileList v)) ∧
    (∀ v, params.get? "folder" = some v → p.get? "files" = some (listing v)) ∧
    (∀ v, params.get? "files" = some v → p.get? "files" = some v) ∧
    p.get? "file" = none ∧ p.get? "folder" = none ∧
    ∀ k, k ∉ ["file", "folder", "files", "dataloader_name", "min_dp"] → p.get? k = params.get? k := by
  have hp : p = ((translate fileList listing params).set "dataloader_name" (.str (lower name))).set "min_dp" minDp := by
    unfold getDataloader at h
    simp only at h
    split at h
    · exact absurd h (by simp)
    · split at h
      · injection h with h
        injection h with h1 h2
        exact h2.symm
      · exact absurd h (by simp)
  have hget : ∀ k, k ≠ "dataloader_name" → k ≠ "min_dp" → p.get? k = (translate fileList listing params).get? k := by
    intro k h1 h2
    rw [hp, Dict.get?_set, if_neg (fun h => h2 h.symm), Dict.get?_set, if_neg (fun h => h1 h.symm)]
  have hff := hone "file" (by simp) "folder" (by simp)
  have hfs := hone "file" (by simp) "files" (by simp)
  have hos := hone "folder" (by simp) "files" (by simp)
  rw [hget "files" (by decide) (by decide), hget "file" (by decide) (by decide), hget "folder" (by decide) (by decide)]
  simp only [translate_get?]
  refine ⟨?_, ?_, ?_, ?_, ?_, ?_⟩
  · intro v hv; simp [hv]
  · intro v hv
    rcases hf : params.get? "file" with _ | w
    · simp [hv]
    · exact absurd (hff (by simp [hf]) (by simp [hv])) (by decide)
  · intro v hv
    rcases hf : params.get? "file" with _ | w
    · rcases hg : params.get? "folder" with _ | w
      · simp [hv]
      · exact absurd (hos (by simp [hg]) (by simp [hv])) (by decide)
    · exact absurd (hfs (by simp [hf]) (by simp [hv])) (by decide)
  · rcases hf : params.get? "file" with _ | w
    · rcases hg : params.get? "folder" with _ | w <;> simp
    · simp
  · rcases hf : params.get? "file" with _ | w
    · rcases hg : params.get? "folder" with _ | w <;> simp
    · rcases hg : params.get? "folder" with _ | w'
      · simp
      · exact absurd (hff (by simp [hf]) (by simp [hg])) (by decide)
  · intro k hk
    simp only [List.mem_cons, List.not_mem_nil, or_false, not_or] at hk
    rw [hget k hk.2.2.2.1 hk.2.2.2.2, translate_get?]
    rcases hf : params.get? "file" with _ | w
    · rcases hg : params.get? "folder" with _ | w
      · simp
      · simp [hk.2.1, hk.2.2.1]
    · simp [hk.1, hk.2.2.1]

/-- The list of one file, for the examples. -/
def exFileList : PVal → PVal
  | .str s => .strs [s]
  | v => v

/-- `GEBCO` with a single file: the loader and its parameters. -/
example : getDataloader exFileList id "GEBCO" [("file", .str "a.nc"), ("downsample_factors", .other 1)] (.num 5) =
    (.ok ("GEBCODataLoader", [("downsample_factors", .other 1), ("files", .strs ["a.nc"]), ("dataloader_name", .str "gebco"), ("min_dp", .num 5)]) :
      Py (String × Dict String PVal)) := by decide +kernel

example : Spec.SameName "GEBCO" "gebco" ∧ Spec.Given [("file", .str "a.nc")] "files" := by
  refine ⟨(sameName_iff _ _).2 (by decide +kernel), .inr ⟨rfl, .inl ⟨_, rfl⟩⟩⟩

/-- Names given in the documentation of the function that are not known. -/
example : ∀ s ∈ ["square", "era5_wave_height"], ∀ params minDp, getDataloader exFileList id s params minDp = .error .valueError := by
  intro s hs params minDp
  refine C51_unknown _ _ _ _ _ fun e he h => ?_
  have hno : ∀ s ∈ ["square", "era5_wave_height"], ∀ e ∈ table, lower s ≠ lower e.1 := by decide +kernel
  exact hno s hs e he ((sameName_iff _ _).1 h)

/-- **C51** Without the guard the claim is false: `files` is lost when `file` is given too, and a `folder`
given with a `file` is neither translated nor removed. -/
theorem C51_parameters_false :
    getDataloader exFileList id "gebco" [("files", .strs ["a.nc", "b.nc"]), ("file", .str "c.nc"), ("folder", .str "d")] (.num 5) =
    (.ok ("GEBCODataLoader", [("files", .strs ["c.nc"]), ("folder", .str "d"), ("dataloader_name", .str "gebco"), ("min_dp", .num 5)]) :
      Py (String × Dict String PVal)) := by decide +kernel

end Verif
