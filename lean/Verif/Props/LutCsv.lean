import Verif.Props.LutFiles
import Verif.Props.ExportGeo

/-!
# C96: look-up tables read from CSV files
-/

namespace Verif
open Verif.LutInit Classical

/-- The text contains the word. -/
def Spec.HasWord (word s : List Char) : Prop := ∃ a b, s = a ++ word ++ b

/-- The files have, taken together, exactly two columns, `geometry`, which comes first, and `v`. -/
def Spec.CsvColumns (files : List Csv) (v : String) : Prop :=
  v ≠ "geometry" ∧ (∀ f ∈ files, ∀ c ∈ f.columns, c = "geometry" ∨ c = v) ∧ (∃ f ∈ files, v ∈ f.columns) ∧
    (files.flatMap (·.columns)).head? = some "geometry"

/-- The row of a file with a readable polygon `p.1` and the value `p.2`, which is `NaN` if the row has none. -/
def Spec.CsvRow (loads : List Char → Option LutInit.Shape) (v : String) (r : Dict String LVal) (p : LutInit.Shape × LVal) : Prop :=
  ∃ s, Dict.get? r "geometry" = some (.text s) ∧ Spec.HasWord ['P', 'O', 'L', 'Y', 'G', 'O', 'N'] s ∧ loads s = some p.1 ∧
    (∀ w, Dict.get? r v = some w → p.2 = w) ∧ (Dict.get? r v = none → p.2 = .num none)

theorem firstSeen_head (l : List String) : (Export.firstSeen l).head? = l.head? := by
  have key : ∀ (l : List String) (a : String) (acc : List String),
      (l.foldl (fun acc k => if k ∈ acc then acc else acc ++ [k]) (a :: acc)).head? = some a := by
    intro l
    induction l with
    | nil => intro a acc; rfl
    | cons b l ih =>
      intro a acc
      rw [List.foldl_cons]
      split
      · exact ih a acc
      · rw [List.cons_append]
        exact ih a _
  cases l with
  | nil => rfl
  | cons a l =>
    unfold Export.firstSeen
    rw [List.foldl_cons, if_neg (by simp)]
    exact key l a []

theorem csvColumns_iff (files : List Csv) (v : String) : csvColumns files = ["geometry", v] ↔ Spec.CsvColumns files v := by
  have hn := (firstSeen_foldl (files.flatMap (·.columns)) [] List.nodup_nil).1
  have hm := (firstSeen_foldl (files.flatMap (·.columns)) [] List.nodup_nil).2
  have hh := firstSeen_head (files.flatMap (·.columns))
  change (csvColumns files).Nodup at hn
  change ∀ k, k ∈ csvColumns files ↔ _ at hm
  change (csvColumns files).head? = _ at hh
  simp only [List.not_mem_nil, false_or, List.mem_flatMap] at hm
  constructor
  · intro h
    rw [h] at hn hm hh
    refine ⟨fun e => ?_, fun f hf c hc => ?_, (hm v).1 (by simp), hh.symm⟩
    · subst e
      simp at hn
    · simpa using (hm c).2 ⟨f, hf, hc⟩
  · rintro ⟨h1, h2, h3, h4⟩
    rw [h4] at hh
    cases hc : csvColumns files with
    | nil => rw [hc] at hh; simp at hh
    | cons a r =>
      rw [hc] at hh
      simp only [List.head?_cons, Option.some.injEq] at hh
      subst hh
      have hv := (hm v).2 h3
      have hr : ∀ k ∈ r, k = v := by
        intro k hk
        obtain ⟨f, hf, hkf⟩ := (hm k).1 (by rw [hc]; exact List.mem_cons_of_mem _ hk)
        rcases h2 f hf k hkf with rfl | h
        · rw [hc] at hn
          exact absurd hk (List.nodup_cons.1 hn).1
        · exact h
      rw [hc] at hn hv
      have hvr : v ∈ r := (List.mem_cons.1 hv).resolve_left h1
      have hnr := (List.nodup_cons.1 hn).2
      rw [List.cons.injEq]
      refine ⟨rfl, ?_⟩
      cases r with
      | nil => simp at hvr
      | cons b r =>
        have hb := hr b List.mem_cons_self
        subst hb
        cases r with
        | nil => rfl
        | cons c r =>
          have := hr c (by simp)
          subst this
          simp at hnr

theorem csvColumns_two (files : List Csv) (h1 : (csvColumns files).length = 2) (h2 : (csvColumns files).head? = some "geometry") :
    ∃ v, csvColumns files = ["geometry", v] ∧ v ≠ "geometry" := by
  cases hc : csvColumns files with
  | nil => rw [hc] at h1; simp at h1
  | cons a r =>
    rw [hc] at h1 h2
    cases r with
    | nil => simp at h1
    | cons b r =>
      have : r = [] := List.eq_nil_of_length_eq_zero (by simpa using h1)
      subst this
      simp only [List.head?_cons, Option.some.injEq] at h2
      subst h2
      exact ⟨b, rfl, ((csvColumns_iff files b).1 hc).1⟩

theorem otherColumn_eq (v : String) (h : v ≠ "geometry") : otherColumn ["geometry", v] = v := by
  unfold otherColumn
  simp [h]

theorem hasPolygon_iff (s : List Char) : hasPolygon s = true ↔ Spec.HasWord ['P', 'O', 'L', 'Y', 'G', 'O', 'N'] s := by
  have e : "POLYGON".toList = ['P', 'O', 'L', 'Y', 'G', 'O', 'N'] := by decide +kernel
  unfold hasPolygon Spec.HasWord
  rw [e]
  have hd : ∀ (i : Decidable (['P', 'O', 'L', 'Y', 'G', 'O', 'N'] <:+: s)), @decide _ i = true ↔ ['P', 'O', 'L', 'Y', 'G', 'O', 'N'] <:+: s :=
    fun i => @decide_eq_true_iff _ i
  refine (hd _).trans ?_
  constructor
  · rintro ⟨a, b, h⟩; exact ⟨a, b, h.symm⟩
  · rintro ⟨a, b, h⟩; exact ⟨a, b, h.symm⟩

theorem loadShape_ok (loads : List Char → Option LutInit.Shape) (w : LVal) (p : LutInit.Shape) :
    loadShape loads w = .ok p ↔ ∃ s, w = .text s ∧ loads s = some p := by
  cases w with
  | num q => simp [loadShape]
  | bool b => simp [loadShape]
  | text s => cases h : loads s <;> simp [loadShape, h]

theorem csvEntry_iff (r : Dict String LVal) (v : String) (w : LVal) :
    csvEntry r v = w ↔ (∀ w', Dict.get? r v = some w' → w = w') ∧ (Dict.get? r v = none → w = .num none) := by
  unfold csvEntry
  cases h : Dict.get? r v <;> simp [eq_comm]

theorem csvEntry_text (r : Dict String LVal) (v : String) (s : List Char) :
    csvEntry r v = .text s ↔ Dict.get? r v = some (.text s) := by
  unfold csvEntry
  cases h : Dict.get? r v <;> simp

theorem containsPolygon_true (l : List LVal) (h : ∀ w ∈ l, ∃ s, w = .text s ∧ hasPolygon s = true) : containsPolygon l = .ok true := by
  unfold containsPolygon
  rw [if_neg]
  · congr 1
    rw [List.all_eq_true]
    intro w hw
    obtain ⟨s, rfl, hs⟩ := h w hw
    exact hs
  · rintro ⟨hl, ha⟩
    obtain ⟨w, hw⟩ := List.exists_mem_of_ne_nil _ hl
    obtain ⟨s, rfl, -⟩ := h w hw
    have := List.all_eq_true.1 ha _ hw
    simp [isText] at this

theorem containsPolygon_source (l : List LVal) (h : containsPolygon l = .ok true) (s : List Char) (hs : .text s ∈ l) : hasPolygon s = true := by
  unfold containsPolygon at h
  split at h
  · simp at h
  · rw [Except.ok.injEq] at h
    exact List.all_eq_true.1 h _ hs

/-- The rows of readable files. -/
theorem csv_rows (loads : List Char → Option LutInit.Shape) (v : String) (rows : List (Dict String LVal)) (ps : List (LutInit.Shape × LVal)) :
    (containsPolygon (rows.map (csvEntry · "geometry")) = .ok true ∧
      rows.mapM (fun r => do return ((← loadShape loads (csvEntry r "geometry")), csvEntry r v)) = .ok ps) ↔
    List.Forall₂ (Spec.CsvRow loads v) rows ps := by
  have step : ∀ r p, ((do return ((← loadShape loads (csvEntry r "geometry")), csvEntry r v) : Py _) = .ok p ↔
      ∃ s, Dict.get? r "geometry" = some (.text s) ∧ loads s = some p.1 ∧ csvEntry r v = p.2) := by
    intro r p
    cases hl : loadShape loads (csvEntry r "geometry") with
    | error e =>
      simp only [bind, Except.bind, reduceCtorEq, false_iff]
      rintro ⟨s, h1, h2, -⟩
      have := (loadShape_ok loads (csvEntry r "geometry") p.1).2 ⟨s, (csvEntry_text _ _ _).2 h1, h2⟩
      rw [hl] at this
      simp at this
    | ok q =>
      obtain ⟨s, h1, h2⟩ := (loadShape_ok loads _ q).1 hl
      rw [csvEntry_text] at h1
      simp only [bind, Except.bind, pure, Except.pure, Except.ok.injEq]
      constructor
      · rintro rfl
        exact ⟨s, h1, h2, rfl⟩
      · rintro ⟨s', h1', h2', h3⟩
        rw [h1] at h1'
        simp only [Option.some.injEq, LVal.text.injEq] at h1'
        subst h1'
        rw [h2, Option.some.injEq] at h2'
        exact Prod.ext h2' h3
  rw [mapM_ok_iff]
  constructor
  · rintro ⟨hc, hf⟩
    have hw : ∀ r ∈ rows, ∀ s, Dict.get? r "geometry" = some (.text s) → hasPolygon s = true := fun r hr s hs =>
      containsPolygon_source _ hc s (List.mem_map.2 ⟨r, hr, (csvEntry_text _ _ _).2 hs⟩)
    clear hc
    induction hf with
    | nil => exact .nil
    | @cons r p rows ps h _ ih =>
      refine .cons ?_ (ih fun r' hr' => hw r' (List.mem_cons_of_mem _ hr'))
      obtain ⟨s, h1, h2, h3⟩ := (step r p).1 h
      have h4 := (csvEntry_iff r v p.2).1 h3
      exact ⟨s, h1, (hasPolygon_iff s).1 (hw r List.mem_cons_self s h1), h2, h4.1, h4.2⟩
  · intro hf
    constructor
    · apply containsPolygon_true
      induction hf with
      | nil => simp
      | cons h _ ih =>
        intro w hw
        rw [List.map_cons, List.mem_cons] at hw
        rcases hw with rfl | hw
        · obtain ⟨s, h1, h2, -⟩ := h
          exact ⟨s, (csvEntry_text _ _ _).2 h1, (hasPolygon_iff s).2 h2⟩
        · exact ih w hw
    · refine hf.imp fun r p h => (step r p).2 ?_
      obtain ⟨s, h1, -, h3, h4, h5⟩ := h
      exact ⟨s, h1, h3, (csvEntry_iff r v p.2).2 ⟨h4, h5⟩⟩

/-- The table that is made of readable files. -/
theorem importCsv_ok (loads : List Char → Option LutInit.Shape) (rep : (ℚ → ℚ → Prop) → LutInit.Shape) (files : List Csv)
    (cell : ℚ → ℚ → Prop) (time : ℤ × ℤ) (res : Option String × LTable) :
    importCsv loads rep files cell time = .ok res ↔ ∃ v ps, Spec.CsvColumns files v ∧
      List.Forall₂ (Spec.CsvRow loads v) (files.flatMap (·.rows)) ps ∧
      res = (some v, LutInit.trim cell time ⟨false, [some "geometry", some v], withRest rep ps (.num none)⟩) := by
  constructor
  · intro h
    unfold importCsv at h
    by_cases hf : files = []
    · rw [if_pos hf] at h; simp at h
    rw [if_neg hf] at h
    dsimp only at h
    by_cases hg : "geometry" ∈ csvColumns files
    swap
    · rw [if_neg hg] at h; simp at h
    rw [if_pos hg] at h
    cases hc : containsPolygon ((files.flatMap (·.rows)).map (csvEntry · "geometry")) with
    | error e => rw [hc] at h; simp [bind, Except.bind] at h
    | ok b =>
      rw [hc] at h
      cases b with
      | false => simp [bind, Except.bind] at h
      | true =>
        simp only [bind, Except.bind, if_true] at h
        by_cases hl : (csvColumns files).length = 2
        swap
        · rw [if_neg hl] at h; simp at h
        rw [if_pos hl] at h
        cases hm : (files.flatMap (·.rows)).mapM
            (fun r => do return ((← loadShape loads (csvEntry r "geometry")), csvEntry r (otherColumn (csvColumns files)))) with
        | error e =>
          simp only [bind, Except.bind] at hm
          rw [hm] at h
          simp at h
        | ok ps =>
          have hm' := hm
          simp only [bind, Except.bind] at hm'
          rw [hm'] at h
          dsimp only at h
          by_cases hh : (csvColumns files).head? = some "geometry"
          swap
          · rw [if_neg hh] at h; simp at h
          rw [if_pos hh] at h
          obtain ⟨v, hv, hvg⟩ := csvColumns_two files hl hh
          rw [hv, otherColumn_eq v hvg] at hm
          rw [hv, otherColumn_eq v hvg] at h
          simp only [pure, Except.pure, Except.ok.injEq] at h
          exact ⟨v, ps, (csvColumns_iff files v).1 hv, (csv_rows loads v _ ps).1 ⟨hc, hm⟩, h.symm⟩
  · rintro ⟨v, ps, hv, hp, rfl⟩
    have hcol := (csvColumns_iff files v).2 hv
    obtain ⟨hc, hm⟩ := (csv_rows loads v _ ps).2 hp
    have hf : files ≠ [] := by
      rintro rfl
      simp [Spec.CsvColumns] at hv
    unfold importCsv
    rw [if_neg hf, hcol]
    dsimp only
    rw [otherColumn_eq v hv.1, hc, hm]
    simp [bind, Except.bind, pure, Except.pure]

/-- **C96** Which files of tables are read: there is a file, all columns are called `geometry` or `v`, both occur and `geometry` comes
first, and every row has a readable text with the word `POLYGON` in the column `geometry`. -/
theorem C96_accepted (loads : List Char → Option LutInit.Shape) (rep : (ℚ → ℚ → Prop) → LutInit.Shape) (files : List Csv)
    (cell : ℚ → ℚ → Prop) (time : ℤ × ℤ) :
    (∃ res, importCsv loads rep files cell time = .ok res) ↔ (∃ v, Spec.CsvColumns files v) ∧ ∀ f ∈ files, ∀ r ∈ f.rows,
      ∃ s p, Dict.get? r "geometry" = some (.text s) ∧ Spec.HasWord ['P', 'O', 'L', 'Y', 'G', 'O', 'N'] s ∧ loads s = some p := by
  constructor
  · rintro ⟨res, h⟩
    obtain ⟨v, ps, hv, hp, -⟩ := (importCsv_ok loads rep files cell time res).1 h
    refine ⟨⟨v, hv⟩, fun f hf r hr => ?_⟩
    have hr' : r ∈ files.flatMap (·.rows) := List.mem_flatMap.2 ⟨f, hf, hr⟩
    generalize files.flatMap (·.rows) = rows at hp hr'
    induction hp with
    | nil => simp at hr'
    | @cons r₀ p₀ rows ps h _ ih =>
      rcases List.mem_cons.1 hr' with rfl | hr'
      · obtain ⟨s, h1, h2, h3, -⟩ := h
        exact ⟨s, p₀.1, h1, h2, h3⟩
      · exact ih hr'
  · rintro ⟨⟨v, hv⟩, hr⟩
    have : ∀ rows : List (Dict String LVal), (∀ r ∈ rows, ∃ s p, Dict.get? r "geometry" = some (.text s) ∧
        Spec.HasWord ['P', 'O', 'L', 'Y', 'G', 'O', 'N'] s ∧ loads s = some p) → ∃ ps, List.Forall₂ (Spec.CsvRow loads v) rows ps := by
      intro rows
      induction rows with
      | nil => exact fun _ => ⟨[], .nil⟩
      | cons r rows ih =>
        intro h
        obtain ⟨ps, hps⟩ := ih fun r' hr' => h r' (List.mem_cons_of_mem _ hr')
        obtain ⟨s, p, h1, h2, h3⟩ := h r List.mem_cons_self
        exact ⟨(p, csvEntry r v) :: ps, .cons ⟨s, h1, h2, h3, ((csvEntry_iff r v _).1 rfl).1, ((csvEntry_iff r v _).1 rfl).2⟩ hps⟩
    obtain ⟨ps, hps⟩ := this (files.flatMap (·.rows)) (fun r hr' => by
      obtain ⟨f, hf, hrf⟩ := List.mem_flatMap.1 hr'
      exact hr f hf r hrf)
    exact ⟨_, (importCsv_ok loads rep files cell time _).2 ⟨v, ps, hv, hps, rfl⟩⟩

/-- **C96** Files with the column `geometry` after the other, but otherwise readable, raise `TypeError`. -/
theorem C96_order (loads : List Char → Option LutInit.Shape) (rep : (ℚ → ℚ → Prop) → LutInit.Shape) (files : List Csv) (cell : ℚ → ℚ → Prop)
    (time : ℤ × ℤ) (v : String) (hv : v ≠ "geometry") (hne : files ≠ []) (hc : ∀ f ∈ files, f.columns = [v, "geometry"])
    (hr : ∀ f ∈ files, ∀ r ∈ f.rows, ∃ s p, Dict.get? r "geometry" = some (.text s) ∧
      Spec.HasWord ['P', 'O', 'L', 'Y', 'G', 'O', 'N'] s ∧ loads s = some p) :
    importCsv loads rep files cell time = .error .typeError := by
  have hcol : csvColumns files = [v, "geometry"] := by
    cases files with
    | nil => simp at hne
    | cons f fs =>
      unfold csvColumns Export.firstSeen
      rw [List.flatMap_cons, hc f List.mem_cons_self, List.foldl_append]
      have h0 : [v, "geometry"].foldl (fun acc k => if k ∈ acc then acc else acc ++ [k]) [] = [v, "geometry"] := by
        simp [Ne.symm hv]
      rw [h0]
      have : ∀ l : List String, (∀ k ∈ l, k = v ∨ k = "geometry") →
          l.foldl (fun acc k => if k ∈ acc then acc else acc ++ [k]) [v, "geometry"] = [v, "geometry"] := by
        intro l
        induction l with
        | nil => exact fun _ => rfl
        | cons a l ih =>
          intro h
          rw [List.foldl_cons, if_pos (by simpa using h a List.mem_cons_self)]
          exact ih fun k hk => h k (List.mem_cons_of_mem _ hk)
      apply this
      intro k hk
      obtain ⟨g, hg, hkg⟩ := List.mem_flatMap.1 hk
      rw [hc g (List.mem_cons_of_mem _ hg)] at hkg
      simpa using hkg
  have ho : otherColumn [v, "geometry"] = v := by
    unfold otherColumn
    simp [hv]
  have hcp : containsPolygon ((files.flatMap (·.rows)).map (csvEntry · "geometry")) = .ok true := by
    apply containsPolygon_true
    intro w hw
    obtain ⟨r, hr', rfl⟩ := List.mem_map.1 hw
    obtain ⟨f, hf, hrf⟩ := List.mem_flatMap.1 hr'
    obtain ⟨s, p, h1, h2, -⟩ := hr f hf r hrf
    exact ⟨s, (csvEntry_text _ _ _).2 h1, (hasPolygon_iff s).2 h2⟩
  obtain ⟨ps, hm⟩ := mapM_ok_exists (f := fun r => (do return ((← loadShape loads (csvEntry r "geometry")), csvEntry r v) : Py _))
      (l := files.flatMap (·.rows)) |>.2 (by
    intro r hr'
    obtain ⟨f, hf, hrf⟩ := List.mem_flatMap.1 hr'
    obtain ⟨s, p, h1, -, h3⟩ := hr f hf r hrf
    refine ⟨(p, csvEntry r v), ?_⟩
    rw [(loadShape_ok loads _ p).2 ⟨s, (csvEntry_text _ _ _).2 h1, h3⟩]
    rfl)
  unfold importCsv
  rw [if_neg hne, hcol]
  dsimp only
  rw [ho, hcp, hm]
  simp [bind, Except.bind, hv]

/-- **C96** For readable files of polygons and multipolygons and a region on the globe the loader is made.  Its name is that of the
column of the files, whatever the configuration says, and every cell finds exactly the polygons of the files that reach it, with their
values, and those of the rest of the globe, with `NaN`. -/
theorem C96_table (area : (ℚ → ℚ → Prop) → ℚ) (loads : List Char → Option LutInit.Shape) (rep : (ℚ → ℚ → Prop) → LutInit.Shape)
    (hrep : Spec.Represents rep) (files : List Csv) (v : String) (hv : Spec.CsvColumns files v) (hvt : v ≠ "time")
    (ps : List (LutInit.Shape × LVal)) (hp : List.Forall₂ (Spec.CsvRow loads v) (files.flatMap (·.rows)) ps)
    (hs : ∀ p ∈ ps, Spec.Areal p.1) (cell : ℚ → ℚ → Prop) (hcell : ∀ x y, cell x y → Spec.Globe x y) (hne : ∃ x y, cell x y)
    (harea : area cell ≠ 0) (time : ℤ × ℤ) (params : Dict String JVal) (n : Option String) (hn : Spec.Named params n) :
    ∃ l, csvFiles area loads rep files cell time params = .ok l ∧ l.name = some v ∧ l.table.columns = [some "geometry", some v] ∧
      ∀ c time', (∀ x y, c x y → cell x y) → Spec.found c time' l =
        (Spec.inCell c (Spec.polygons ps ++ (Spec.partsOf (rep (Spec.Rest (ps.map Prod.fst)))).map (fun g => (g, .num none)))).map
          (fun p => (.polygon p.1, p.2)) := by
  obtain ⟨l, h1, h2, h3, h4⟩ := init_covered area (fun _ => importCsv loads rep files cell time) cell time (addDefaults "LutCSV" params) n
    (some v) (some v) (withRest rep ps (.num none)) (by simpa using ⟨hvt, hv.1⟩) (named_ok hn (defaults_name _ params))
    ((importCsv_ok loads rep files cell time _).2 ⟨v, ps, hv, hp, rfl⟩) (mapIdx_labels _) (withRest_areal rep hrep _ _ hs)
    (fun x y hxy => withRest_covers rep hrep _ _ x y (hcell x y hxy)) hne harea
  refine ⟨l, h1, ?_, h3, fun c time' hc => ?_⟩
  · rw [h2]; rfl
  · have hc' : complement (ps.map Prod.fst) = Spec.Rest (ps.map Prod.fst) := by
      funext x y
      refine propext (complement_iff (fun s hs' => ?_) x y)
      obtain ⟨p, hp', rfl⟩ := List.mem_map.1 hs'
      exact hs p hp'
    rw [h4 c time' hc, withRest_content, hc']
    unfold Spec.polygons
    simp only [List.flatMap_append, List.flatMap_cons, List.flatMap_nil, List.append_nil]

/-! ### Examples -/

/-- One zone with the value 5, written as a text. -/
def exCsv : Csv := ⟨["geometry", "speed"], [[("geometry", .text ['P', 'O', 'L', 'Y', 'G', 'O', 'N']), ("speed", .num (some 5))]]⟩

/-- The reader of texts of the examples. -/
def exLoads : List Char → Option LutInit.Shape := fun _ => some (.polygon (Spec.square 0))

theorem exCsv_rows : List.Forall₂ (Spec.CsvRow exLoads "speed") ([exCsv].flatMap (·.rows)) [(.polygon (Spec.square 0), .num (some 5))] := by
  refine .cons ⟨['P', 'O', 'L', 'Y', 'G', 'O', 'N'], rfl, ⟨[], [], rfl⟩, rfl, ?_, ?_⟩ .nil
  · intro w hw
    have : Dict.get? (exCsv.rows.headD []) "speed" = some (.num (some 5)) := rfl
    exact Option.some.inj (this.symm.trans hw)
  · intro hw
    have : Dict.get? (exCsv.rows.headD []) "speed" = some (.num (some 5)) := rfl
    exact absurd (this.symm.trans hw) (by simp)

/-- A file with a zone is loaded under the name of its column although the configuration gives another. -/
example : ∃ l, csvFiles (fun _ => 1) exLoads (fun s => .polygon ⟨s, fun _ _ => False⟩) [exCsv] (fun x y => x = 0 ∧ y = 0) (0, 0)
    [("data_name", .str ['z'])] = .ok l ∧ l.name = some "speed" := by
  obtain ⟨l, h1, h2, -⟩ := C96_table (fun _ => 1) exLoads (fun s => .polygon ⟨s, fun _ _ => False⟩)
    (fun _ => ⟨.inl ⟨_, rfl⟩, fun _ _ => Iff.rfl⟩) [exCsv] "speed"
    ⟨by decide, by simp [exCsv], ⟨exCsv, by simp, by simp [exCsv]⟩, rfl⟩ (by decide) _ exCsv_rows
    (by
      intro p hp
      rw [List.mem_singleton] at hp
      subst hp
      exact .inl ⟨_, rfl⟩) (fun x y => x = 0 ∧ y = 0)
    (by rintro x y ⟨rfl, rfl⟩; norm_num [Spec.Globe]) ⟨0, 0, rfl, rfl⟩ (by norm_num) (0, 0) [("data_name", .str ['z'])] (some "z")
    (.inr ⟨['z'], rfl, rfl⟩)
  exact ⟨l, h1, h2⟩

/-- The same file with the columns in the other order. -/
example : importCsv exLoads (fun s => .polygon ⟨s, fun _ _ => False⟩) [⟨["speed", "geometry"], exCsv.rows⟩] (fun x y => x = 0 ∧ y = 0) (0, 0) =
    .error .typeError := by
  refine C96_order _ _ _ _ _ "speed" (by decide) (by simp) (by simp) ?_
  intro f hf r hr
  rw [List.mem_singleton] at hf
  subst hf
  simp only [exCsv, List.mem_singleton] at hr
  subst hr
  exact ⟨_, _, rfl, ⟨[], [], rfl⟩, rfl⟩

end Verif
