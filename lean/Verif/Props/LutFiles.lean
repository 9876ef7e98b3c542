import Mathlib.Tactic.NormNum
import Mathlib.Tactic.FieldSimp
import Verif.Props.LutVerify
import Verif.Props.Lut

/-!
# C92–C94: look-up tables read from files of shapes, their values and their names
-/

namespace Verif
open Verif.LutInit Classical

/-- The two sets have a common point. -/
def Spec.Touch (a b : ℚ → ℚ → Prop) : Prop := ∃ x y, a x y ∧ b x y

/-- Some geometry of the list has a point in the cell. -/
def Spec.Reaches (shapes : List LutInit.Shape) (cell : ℚ → ℚ → Prop) : Prop := ∃ s ∈ shapes, ∃ g ∈ Spec.partsOf s, Spec.Touch g.mem cell

/-- The points of the geometries of a list. -/
def Spec.Covered (shapes : List LutInit.Shape) (x y : ℚ) : Prop := ∃ s ∈ shapes, ∃ g ∈ Spec.partsOf s, g.mem x y

/-- The globe in longitudes and latitudes. -/
def Spec.Globe (x y : ℚ) : Prop := (-180 ≤ x ∧ x ≤ 180) ∧ (-90 ≤ y ∧ y ≤ 90)

/-- The point lies inside the set: so does a square around it. -/
def Spec.WithinSet (s : ℚ → ℚ → Prop) (x y : ℚ) : Prop := ∃ e, 0 < e ∧ ∀ x' y', |x' - x| < e → |y' - y| < e → s x' y'

/-- The point lies on the globe and arbitrarily near it there are points of the globe outside of all the geometries. -/
def Spec.Rest (shapes : List LutInit.Shape) (x y : ℚ) : Prop :=
  ∀ e, 0 < e → ∃ x' y', |x' - x| < e ∧ |y' - y| < e ∧ Spec.Globe x' y' ∧ ¬ Spec.Covered shapes x' y'

theorem areal_mem {s : LutInit.Shape} (hs : Spec.Areal s) (x y : ℚ) : s.mem x y ↔ ∃ g ∈ Spec.partsOf s, g.mem x y := by
  rcases hs with ⟨g, rfl⟩ | ⟨parts, rfl⟩ <;> simp [LutInit.Shape.mem, Spec.partsOf]

theorem covered_iff {shapes : List LutInit.Shape} (h : ∀ s ∈ shapes, Spec.Areal s) (x y : ℚ) :
    Spec.Covered shapes x y ↔ ∃ s ∈ shapes, s.mem x y :=
  exists_congr fun s => and_congr_right fun hs => (areal_mem (h s hs) x y).symm

theorem world_iff (x y : ℚ) : world x y ↔ Spec.Globe x y := by
  unfold world Spec.Globe
  tauto

theorem complement_iff {shapes : List LutInit.Shape} (h : ∀ s ∈ shapes, Spec.Areal s) (x y : ℚ) :
    complement shapes x y ↔ Spec.Rest shapes x y := by
  unfold complement Spec.Rest
  simp only [covered_iff h, world_iff]

/-! ### The common part of the loaders of files -/

/-- The polygons of rows of geometries with values. -/
def Spec.polygons (rows : List (LutInit.Shape × LVal)) : List (Lut.Geom × LVal) :=
  rows.flatMap (fun r => (Spec.partsOf r.1).map (fun g => (g, r.2)))

/-- Those polygons that have a point in the cell. -/
noncomputable def Spec.inCell (cell : ℚ → ℚ → Prop) (l : List (Lut.Geom × LVal)) : List (Lut.Geom × LVal) :=
  l.filter (fun p => Spec.Touch p.1.mem cell)

/-- The rows of a table that lie in a cell. -/
noncomputable def Spec.found (cell : ℚ → ℚ → Prop) (time : ℤ × ℤ) (l : LutInit.Loader) : List (LutInit.Shape × LVal) :=
  (LutInit.trim cell time l.table).rows.map Spec.content

theorem trim_untimed (cell : ℚ → ℚ → Prop) (time : ℤ × ℤ) (columns : List (Option String)) (rows : List TRow) :
    LutInit.trim cell time ⟨false, columns, rows⟩ = ⟨false, columns, rows.filter (fun r => Spec.Touch r.shape.mem cell)⟩ := rfl

theorem mapIdx_labels (l : List (LutInit.Shape × LVal)) :
    ((l.mapIdx (fun i r => (⟨(i : ℤ), r.1, r.2⟩ : TRow))).map (·.label)).Nodup := by
  have h : (l.mapIdx (fun i r => (⟨(i : ℤ), r.1, r.2⟩ : TRow))).map (·.label) = (List.range l.length).map (fun i : ℕ => (i : ℤ)) := by
    apply List.ext_getElem <;> simp
  rw [h]
  exact List.nodup_range.map (fun a b h => by exact_mod_cast h)

theorem mapIdx_rows_content (l : List (LutInit.Shape × LVal)) :
    (l.mapIdx (fun i r => (⟨(i : ℤ), r.1, r.2⟩ : TRow))).map Spec.content = l := by
  apply List.ext_getElem
  · simp
  · intro i h1 h2
    simp [Spec.content]

theorem filter_content (cell : ℚ → ℚ → Prop) (l : List TRow) :
    (l.filter (fun r => Spec.Touch r.shape.mem cell)).map Spec.content = (l.map Spec.content).filter (fun c => Spec.Touch c.1.mem cell) := by
  rw [List.filter_map]
  rfl

/-- The polygons of the rows that touch the cell, of which again those that touch the cell are taken. -/
theorem pieces_filter (cell c : ℚ → ℚ → Prop) (hc : ∀ x y, c x y → cell x y) (rows : List TRow) (h : ∀ r ∈ rows, Spec.Areal r.shape) :
    ((rows.filter (fun r => Spec.Touch r.shape.mem cell)).flatMap Spec.pieces).filter (fun p => Spec.Touch p.1.mem c) =
      (Spec.inCell c (Spec.polygons (rows.map Spec.content))).map (fun p => (.polygon p.1, p.2)) := by
  induction rows with
  | nil => rfl
  | cons r rows ih =>
    have ih := ih fun r' hr' => h r' (List.mem_cons_of_mem _ hr')
    have hr := h r List.mem_cons_self
    have hp : (Spec.pieces r).filter (fun p => Spec.Touch p.1.mem c) =
        (Spec.inCell c ((Spec.partsOf r.shape).map (fun g => (g, r.value)))).map (fun p => (.polygon p.1, p.2)) := by
      unfold Spec.pieces Spec.inCell
      rw [List.filter_map, List.filter_map, List.map_map]
      rfl
    simp only [List.map_cons, Spec.polygons, List.flatMap_cons, Spec.inCell, List.filter_append, List.map_append] at ih ⊢
    unfold Spec.inCell at hp
    rw [← ih]
    by_cases ht : Spec.Touch r.shape.mem cell
    · rw [List.filter_cons, if_pos (by simpa using ht), List.flatMap_cons, List.filter_append, hp]
      rfl
    · rw [List.filter_cons, if_neg (by simpa using ht)]
      have : List.filter (fun p => decide (Spec.Touch p.1.mem c)) ((Spec.partsOf (Spec.content r).1).map (fun g => (g, (Spec.content r).2))) = [] := by
        rw [List.filter_eq_nil_iff]
        intro p hp
        obtain ⟨g, hg, rfl⟩ := List.mem_map.1 hp
        simp only [decide_eq_true_eq]
        rintro ⟨x, y, hx, hy⟩
        exact ht ⟨x, y, (areal_mem hr x y).2 ⟨g, hg, hx⟩, hc x y hy⟩
      rw [this]
      rfl

/-- What `__init__` makes of a table whose rows cover the region. -/
theorem init_table (area : (ℚ → ℚ → Prop) → ℚ) (cell : ℚ → ℚ → Prop) (time : ℤ × ℤ) (columns : List (Option String)) (rows : List TRow)
    (hl : (rows.map (·.label)).Nodup) (ha : ∀ r ∈ rows, Spec.Areal r.shape) (hc : ∀ x y, cell x y → ∃ r ∈ rows, r.shape.mem x y)
    (hne : ∃ x y, cell x y) (harea : area cell ≠ 0) :
    ∃ t, verify (LutInit.trim cell time ⟨false, columns, rows⟩) = .ok t ∧ LutInit.coverage area cell t = .ok 1 ∧ t.timed = false ∧ t.columns = columns ∧
      ∀ c time', (∀ x y, c x y → cell x y) → (LutInit.trim c time' (LutInit.trim cell time t)).rows.map Spec.content =
        (Spec.inCell c (Spec.polygons (rows.map Spec.content))).map (fun p => (.polygon p.1, p.2)) := by
  rw [trim_untimed]
  have hlab : ((rows.filter (fun r => Spec.Touch r.shape.mem cell)).map (·.label)).Nodup :=
    hl.sublist (List.filter_sublist.map _)
  have hrows : ∀ r ∈ rows.filter (fun r => Spec.Touch r.shape.mem cell), Spec.Areal r.shape := fun r hr => ha r (List.mem_filter.1 hr).1
  obtain ⟨t, ht⟩ := (C91_accepted ⟨false, columns, rows.filter (fun r => Spec.Touch r.shape.mem cell)⟩).1.2 (by
    constructor
    · obtain ⟨x, y, hxy⟩ := hne
      obtain ⟨r, hr, hm⟩ := hc x y hxy
      exact List.ne_nil_of_mem (List.mem_filter.2 ⟨hr, by simpa using ⟨x, y, hm, hxy⟩⟩)
    · intro r hr
      refine ⟨hrows r hr, fun parts hp => ⟨?_, sameLabel_nodup _ hlab r hr⟩⟩
      have := (List.mem_filter.1 hr).2
      simp only [decide_eq_true_eq] at this
      obtain ⟨x, y, hx, -⟩ := this
      rw [hp] at hx
      obtain ⟨g, hg, -⟩ := hx
      exact List.ne_nil_of_mem hg)
  have hcont := C91_once _ t hlab ht
  obtain ⟨frames, -, -, hte⟩ := (verify_ok_frames _ t).1 ht
  have htimed : t.timed = false := by rw [hte]
  have hcols : t.columns = columns := by rw [hte]
  dsimp only at hcont
  have hmem : ∀ x y, cell x y → ∃ r ∈ t.rows, r.shape.mem x y := by
    intro x y hxy
    obtain ⟨r, hr, hm⟩ := hc x y hxy
    obtain ⟨g, hg, hgm⟩ := (areal_mem (ha r hr) x y).1 hm
    have : (LutInit.Shape.polygon g, r.value) ∈ t.rows.map Spec.content := by
      rw [hcont]
      refine List.mem_flatMap.2 ⟨r, List.mem_filter.2 ⟨hr, by simpa using ⟨x, y, hm, hxy⟩⟩, List.mem_map.2 ⟨g, hg, rfl⟩⟩
    obtain ⟨r', hr', he⟩ := List.mem_map.1 this
    refine ⟨r', hr', ?_⟩
    have h1 : r'.shape = .polygon g := (Prod.mk.injEq .. ▸ he : _ ∧ _).1
    rw [h1]
    exact hgm
  refine ⟨t, ht, ?_, htimed, hcols, ?_⟩
  · unfold LutInit.coverage
    have hr : t.rows ≠ [] := by
      obtain ⟨x, y, hxy⟩ := hne
      obtain ⟨r, hr, -⟩ := hmem x y hxy
      exact List.ne_nil_of_mem hr
    have hset : (fun x y => (∃ r ∈ t.rows, r.shape.mem x y) ∧ cell x y) = cell := by
      funext x y
      exact propext ⟨fun h => h.2, fun h => ⟨hmem x y h, h⟩⟩
    rw [if_neg hr, if_neg harea, hset, div_self harea]
  · intro c time' hcc
    obtain ⟨tt, tc, tr⟩ := t
    subst htimed
    rw [trim_untimed, trim_untimed]
    dsimp only at hcont ⊢
    rw [List.filter_filter]
    have : (tr.filter fun r => decide (Spec.Touch r.shape.mem c) && decide (Spec.Touch r.shape.mem cell)) =
        tr.filter fun r => decide (Spec.Touch r.shape.mem c) := by
      refine List.filter_congr fun r _ => ?_
      by_cases h : Spec.Touch r.shape.mem c
      · obtain ⟨x, y, h1, h2⟩ := h
        have h' : Spec.Touch r.shape.mem cell := ⟨x, y, h1, hcc x y h2⟩
        simp [h']
      · simp [h]
    rw [this, filter_content, hcont]
    exact pieces_filter cell c hcc rows ha

/-- The result of `__init__` for such a table. -/
theorem init_covered (area : (ℚ → ℚ → Prop) → ℚ) (imp : Option String → Py (Option String × LTable)) (cell : ℚ → ℚ → Prop) (time : ℤ × ℤ)
    (params : Dict String JVal) (n name col : Option String) (rows : List TRow) (hcol : col ∉ [some "time", some "geometry"])
    (hn : dataName params = .ok n) (himp : imp n = .ok (name, LutInit.trim cell time ⟨false, [some "geometry", col], rows⟩))
    (hl : (rows.map (·.label)).Nodup) (ha : ∀ r ∈ rows, Spec.Areal r.shape) (hc : ∀ x y, cell x y → ∃ r ∈ rows, r.shape.mem x y)
    (hne : ∃ x y, cell x y) (harea : area cell ≠ 0) :
    ∃ l, LutInit.init area imp cell time params = .ok l ∧ l.name = (if name = none then col else name) ∧
      l.table.columns = [some "geometry", col] ∧
      ∀ c time', (∀ x y, c x y → cell x y) →
        Spec.found c time' l = (Spec.inCell c (Spec.polygons (rows.map Spec.content))).map (fun p => (.polygon p.1, p.2)) := by
  obtain ⟨t, h1, h2, h3, h4, h5⟩ := init_table area cell time [some "geometry", col] rows hl ha hc hne harea
  refine ⟨⟨if name = none then col else name, LutInit.trim cell time t⟩, ?_, rfl, h4, h5⟩
  have hgc : getDataColName (LutInit.trim cell time ⟨false, [some "geometry", col], rows⟩) = .ok col := by
    unfold getDataColName
    rw [trim_untimed]
    simp only [List.mem_cons, List.not_mem_nil, or_false, not_or] at hcol
    simp [hcol.1, hcol.2]
  unfold LutInit.init
  rw [hn]
  simp only [bind, Except.bind, himp]
  cases name with
  | none => simp only [hgc, h1, h2, pure, Except.pure]; norm_num
  | some m => simp only [setDataColName, bind, Except.bind, pure, Except.pure, hgc, h1, h2]; simp

/-! ### C92 -/

/-- How the difference of the world and the shapes is represented: by a polygon or multipolygon with the same points. -/
def Spec.Represents (rep : (ℚ → ℚ → Prop) → LutInit.Shape) : Prop := ∀ s, Spec.Areal (rep s) ∧ ∀ x y, (rep s).mem x y ↔ s x y

theorem addDefault_get (params : Dict String JVal) (k k' : String) (v : JVal) :
    Dict.get? (addDefault params k v) k' = if k = k' then some ((Dict.get? params k').getD v) else Dict.get? params k' := by
  unfold addDefault
  by_cases h : k = k'
  · subst h
    cases hg : Dict.get? params k with
    | some w => simp [hg]
    | none => simp [Dict.get?_set]
  · cases hg : Dict.get? params k with
    | some w => simp [h]
    | none => simp [Dict.get?_set, h]

theorem defaults_name (cls : String) (params : Dict String JVal) :
    Dict.get? (addDefaults cls params) "data_name" = some ((Dict.get? params "data_name").getD .null) := by
  unfold addDefaults
  simp [addDefault_get]

theorem fileDefaults_name (cls : String) (params : Dict String JVal) :
    Dict.get? (addFileDefaults cls params) "data_name" = some ((Dict.get? params "data_name").getD .null) := by
  unfold addFileDefaults
  rw [addDefault_get, defaults_name]
  simp

/-- The name in the parameters, `none` if there is none (or `null`). -/
def Spec.Named (params : Dict String JVal) (n : Option String) : Prop :=
  (n = none ∧ (Dict.get? params "data_name" = none ∨ Dict.get? params "data_name" = some .null)) ∨
  ∃ s : List Char, n = some (String.ofList s) ∧ Dict.get? params "data_name" = some (.str s)

theorem named_ok {params : Dict String JVal} {n : Option String} (h : Spec.Named params n) {p : Dict String JVal}
    (hp : Dict.get? p "data_name" = some ((Dict.get? params "data_name").getD .null)) : dataName p = .ok n := by
  unfold dataName Dict.get
  rcases h with ⟨rfl, h | h⟩ | ⟨s, rfl, h⟩ <;> rw [h] at hp <;> simp [hp, bind, Except.bind, pure, Except.pure]

theorem withRest_content (rep : (ℚ → ℚ → Prop) → LutInit.Shape) (rows : List (LutInit.Shape × LVal)) (alt : LVal) :
    (withRest rep rows alt).map Spec.content = rows ++ [(rep (complement (rows.map Prod.fst)), alt)] :=
  mapIdx_rows_content _

theorem withRest_areal (rep : (ℚ → ℚ → Prop) → LutInit.Shape) (hrep : Spec.Represents rep) (rows : List (LutInit.Shape × LVal)) (alt : LVal)
    (h : ∀ r ∈ rows, Spec.Areal r.1) : ∀ r ∈ withRest rep rows alt, Spec.Areal r.shape := by
  intro r hr
  have : Spec.content r ∈ (withRest rep rows alt).map Spec.content := List.mem_map_of_mem hr
  rw [withRest_content] at this
  rcases List.mem_append.1 this with h1 | h1
  · exact h _ h1
  · have := List.mem_singleton.1 h1
    have h2 : r.shape = rep (complement (rows.map Prod.fst)) := (Prod.mk.injEq .. ▸ this : _ ∧ _).1
    rw [h2]
    exact (hrep _).1

theorem withRest_covers (rep : (ℚ → ℚ → Prop) → LutInit.Shape) (hrep : Spec.Represents rep) (rows : List (LutInit.Shape × LVal)) (alt : LVal)
    (x y : ℚ) (hxy : Spec.Globe x y) : ∃ r ∈ withRest rep rows alt, r.shape.mem x y := by
  have key : ∃ c ∈ (withRest rep rows alt).map Spec.content, c.1.mem x y := by
    rw [withRest_content]
    by_cases h : ∃ s ∈ rows.map Prod.fst, s.mem x y
    · obtain ⟨s, hs, hm⟩ := h
      obtain ⟨r, hr, rfl⟩ := List.mem_map.1 hs
      exact ⟨r, List.mem_append_left _ hr, hm⟩
    · refine ⟨_, List.mem_append_right _ List.mem_cons_self, ?_⟩
      rw [(hrep _).2]
      exact fun e he => ⟨x, y, by simpa using he, by simpa using he, (world_iff x y).2 hxy, h⟩
  obtain ⟨c, hc, hm⟩ := key
  obtain ⟨r, hr, rfl⟩ := List.mem_map.1 hc
  exact ⟨r, hr, hm⟩

/-- The polygons of the files with their value, then those of the rest of the globe with the other value. -/
def Spec.filePolygons (rep : (ℚ → ℚ → Prop) → LutInit.Shape) (shapes : List LutInit.Shape) (value alt : LVal) : List (Lut.Geom × LVal) :=
  (shapes.flatMap Spec.partsOf).map (fun g => (g, value)) ++ (Spec.partsOf (rep (Spec.Rest shapes))).map (fun g => (g, alt))

theorem polygons_file (rep : (ℚ → ℚ → Prop) → LutInit.Shape) (shapes : List LutInit.Shape) (h : ∀ s ∈ shapes, Spec.Areal s) (value alt : LVal) :
    Spec.polygons ((withRest rep (shapes.map (fun s => (s, value))) alt).map Spec.content) = Spec.filePolygons rep shapes value alt := by
  rw [withRest_content]
  have hm : (shapes.map (fun s => (s, value))).map Prod.fst = shapes := by simp [Function.comp_def]
  have hc : complement shapes = Spec.Rest shapes := by
    funext x y
    exact propext (complement_iff h x y)
  rw [hm, hc]
  unfold Spec.polygons Spec.filePolygons
  simp only [List.flatMap_append, List.flatMap_cons, List.flatMap_nil, List.append_nil, List.flatMap_map, List.map_flatMap]

theorem importShapes_ok (rep : (ℚ → ℚ → Prop) → LutInit.Shape) (files : List (List LutInit.Shape)) (hf : files ≠ []) (column : Option String)
    (value alt : LVal) (cell : ℚ → ℚ → Prop) (time : ℤ × ℤ) : importShapes rep files column value alt cell time =
      .ok (LutInit.trim cell time ⟨false, [some "geometry", column], withRest rep (files.flatten.map (fun s => (s, value))) alt⟩) := by
  unfold importShapes
  rw [if_neg hf]

/-- **C92** For files of polygons and multipolygons and a region on the globe the loader is made, and every cell finds exactly the
polygons of the files that reach it, with the value of the configuration, and those of the rest of the globe, with the opposite
of a boolean and `NaN` otherwise. -/
theorem C92_table (area : (ℚ → ℚ → Prop) → ℚ) (rep : (ℚ → ℚ → Prop) → LutInit.Shape) (hrep : Spec.Represents rep) (cls : String)
    (files : List (List LutInit.Shape)) (hf : files ≠ []) (hs : ∀ s ∈ files.flatten, Spec.Areal s) (value : LVal) (cell : ℚ → ℚ → Prop)
    (hcell : ∀ x y, cell x y → Spec.Globe x y) (hne : ∃ x y, cell x y) (harea : area cell ≠ 0) (time : ℤ × ℤ) (params : Dict String JVal)
    (n : Option String) (hn : Spec.Named params n) (hnn : n ≠ some "time" ∧ n ≠ some "geometry") :
    ∃ l, shapeFiles area rep cls files value cell time params = .ok l ∧ l.name = n ∧ l.table.columns = [some "geometry", n] ∧
      ∀ c time', (∀ x y, c x y → cell x y) → Spec.found c time' l =
        (Spec.inCell c (Spec.filePolygons rep files.flatten value (match value with | .bool b => .bool (!b) | _ => .num none))).map
          (fun p => (.polygon p.1, p.2)) := by
  have halt : alternative value = (match value with | .bool b => .bool (!b) | _ => .num none) := by
    cases value <;> rfl
  rw [← halt]
  obtain ⟨l, h1, h2, h3, h4⟩ := init_covered area
    (fun n => do return (n, ← importShapes rep files n value (alternative value) cell time)) cell time (addFileDefaults cls params) n n n
    (withRest rep (files.flatten.map (fun s => (s, value))) (alternative value)) (by simpa using hnn)
    (named_ok hn (fileDefaults_name cls params))
    (by simp only [importShapes_ok rep files hf, bind, Except.bind, pure, Except.pure]) (mapIdx_labels _)
    (withRest_areal rep hrep _ _ (by
      intro r hr
      obtain ⟨s, hs', rfl⟩ := List.mem_map.1 hr
      exact hs s hs'))
    (fun x y hxy => withRest_covers rep hrep _ _ x y (hcell x y hxy)) hne harea
  refine ⟨l, h1, ?_, h3, fun c time' hc => ?_⟩
  · rw [h2]
    cases n <;> rfl
  · rw [h4 c time' hc, polygons_file rep _ hs]

/-- **C92** The exclusion zones of Scotland: likewise, with `True` for the polygons of the files and `False` for the rest. -/
theorem C92_zones (area : (ℚ → ℚ → Prop) → ℚ) (rep : (ℚ → ℚ → Prop) → LutInit.Shape) (hrep : Spec.Represents rep)
    (files : List (List LutInit.Shape)) (hf : files ≠ []) (hs : ∀ s ∈ files.flatten, Spec.Areal s) (cell : ℚ → ℚ → Prop)
    (hcell : ∀ x y, cell x y → Spec.Globe x y) (hne : ∃ x y, cell x y) (harea : area cell ≠ 0) (time : ℤ × ℤ) (params : Dict String JVal)
    (n : Option String) (hn : Spec.Named params n) :
    ∃ l, scotland area rep files cell time params = .ok l ∧ l.name = some (n.getD "exclusion_zone") ∧
      l.table.columns = [some "geometry", some "exclusion_zone"] ∧
      ∀ c time', (∀ x y, c x y → cell x y) → Spec.found c time' l =
        (Spec.inCell c (Spec.filePolygons rep files.flatten (.bool true) (.bool false))).map (fun p => (.polygon p.1, p.2)) := by
  obtain ⟨l, h1, h2, h3, h4⟩ := init_covered area
    (fun n => do return (n, ← importShapes rep files (some "exclusion_zone") (.bool true) (.bool false) cell time)) cell time
    (addDefaults "ScotlandNCMPA" params) n n (some "exclusion_zone")
    (withRest rep (files.flatten.map (fun s => (s, LVal.bool true))) (.bool false)) (by simp)
    (named_ok hn (defaults_name _ params))
    (by simp only [importShapes_ok rep files hf, bind, Except.bind, pure, Except.pure]) (mapIdx_labels _)
    (withRest_areal rep hrep _ _ (by
      intro r hr
      obtain ⟨s, hs', rfl⟩ := List.mem_map.1 hr
      exact hs s hs'))
    (fun x y hxy => withRest_covers rep hrep _ _ x y (hcell x y hxy)) hne harea
  refine ⟨l, h1, ?_, h3, fun c time' hc => ?_⟩
  · rw [h2]
    cases n <;> rfl
  · rw [h4 c time' hc, polygons_file rep _ hs]

/-- **C92** The rest of the globe: it contains every point of the globe outside of the polygons, only points of the globe, and no point
inside the polygons. -/
theorem C92_rest (shapes : List LutInit.Shape) (x y : ℚ) :
    (Spec.Globe x y → ¬ Spec.Covered shapes x y → Spec.Rest shapes x y) ∧ (Spec.Rest shapes x y → Spec.Globe x y) ∧
    (Spec.WithinSet (Spec.Covered shapes) x y → ¬ Spec.Rest shapes x y) := by
  refine ⟨fun h1 h2 e he => ⟨x, y, by simpa using he, by simpa using he, h1, h2⟩, fun h => ?_, ?_⟩
  · unfold Spec.Globe
    refine ⟨⟨?_, ?_⟩, ?_, ?_⟩ <;> by_contra hlt <;> push Not at hlt
    · obtain ⟨x', y', h1, h2, ⟨⟨h3, h4⟩, h5, h6⟩, -⟩ := h (-180 - x) (by linarith)
      linarith [(abs_lt.1 h1).2]
    · obtain ⟨x', y', h1, h2, ⟨⟨h3, h4⟩, h5, h6⟩, -⟩ := h (x - 180) (by linarith)
      linarith [(abs_lt.1 h1).1]
    · obtain ⟨x', y', h1, h2, ⟨⟨h3, h4⟩, h5, h6⟩, -⟩ := h (-90 - y) (by linarith)
      linarith [(abs_lt.1 h2).2]
    · obtain ⟨x', y', h1, h2, ⟨⟨h3, h4⟩, h5, h6⟩, -⟩ := h (y - 90) (by linarith)
      linarith [(abs_lt.1 h2).1]
  · rintro ⟨e, he, h⟩ hr
    obtain ⟨x', y', h1, h2, -, h4⟩ := hr e he
    exact h4 (h x' y' h1 h2)

/-- **C92** Without any file the loaders raise `ValueError`. -/
theorem C92_no_files (area : (ℚ → ℚ → Prop) → ℚ) (rep : (ℚ → ℚ → Prop) → LutInit.Shape) (cls : String) (value : LVal) (cell : ℚ → ℚ → Prop)
    (time : ℤ × ℤ) (params : Dict String JVal) (n : Option String) (hn : Spec.Named params n) :
    shapeFiles area rep cls [] value cell time params = .error .valueError ∧ scotland area rep [] cell time params = .error .valueError := by
  constructor
  · unfold shapeFiles LutInit.init
    rw [named_ok hn (fileDefaults_name cls params)]
    rfl
  · unfold scotland LutInit.init
    rw [named_ok hn (defaults_name _ params)]
    rfl

end Verif
