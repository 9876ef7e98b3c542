import Verif.Props.LutValues

/-!
# C95: the seasonal look-up tables as they are loaded
-/

namespace Verif
open Verif.LutInit Classical

/-- `__init__` of a table that is not trimmed before, as those of the seasons. -/
theorem init_season (area : (ℚ → ℚ → Prop) → ℚ) (imp : Option String → Py (Option String × LTable)) (cell : ℚ → ℚ → Prop) (time : ℤ × ℤ)
    (params : Dict String JVal) (n : Option String) (col : String) (shapes : String → LutInit.Shape) (rows : List Season.Row)
    (hcol : col ≠ "time" ∧ col ≠ "geometry") (hn : dataName params = .ok n) (himp : imp n = .ok (n, seasonTable shapes col rows))
    (hv : Spec.Verifiable (seasonTable shapes col rows).rows) (hc : ∀ x y, cell x y → ∃ r ∈ rows, (shapes r.2.1).mem x y)
    (hne : ∃ x y, cell x y) (harea : area cell ≠ 0) :
    ∃ l, LutInit.init area imp cell time params = .ok l ∧ l.name = some (n.getD col) ∧ l.table.columns = [some "geometry", some col] ∧
      ∀ c time', (∀ x y, c x y → cell x y) → ∀ v, (∃ p ∈ Spec.found c time' l, p.2 = v) ↔
        ∃ r ∈ rows, Spec.Touch (shapes r.2.1).mem c ∧ v = .num (some r.2.2) := by
  obtain ⟨t, ht⟩ := (C91_accepted (seasonTable shapes col rows)).1.2 hv
  have hset := C91_polygons _ t ht
  obtain ⟨frames, -, -, hte⟩ := (verify_ok_frames _ t).1 ht
  have htimed : t.timed = false := by rw [hte]
  have hcols : t.columns = [some "geometry", some col] := by rw [hte]; rfl
  have hrow : ∀ r ∈ rows, (⟨r.1.ordinal, shapes r.2.1, .num (some r.2.2)⟩ : TRow) ∈ (seasonTable shapes col rows).rows :=
    fun r hr => List.mem_map.2 ⟨r, hr, rfl⟩
  have hmem : ∀ x y, (∃ r ∈ t.rows, r.shape.mem x y) ↔ ∃ r ∈ rows, (shapes r.2.1).mem x y := by
    intro x y
    constructor
    · rintro ⟨r, hr, hm⟩
      obtain ⟨r', hr', hp⟩ := (hset (Spec.content r)).1 (List.mem_map_of_mem hr)
      obtain ⟨r'', hr'', rfl⟩ := List.mem_map.1 hr'
      obtain ⟨g, hg, he⟩ := List.mem_map.1 hp
      refine ⟨r'', hr'', (areal_mem (hv.2 _ (hrow r'' hr'')).1 x y).2 ⟨g, hg, ?_⟩⟩
      have : r.shape = .polygon g := ((Prod.mk.injEq .. ▸ he : _ ∧ _).1).symm
      rw [this] at hm
      exact hm
    · rintro ⟨r, hr, hm⟩
      obtain ⟨g, hg, hgm⟩ := (areal_mem (hv.2 _ (hrow r hr)).1 x y).1 hm
      have := (hset (.polygon g, .num (some r.2.2))).2 ⟨_, hrow r hr, List.mem_map.2 ⟨g, hg, rfl⟩⟩
      obtain ⟨r', hr', he⟩ := List.mem_map.1 this
      refine ⟨r', hr', ?_⟩
      have : r'.shape = .polygon g := (Prod.mk.injEq .. ▸ he : _ ∧ _).1
      rw [this]
      exact hgm
  have hcov : LutInit.coverage area cell t = .ok 1 := by
    unfold LutInit.coverage
    have hr : t.rows ≠ [] := by
      obtain ⟨x, y, hxy⟩ := hne
      obtain ⟨r, hr, -⟩ := (hmem x y).2 (hc x y hxy)
      exact List.ne_nil_of_mem hr
    have hset : (fun x y => (∃ r ∈ t.rows, r.shape.mem x y) ∧ cell x y) = cell := by
      funext x y
      exact propext ⟨fun h => h.2, fun h => ⟨(hmem x y).2 (hc x y h), h⟩⟩
    rw [if_neg hr, if_neg harea, hset, div_self harea]
  have hgc : getDataColName (seasonTable shapes col rows) = .ok (some col) := by
    unfold getDataColName seasonTable
    simp [hcol.1, hcol.2]
  refine ⟨⟨some (n.getD col), LutInit.trim cell time t⟩, ?_, rfl, hcols, ?_⟩
  · unfold LutInit.init
    rw [hn]
    simp only [bind, Except.bind, himp]
    cases n with
    | none => simp only [hgc, ht, hcov, pure, Except.pure]; simp
    | some m => simp only [setDataColName, bind, Except.bind, pure, Except.pure, hgc, ht, hcov]; simp
  · intro c time' hcc v
    obtain ⟨tt, tc, tr⟩ := t
    subst htimed
    have hf : Spec.found c time' ⟨some (n.getD col), LutInit.trim cell time ⟨false, tc, tr⟩⟩ =
        (tr.map Spec.content).filter (fun p => Spec.Touch p.1.mem c) := by
      unfold Spec.found
      rw [trim_untimed, trim_untimed]
      dsimp only
      rw [List.filter_filter, ← filter_content]
      congr 1
      refine List.filter_congr fun r _ => ?_
      by_cases h : Spec.Touch r.shape.mem c
      · obtain ⟨x, y, h1, h2⟩ := h
        have h' : Spec.Touch r.shape.mem cell := ⟨x, y, h1, hcc x y h2⟩
        simp [h']
      · simp [h]
    rw [hf]
    constructor
    · rintro ⟨p, hp, rfl⟩
      obtain ⟨hp, htouch⟩ := List.mem_filter.1 hp
      simp only [decide_eq_true_eq] at htouch
      obtain ⟨r, hr, hpc⟩ := (hset p).1 hp
      obtain ⟨r', hr', rfl⟩ := List.mem_map.1 hr
      obtain ⟨g, hg, rfl⟩ := List.mem_map.1 hpc
      obtain ⟨x, y, h1, h2⟩ := htouch
      exact ⟨r', hr', ⟨x, y, (areal_mem (hv.2 _ (hrow r' hr')).1 x y).2 ⟨g, hg, h1⟩, h2⟩, rfl⟩
    · rintro ⟨r, hr, ⟨x, y, h1, h2⟩, rfl⟩
      obtain ⟨g, hg, hgm⟩ := (areal_mem (hv.2 _ (hrow r hr)).1 x y).1 h1
      exact ⟨(.polygon g, .num (some r.2.2)), List.mem_filter.2 ⟨(hset _).2 ⟨_, hrow r hr, List.mem_map.2 ⟨g, hg, rfl⟩⟩,
        by simpa using ⟨x, y, hgm, h2⟩⟩, rfl⟩

/-- A table that is refused makes `__init__` raise `ValueError`. -/
theorem init_refused (area : (ℚ → ℚ → Prop) → ℚ) (imp : Option String → Py (Option String × LTable)) (cell : ℚ → ℚ → Prop) (time : ℤ × ℤ)
    (params : Dict String JVal) (n : Option String) (col : String) (shapes : String → LutInit.Shape) (rows : List Season.Row)
    (hcol : col ≠ "time" ∧ col ≠ "geometry") (hn : dataName params = .ok n) (himp : imp n = .ok (n, seasonTable shapes col rows))
    (hv : ¬ Spec.Verifiable (seasonTable shapes col rows).rows) : LutInit.init area imp cell time params = .error .valueError := by
  have hgc : getDataColName (seasonTable shapes col rows) = .ok (some col) := by
    unfold getDataColName seasonTable
    simp [hcol.1, hcol.2]
  have hve : verify (seasonTable shapes col rows) = .error .valueError := by
    cases h : verify (seasonTable shapes col rows) with
    | ok t => exact absurd ((C91_accepted _).1.1 ⟨t, h⟩) hv
    | error e => rw [(C91_accepted _).2 e h]
  unfold LutInit.init
  rw [hn]
  simp only [bind, Except.bind, himp]
  cases n with
  | none => simp only [hgc, hve, pure, Except.pure]
  | some m => simp only [setDataColName, bind, Except.bind, pure, Except.pure, hgc, hve]

/-- How many rows of the table have the day of a given row. -/
theorem season_sameLabel (shapes : String → LutInit.Shape) (col : String) (rows : List Season.Row) (r : Season.Row) :
    Spec.sameLabel (seasonTable shapes col rows).rows ⟨r.1.ordinal, shapes r.2.1, .num (some r.2.2)⟩ =
      (rows.filter (fun r' => r'.1.ordinal = r.1.ordinal)).length := by
  unfold Spec.sameLabel seasonTable
  simp only [List.filter_map, List.length_map]
  rfl

theorem nodup_filter_one {α : Type} (l : List α) (hl : l.Nodup) (p : α → Bool) (a : α) (ha : a ∈ l) (hp : p a = true) :
    (l.filter p).length = 1 ↔ ∀ b ∈ l, p b = true → b = a := by
  have hmem : a ∈ l.filter p := List.mem_filter.2 ⟨ha, hp⟩
  constructor
  · intro h b hb hpb
    obtain ⟨c, hc⟩ := List.length_eq_one_iff.1 h
    have h1 : b ∈ l.filter p := List.mem_filter.2 ⟨hb, hpb⟩
    rw [hc] at h1 hmem
    rw [List.mem_singleton.1 h1, List.mem_singleton.1 hmem]
  · intro h
    have : l.filter p = [a] := by
      have hn : (l.filter p).Nodup := hl.filter _
      cases hf : l.filter p with
      | nil => rw [hf] at hmem; simp at hmem
      | cons b r =>
        have hb : b = a := by
          have : b ∈ l.filter p := by rw [hf]; exact List.mem_cons_self
          exact h b (List.mem_filter.1 this).1 (List.mem_filter.1 this).2
        cases r with
        | nil => rw [hb]
        | cons c r =>
          have hc : c = a := by
            have : c ∈ l.filter p := by rw [hf]; simp
            exact h c (List.mem_filter.1 this).1 (List.mem_filter.1 this).2
          rw [hf, hb, hc] at hn
          simp at hn
    rw [this]
    rfl

/-- The geometry is a multipolygon. -/
def Spec.IsMulti (s : LutInit.Shape) : Prop := ∃ parts, s = .multi parts

/-- The geometry is not empty. -/
def Spec.Nonempty (s : LutInit.Shape) : Prop := ∃ x y, s.mem x y

/-- The geometry has an area and is not empty: lines and points, as which a region appears that the mesh only touches, do not count. -/
def Spec.Proper (s : LutInit.Shape) : Prop := Spec.Areal s ∧ Spec.Nonempty s

theorem usable_iff (s : LutInit.Shape) : usable s = true ↔ Spec.Proper s := by
  cases s <;> simp [usable, Spec.Proper, Spec.Nonempty, Spec.Areal]

/-- The name of a hemisphere. -/
def Spec.hemisphere (north : Bool) : String := if north then "north" else "south"

/-- The density of ice in a season. -/
def Spec.iceDensity : Season.Name → ℚ
  | .su => 875
  | .wi => 920
  | _ => 900

/-- The rows of the density table. -/
theorem density_rows (shapes : String → LutInit.Shape) (a b : PyDate)
    (ha : a.Exists) (hb : b.Exists) :
    ∃ rows, Season.density (fun s => usable (shapes s)) a b = .ok rows ∧ rows.Nodup ∧ ∀ r, r ∈ rows ↔
      ∃ x north, Spec.Between a b x ∧ Spec.Proper (shapes (Spec.hemisphere north)) ∧
        r = (x, Spec.hemisphere north, Spec.iceDensity (Spec.season north x.m)) := by
  obtain ⟨rows, h1, h2, h3⟩ := C48_density (fun s => usable (shapes s)) a b ha hb
  refine ⟨rows, h1, h2, ?_⟩
  rintro ⟨x, region, v⟩
  rw [h3]
  constructor
  · rintro ⟨hx, hh, north, rfl, hv⟩
    refine ⟨x, north, hx, (usable_iff _).1 hh, ?_⟩
    rw [hv]
    cases hseas : Spec.season north x.m <;> rfl
  · rintro ⟨x', north, hx, hh, he⟩
    simp only [Prod.mk.injEq] at he
    obtain ⟨rfl, rfl, rfl⟩ := he
    refine ⟨hx, (usable_iff _).2 hh, north, rfl, ?_⟩
    cases hseas : Spec.season north x.m <;> rfl

/-- When the density table is accepted. -/
theorem density_verifiable (shapes : String → LutInit.Shape) (a b : PyDate)
    (ha : a.Exists) (hab : a.ordinal ≤ b.ordinal) (rows : List Season.Row) (hnd : rows.Nodup)
    (hr : ∀ r, r ∈ rows ↔ ∃ x north, Spec.Between a b x ∧ Spec.Proper (shapes (Spec.hemisphere north)) ∧
        r = (x, Spec.hemisphere north, Spec.iceDensity (Spec.season north x.m))) :
    Spec.Verifiable (seasonTable shapes "density" rows).rows ↔
      (∃ north, Spec.Proper (shapes (Spec.hemisphere north))) ∧
      ¬ ((∀ north, Spec.Proper (shapes (Spec.hemisphere north))) ∧ ∃ north, Spec.IsMulti (shapes (Spec.hemisphere north))) := by
  have hba : Spec.Between a b a := ⟨ha, le_refl _, hab⟩
  have hone : ∀ x north, Spec.Between a b x → Spec.Proper (shapes (Spec.hemisphere north)) →
      (Spec.sameLabel (seasonTable shapes "density" rows).rows
        ⟨x.ordinal, shapes (Spec.hemisphere north), .num (some (Spec.iceDensity (Spec.season north x.m)))⟩ = 1 ↔
      ¬ Spec.Proper (shapes (Spec.hemisphere (!north)))) := by
    intro x north hx hh
    have := season_sameLabel shapes "density" rows (x, Spec.hemisphere north, Spec.iceDensity (Spec.season north x.m))
    dsimp only at this
    rw [this, nodup_filter_one rows hnd _ (x, Spec.hemisphere north, Spec.iceDensity (Spec.season north x.m)) ((hr _).2 ⟨x, north, hx, hh, rfl⟩) (by simp)]
    constructor
    · intro h hh'
      have := h (x, Spec.hemisphere (!north), Spec.iceDensity (Spec.season (!north) x.m)) ((hr _).2 ⟨x, !north, hx, hh', rfl⟩) (by simp)
      simp only [Prod.mk.injEq] at this
      cases north <;> simp [Spec.hemisphere] at this
    · intro hno r hrm hl
      obtain ⟨x', north', hx', hh', rfl⟩ := (hr r).1 hrm
      simp only [decide_eq_true_eq] at hl
      have hxx := ordinal_inj x' x hx'.1 hx.1 hl
      subst hxx
      have : north' = north := by
        cases north <;> cases north' <;> first | rfl | exact absurd hh' hno
      rw [this]
  constructor
  · rintro ⟨hne, hall⟩
    have hne' : rows ≠ [] := by
      intro h
      exact hne (by simp [seasonTable, h])
    obtain ⟨r, hrm⟩ := List.exists_mem_of_ne_nil _ hne'
    obtain ⟨x, north, hx, hh, rfl⟩ := (hr _).1 hrm
    refine ⟨⟨north, hh⟩, ?_⟩
    rintro ⟨hboth, north', parts, hp⟩
    have hrow : (⟨a.ordinal, shapes (Spec.hemisphere north'), .num (some (Spec.iceDensity (Spec.season north' a.m)))⟩ : TRow) ∈
        (seasonTable shapes "density" rows).rows :=
      List.mem_map.2 ⟨(a, Spec.hemisphere north', Spec.iceDensity (Spec.season north' a.m)), (hr _).2 ⟨a, north', hba, hboth north', rfl⟩, rfl⟩
    exact (hone a north' hba (hboth north')).1 ((hall _ hrow).2 parts hp).2 (hboth _)
  · rintro ⟨⟨north, hh⟩, hno⟩
    constructor
    · have : (a, Spec.hemisphere north, Spec.iceDensity (Spec.season north a.m)) ∈ rows := (hr _).2 ⟨a, north, hba, hh, rfl⟩
      intro h
      have h0 : rows = [] := by simpa [seasonTable] using h
      rw [h0] at this
      simp at this
    · intro r hrm
      obtain ⟨r', hr', rfl⟩ := List.mem_map.1 hrm
      obtain ⟨x, north', hx, hh', rfl⟩ := (hr _).1 hr'
      refine ⟨hh'.1, fun parts hp => ⟨?_, ?_⟩⟩
      · obtain ⟨-, x', y', hm⟩ := hh'
        dsimp only at hp
        rw [hp] at hm
        obtain ⟨g, hg, -⟩ := hm
        exact List.ne_nil_of_mem hg
      · refine (hone x north' hx hh').2 fun h => hno ⟨fun n => ?_, north', parts, hp⟩
        by_cases e : n = north'
        · rw [e]; exact hh'
        · have : n = !north' := by cases n <;> cases north' <;> simp_all
          rw [this]; exact h

/-- **C95** The density table of a region that is not both on the equator and on the antimeridian (where a hemisphere is a multipolygon) is
loaded, and a cell finds the densities of the seasons of all the days of the mesh, whatever time range is asked for, of the hemispheres it
reaches, and nothing else.  A hemisphere that the region only touches, in a line, is left out. -/
theorem C95_density (area : (ℚ → ℚ → Prop) → ℚ) (shapes : String → LutInit.Shape)
    (cell : ℚ → ℚ → Prop) (a b : PyDate) (ha : a.Exists) (hb : b.Exists) (hab : a.ordinal ≤ b.ordinal) (params : Dict String JVal)
    (n : Option String) (hn : Spec.Named params n) (hc : ∀ x y, cell x y → ∃ north, Spec.Areal (shapes (Spec.hemisphere north)) ∧ (shapes (Spec.hemisphere north)).mem x y)
    (hne : ∃ x y, cell x y) (harea : area cell ≠ 0)
    (hok : ¬ ((∀ north, Spec.Proper (shapes (Spec.hemisphere north))) ∧ ∃ north, Spec.IsMulti (shapes (Spec.hemisphere north)))) :
    ∃ l, LutInit.density area shapes cell a b params = .ok l ∧ l.name = some (n.getD "density") ∧
      l.table.columns = [some "geometry", some "density"] ∧
      ∀ c time', (∀ x y, c x y → cell x y) → ∀ v, (∃ p ∈ Spec.found c time' l, p.2 = v) ↔
        ∃ x north, Spec.Between a b x ∧ Spec.Areal (shapes (Spec.hemisphere north)) ∧ Spec.Touch (shapes (Spec.hemisphere north)).mem c ∧
          v = .num (some (Spec.iceDensity (Spec.season north x.m))) := by
  obtain ⟨rows, h1, h2, h3⟩ := density_rows shapes a b ha hb
  have hba : Spec.Between a b a := ⟨ha, le_refl _, hab⟩
  obtain ⟨l, e1, e2, e3, e4⟩ := init_season area
    (fun n => do return (n, seasonTable shapes "density" (← Season.density (fun s => usable (shapes s)) a b))) cell (a.ordinal, b.ordinal)
    (addDefaults "DensityDataLoader" params) n "density" shapes rows (by decide) (named_ok hn (defaults_name _ params))
    (by simp only [h1, bind, Except.bind, pure, Except.pure])
    ((density_verifiable shapes a b ha hab rows h2 h3).2 ⟨by
      obtain ⟨x, y, hxy⟩ := hne
      obtain ⟨north, h0, h⟩ := hc x y hxy
      exact ⟨north, h0, x, y, h⟩, hok⟩)
    (fun x y hxy => by
      obtain ⟨north, h0, h⟩ := hc x y hxy
      exact ⟨_, (h3 _).2 ⟨a, north, hba, ⟨h0, x, y, h⟩, rfl⟩, h⟩) hne harea
  refine ⟨l, e1, e2, e3, fun c time' hcc v => (e4 c time' hcc v).trans ?_⟩
  constructor
  · rintro ⟨r, hr, ht, rfl⟩
    obtain ⟨x, north, hx, hp, rfl⟩ := (h3 _).1 hr
    exact ⟨x, north, hx, hp.1, ht, rfl⟩
  · rintro ⟨x, north, hx, h0, ht, rfl⟩
    obtain ⟨x', y', hm, -⟩ := id ht
    exact ⟨_, (h3 _).2 ⟨x, north, hx, ⟨h0, x', y', hm⟩, rfl⟩, ht, rfl⟩

/-- **C95** For a region on both sides of the equator that is divided by the antimeridian the loader raises `ValueError`. -/
theorem C95_density_raises (area : (ℚ → ℚ → Prop) → ℚ) (shapes : String → LutInit.Shape)
    (cell : ℚ → ℚ → Prop) (a b : PyDate) (ha : a.Exists) (hb : b.Exists) (hab : a.ordinal ≤ b.ordinal) (params : Dict String JVal)
    (n : Option String) (hn : Spec.Named params n)
    (h1 : ∀ north, Spec.Proper (shapes (Spec.hemisphere north))) (h2 : ∃ north, Spec.IsMulti (shapes (Spec.hemisphere north))) :
    LutInit.density area shapes cell a b params = .error .valueError := by
  obtain ⟨rows, e1, e2, e3⟩ := density_rows shapes a b ha hb
  exact init_refused area _ cell _ _ n "density" shapes rows (by decide) (named_ok hn (defaults_name _ params))
    (by simp only [e1, bind, Except.bind, pure, Except.pure])
    (fun hv => ((density_verifiable shapes a b ha hab rows e2 e3).1 hv).2 ⟨h1, h2⟩)

/-- The region is in the northern hemisphere. -/
def Spec.northern (r : Season.Region) : Bool := decide (r.name = "Baltic" ∨ r.name = "None")

/-- The rows of the thickness table. -/
theorem thickness_table_rows (shapes : String → LutInit.Shape) (a b : PyDate)
    (ha : a.Exists) (hb : b.Exists) :
    ∃ rows, Season.thickness Season.regions (fun s => usable (shapes s)) a b = .ok rows ∧ rows.Nodup ∧ ∀ row, row ∈ rows ↔
      ∃ x, ∃ r ∈ Season.regions, ∃ x', Spec.Between a b x ∧ Spec.Between a b x' ∧ Spec.Proper (shapes r.name) ∧
        row = (x, r.name, r.values (Spec.season (Spec.northern r) x'.m)) := by
  have hregs : ∀ r ∈ Season.regions, r.seasons = if Spec.northern r then Season.northern else Season.southern := by
    decide +kernel
  obtain ⟨rows, h1, h2, h3⟩ := thickness_rows Season.regions Spec.northern hregs (fun s => usable (shapes s)) a b ha hb
  refine ⟨rows, h1, h2, ?_⟩
  rintro ⟨x, region, v⟩
  rw [h3]
  constructor
  · rintro ⟨hx, hh, r, hr, rfl, x', hx', rfl⟩
    exact ⟨x, r, hr, x', hx, hx', (usable_iff _).1 hh, rfl⟩
  · rintro ⟨x₁, r, hr, x', hx, hx', hh, he⟩
    simp only [Prod.mk.injEq] at he
    obtain ⟨rfl, rfl, rfl⟩ := he
    exact ⟨hx, (usable_iff _).2 hh, r, hr, rfl, x', hx', rfl⟩

/-- **C95** The thickness table is loaded where the regions, cut to the mesh, are no multipolygons, and a cell finds the thicknesses of the seasons
of all the days of the mesh of the regions it reaches, and nothing else.  Regions that the mesh only touches are left out. -/
theorem C95_thickness (area : (ℚ → ℚ → Prop) → ℚ) (shapes : String → LutInit.Shape)
    (hs : ∀ r ∈ Season.regions, ¬ Spec.IsMulti (shapes r.name))
    (cell : ℚ → ℚ → Prop) (a b : PyDate) (ha : a.Exists) (hb : b.Exists) (hab : a.ordinal ≤ b.ordinal) (params : Dict String JVal)
    (n : Option String) (hn : Spec.Named params n) (hc : ∀ x y, cell x y → ∃ r ∈ Season.regions, Spec.Areal (shapes r.name) ∧ (shapes r.name).mem x y)
    (hne : ∃ x y, cell x y) (harea : area cell ≠ 0) :
    ∃ l, LutInit.thickness area shapes cell a b params = .ok l ∧ l.name = some (n.getD "thickness") ∧
      l.table.columns = [some "geometry", some "thickness"] ∧
      ∀ c time', (∀ x y, c x y → cell x y) → ∀ v, (∃ p ∈ Spec.found c time' l, p.2 = v) ↔
        ∃ x, ∃ r ∈ Season.regions, Spec.Between a b x ∧ Spec.Areal (shapes r.name) ∧ Spec.Touch (shapes r.name).mem c ∧
          v = .num (some (r.values (Spec.season (Spec.northern r) x.m))) := by
  obtain ⟨rows, h1, h2, h3⟩ := thickness_table_rows shapes a b ha hb
  have hba : Spec.Between a b a := ⟨ha, le_refl _, hab⟩
  have hrne : rows ≠ [] := by
    obtain ⟨x, y, hxy⟩ := hne
    obtain ⟨r, hr, h0, h⟩ := hc x y hxy
    exact List.ne_nil_of_mem ((h3 _).2 ⟨a, r, hr, a, hba, hba, ⟨h0, x, y, h⟩, rfl⟩)
  obtain ⟨l, e1, e2, e3, e4⟩ := init_season area
    (fun n => do
      let rows ← Season.thickness Season.regions (fun s => usable (shapes s)) a b
      if rows = [] then .error .keyError else return (n, seasonTable shapes "thickness" rows)) cell (a.ordinal, b.ordinal)
    (addDefaults "ThicknessDataLoader" params) n "thickness" shapes rows (by decide) (named_ok hn (defaults_name _ params))
    (by simp only [h1, bind, Except.bind, pure, Except.pure, hrne, if_false])
    (by
      refine ⟨by simpa [seasonTable] using hrne, fun row hrow => ?_⟩
      obtain ⟨row', hrow', rfl⟩ := List.mem_map.1 hrow
      obtain ⟨x, r, hr, x', -, -, hp, rfl⟩ := (h3 _).1 hrow'
      exact ⟨hp.1, fun parts hp => absurd ⟨parts, hp⟩ (hs r hr)⟩)
    (fun x y hxy => by
      obtain ⟨r, hr, h0, h⟩ := hc x y hxy
      exact ⟨_, (h3 _).2 ⟨a, r, hr, a, hba, hba, ⟨h0, x, y, h⟩, rfl⟩, h⟩) hne harea
  refine ⟨l, e1, e2, e3, fun c time' hcc v => (e4 c time' hcc v).trans ?_⟩
  constructor
  · rintro ⟨row, hrow, ht, rfl⟩
    obtain ⟨x, r, hr, x', hx, hx', hp, rfl⟩ := (h3 _).1 hrow
    exact ⟨x', r, hr, hx', hp.1, ht, rfl⟩
  · rintro ⟨x, r, hr, hx, h0, ht, rfl⟩
    obtain ⟨x', y', hm, -⟩ := id ht
    exact ⟨_, (h3 _).2 ⟨a, r, hr, x, hba, hx, ⟨h0, x', y', hm⟩, rfl⟩, ht, rfl⟩

/-- **C95** Where a region, cut to the mesh, is a multipolygon and the mesh reaches another region, the loader raises `ValueError`. -/
theorem C95_thickness_raises (area : (ℚ → ℚ → Prop) → ℚ) (shapes : String → LutInit.Shape)
    (cell : ℚ → ℚ → Prop) (a b : PyDate) (ha : a.Exists) (hb : b.Exists) (hab : a.ordinal ≤ b.ordinal) (params : Dict String JVal)
    (n : Option String) (hn : Spec.Named params n) (r r' : Season.Region) (hr : r ∈ Season.regions) (hr' : r' ∈ Season.regions)
    (hrr : r.name ≠ r'.name) (hm : Spec.IsMulti (shapes r.name)) (h1 : Spec.Proper (shapes r.name)) (h2 : Spec.Proper (shapes r'.name)) :
    LutInit.thickness area shapes cell a b params = .error .valueError := by
  obtain ⟨rows, e1, e2, e3⟩ := thickness_table_rows shapes a b ha hb
  have hba : Spec.Between a b a := ⟨ha, le_refl _, hab⟩
  have m1 := (e3 _).2 ⟨a, r, hr, a, hba, hba, h1, rfl⟩
  have m2 := (e3 _).2 ⟨a, r', hr', a, hba, hba, h2, rfl⟩
  refine init_refused area _ cell _ _ n "thickness" shapes rows (by decide) (named_ok hn (defaults_name _ params))
    (by simp only [e1, bind, Except.bind, pure, Except.pure, List.ne_nil_of_mem m1, if_false]) (fun hv => ?_)
  obtain ⟨parts, hp⟩ := hm
  have h := ((hv.2 _ (List.mem_map.2 ⟨_, m1, rfl⟩)).2 parts hp).2
  have hl := season_sameLabel shapes "thickness" rows (a, r.name, r.values (Spec.season (Spec.northern r) a.m))
  dsimp only at hl
  rw [hl, nodup_filter_one rows e2 _ _ m1 (by simp)] at h
  have := h _ m2 (by simp)
  simp only [Prod.mk.injEq] at this
  exact hrr this.2.1.symm

/-! ### Examples -/

/-- A region in the northern hemisphere with its southern edge on the equator: one polygon, and a line for the other hemisphere. -/
def exNorth : String → LutInit.Shape := fun s => if s = "north" then .polygon (Spec.square 0) else .other (fun x y => 0 ≤ x ∧ x ≤ 1 ∧ y = 0)

/-- A region divided by the antimeridian, on both sides of the equator. -/
def exDivided : String → LutInit.Shape := fun s => if s = "north" then .multi [Spec.square 0, Spec.square 2] else .polygon (Spec.square 4)

/-- One day in the northern winter: also on the equator there is only the density of the northern winter. -/
example : ∃ l, LutInit.density (fun _ => 1) exNorth (fun x y => x = 0 ∧ y = 0) ⟨2020, 1, 1⟩ ⟨2020, 1, 1⟩ [] = .ok l ∧
    (∃ p ∈ Spec.found (fun x y => x = 0 ∧ y = 0) (0, 0) l, p.2 = .num (some 920)) ∧
    ¬ ∃ p ∈ Spec.found (fun x y => x = 0 ∧ y = 0) (0, 0) l, p.2 = .num (some 875) := by
  have hn : exNorth (Spec.hemisphere true) = .polygon (Spec.square 0) := if_pos rfl
  have hs : ¬ Spec.Areal (exNorth (Spec.hemisphere false)) := by
    rw [show exNorth (Spec.hemisphere false) = .other (fun x y => 0 ≤ x ∧ x ≤ 1 ∧ y = 0) from if_neg (by decide)]
    rintro (⟨g, h⟩ | ⟨g, h⟩) <;> cases h
  obtain ⟨l, h1, -, -, h2⟩ := C95_density (fun _ => 1) exNorth (fun x y => x = 0 ∧ y = 0) ⟨2020, 1, 1⟩ ⟨2020, 1, 1⟩ (by decide +kernel)
    (by decide +kernel) (le_refl _) [] none (.inl ⟨rfl, .inl rfl⟩)
    (by
      rintro x y ⟨rfl, rfl⟩
      exact ⟨true, by rw [hn]; exact .inl ⟨_, rfl⟩, by rw [hn]; norm_num [LutInit.Shape.mem, Spec.square]⟩) ⟨0, 0, rfl, rfl⟩ (by norm_num)
    (by
      rintro ⟨h, -⟩
      exact hs (h false).1)
  refine ⟨l, h1, (h2 _ (0, 0) (fun _ _ h => h) _).2 ⟨⟨2020, 1, 1⟩, true, ⟨by decide +kernel, le_refl _, le_refl _⟩, ?_, ?_, ?_⟩, ?_⟩
  · rw [hn]; exact .inl ⟨_, rfl⟩
  · rw [hn]; exact ⟨0, 0, by norm_num [LutInit.Shape.mem, Spec.square], rfl, rfl⟩
  · rfl
  · intro h
    obtain ⟨x, north, ⟨hx, hx1, hx2⟩, ha, -, hv⟩ := (h2 _ (0, 0) (fun _ _ h => h) _).1 h
    cases north
    · exact hs ha
    · have hx' := ordinal_inj x ⟨2020, 1, 1⟩ hx (by decide +kernel) (le_antisymm hx2 hx1)
      subst hx'
      simp [Spec.season, Spec.iceDensity] at hv

/-- The divided region. -/
example : LutInit.density (fun _ => 1) exDivided (fun x y => x = 0 ∧ y = 0) ⟨2020, 1, 1⟩ ⟨2020, 1, 3⟩ [] = .error .valueError := by
  refine C95_density_raises _ exDivided _ _ _ (by decide +kernel) (by decide +kernel) (by decide +kernel) [] none (.inl ⟨rfl, .inl rfl⟩) ?_
    ⟨true, [Spec.square 0, Spec.square 2], by simp [exDivided, Spec.hemisphere]⟩
  intro north
  cases north
  · rw [show exDivided (Spec.hemisphere false) = .polygon (Spec.square 4) from if_neg (by decide)]
    exact ⟨.inl ⟨_, rfl⟩, 4, 0, by norm_num [LutInit.Shape.mem, Spec.square]⟩
  · rw [show exDivided (Spec.hemisphere true) = .multi [Spec.square 0, Spec.square 2] from if_pos rfl]
    exact ⟨.inr ⟨_, rfl⟩, 0, 0, by norm_num [LutInit.Shape.mem, Spec.square]⟩

/-- Thickness for a region all of whose parts are polygons. -/
example : ∃ l, LutInit.thickness (fun _ => 1) (fun _ => .polygon (Spec.square 0)) (fun x y => x = 0 ∧ y = 0) ⟨2020, 1, 1⟩ ⟨2020, 1, 1⟩ [] = .ok l := by
  obtain ⟨l, h, -⟩ := C95_thickness (fun _ => 1) (fun _ => .polygon (Spec.square 0)) (fun _ _ => by rintro ⟨parts, h⟩; cases h)
    (fun x y => x = 0 ∧ y = 0) ⟨2020, 1, 1⟩ ⟨2020, 1, 1⟩ (by decide +kernel) (by decide +kernel) (le_refl _) [] none (.inl ⟨rfl, .inl rfl⟩)
    (by
      rintro x y ⟨rfl, rfl⟩
      exact ⟨_, List.mem_cons_self, .inl ⟨_, rfl⟩, by norm_num [LutInit.Shape.mem, Spec.square]⟩) ⟨0, 0, rfl, rfl⟩ (by norm_num)
  exact ⟨l, h⟩

end Verif
