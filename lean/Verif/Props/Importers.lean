import Verif.Model.Importers
import Verif.Props.Trim
import Verif.Props.TimeStr
import Verif.Props.Longitude
import Verif.Model.LoaderInit

/-!
# C80, C81, C82: importing data
-/

namespace Verif
open Spec Importers

variable {V W : Type}

/-! ## Specification -/

/-- The datapoint lies in the region, whichever way its longitude is given, and (for data with a time) in the time
range. -/
def Spec.Selected (b : Boundary) (hasTime : Bool) (r : Row V) : Prop :=
  HCovers b r.long r.lat ∧ (hasTime = true → ∃ t0 t1 rest, b.time = t0 :: t1 :: rest ∧ t0 ≤ r.time ∧ r.time ≤ t1)

/-- `r` is the datapoint `r0` with its longitude named in `[-180, 180)` and its value converted. -/
def Spec.Renamed (f : V → W) (r0 : Row V) (r : Row W) : Prop :=
  r.lat = r0.lat ∧ r.time = r0.time ∧ r.val = f r0.val ∧ SameMeridian r.long r0.long ∧ -180 ≤ r.long ∧ r.long < 180

/-- The meridians of a list are different. -/
def Spec.DistinctMeridians (l : List ℚ) : Prop := l.Pairwise (fun a b => ¬ SameMeridian a b)

/-! ## Longitudes -/

theorem wrap_range (x : ℚ) : -180 ≤ wrapLong x ∧ wrapLong x < 180 := by
  have h1 := pyMod_nonneg (a := x + 180) (b := 360) (by norm_num)
  have h2 := pyMod_lt (a := x + 180) (b := 360) (by norm_num)
  unfold wrapLong
  constructor <;> linarith

theorem wrap_same (x : ℚ) : SameMeridian (wrapLong x) x := by
  refine ⟨-⌊(x + 180) / 360⌋, ?_⟩
  unfold wrapLong pyMod; push_cast; ring

theorem meridian_symm {a b : ℚ} (h : SameMeridian a b) : SameMeridian b a := by
  obtain ⟨n, rfl⟩ := h
  exact ⟨-n, by push_cast; ring⟩

theorem meridian_trans {a b c : ℚ} (h : SameMeridian a b) (h' : SameMeridian b c) : SameMeridian a c := by
  obtain ⟨n, rfl⟩ := h
  obtain ⟨k, rfl⟩ := h'
  exact ⟨k + n, by push_cast; ring⟩

theorem wrap_unique {x o : ℚ} (h : SameMeridian x o) (h1 : -180 ≤ x) (h2 : x < 180) : x = wrapLong o := by
  obtain ⟨n, hn⟩ := meridian_trans h (meridian_symm (wrap_same o))
  have hr := wrap_range o
  have h3 : (-1 : ℚ) < n := by linarith [hr.1, hr.2]
  have h4 : (n : ℚ) < 1 := by linarith [hr.1, hr.2]
  have h3' : (-1 : ℤ) < n := by exact_mod_cast h3
  have h4' : n < 1 := by exact_mod_cast h4
  obtain rfl : n = 0 := by omega
  simpa using hn

theorem wrap_eq_iff {a b : ℚ} : wrapLong a = wrapLong b ↔ SameMeridian a b := by
  constructor
  · intro h
    exact meridian_trans (meridian_symm (wrap_same a)) (by rw [h]; exact wrap_same b)
  · intro h
    exact wrap_unique (meridian_trans (wrap_same a) h) (wrap_range a).1 (wrap_range a).2

theorem hcovers_meridian {b : Boundary} {x x' : ℚ} (h : SameMeridian x x') (y : ℚ) : HCovers b x y ↔ HCovers b x' y := by
  have key : ∀ {x x' : ℚ}, SameMeridian x x' → HCovers b x y → HCovers b x' y := by
    rintro x x' ⟨k, rfl⟩ ⟨⟨n, h1, h2⟩, h3⟩
    exact ⟨⟨k + n, by push_cast; linarith, by push_cast; linarith⟩, h3⟩
  exact ⟨key h, key (meridian_symm h)⟩

theorem wrap_nodup {l : List ℚ} (h : DistinctMeridians l) : (l.map wrapLong).Nodup := by
  unfold List.Nodup
  rw [List.pairwise_map]
  exact h.imp (fun h e => h (wrap_eq_iff.1 e))

theorem unwrap_wrap {l : List ℚ} (h : (l.map wrapLong).Nodup) {o : ℚ} (ho : o ∈ l) : unwrap l (wrapLong o) = o := by
  unfold unwrap
  induction l with
  | nil => cases ho
  | cons a l ih =>
    rw [List.map_cons, List.nodup_cons] at h
    rw [List.find?_cons]
    rcases List.mem_cons.1 ho with rfl | ho'
    · simp
    · have hne : wrapLong a ≠ wrapLong o := fun e => h.1 (by rw [e]; exact List.mem_map_of_mem ho')
      rw [show decide (wrapLong a = wrapLong o) = false from decide_eq_false hne]
      exact ih h.2 ho'

theorem grid_mem_rows (g : Grid V) (r : Row V) : r ∈ g.rows ↔ r.lat ∈ g.lats ∧ r.long ∈ g.longs ∧
    r.val = g.val r.lat r.long r.time ∧ (match g.times with | none => r.time = 0 | some ts => r.time ∈ ts) := by
  unfold Grid.rows
  simp only [List.mem_flatMap]
  constructor
  · rintro ⟨y, hy, x, hx, h⟩
    rcases hg : g.times with _ | ts
    · simp only [hg, List.mem_singleton] at h
      subst h; exact ⟨hy, hx, rfl, rfl⟩
    · simp only [hg, List.mem_map] at h
      obtain ⟨t, ht, rfl⟩ := h
      exact ⟨hy, hx, rfl, ht⟩
  · rintro ⟨hy, hx, hv, ht⟩
    refine ⟨r.lat, hy, r.long, hx, ?_⟩
    rcases hg : g.times with _ | ts
    · simp only [hg] at ht ⊢
      rw [List.mem_singleton]
      obtain ⟨_, _, _, _⟩ := r
      simp only at ht hv ⊢
      subst ht hv; rfl
    · simp only [hg] at ht ⊢
      rw [List.mem_map]
      refine ⟨r.time, ht, ?_⟩
      obtain ⟨_, _, _, _⟩ := r
      simp only at hv ⊢
      subst hv; rfl

/-- A grid with wrapped longitudes and converted values has the datapoints of the file, renamed. -/
theorem wrapGrid_rows {g : Grid V} (f : V → W) (h : DistinctMeridians g.longs) :
    ∃ g1, wrapGrid g = .ok g1 ∧ g1.lats = g.lats ∧ g1.times = g.times ∧ g1.longs.Pairwise (· ≤ ·) ∧ g1.longs.Nodup ∧
      ∀ r, r ∈ (mapVals f g1).rows ↔ ∃ r0 ∈ g.rows, Renamed f r0 r := by
  have hn := wrap_nodup h
  unfold wrapGrid
  rw [if_pos hn]
  refine ⟨_, rfl, rfl, rfl, List.pairwise_insertionSort _ _, ?_, fun r => ?_⟩
  · exact (List.perm_insertionSort _ _).nodup_iff.2 hn
  · rw [grid_mem_rows]
    simp only [mapVals, List.mem_insertionSort, List.mem_map]
    constructor
    · rintro ⟨h1, ⟨o, ho, hx⟩, h3, h4⟩
      refine ⟨⟨r.lat, o, r.time, g.val r.lat o r.time⟩, (grid_mem_rows _ _).2 ⟨h1, ho, rfl, h4⟩, rfl, rfl, ?_, ?_⟩
      · rw [h3, ← hx, unwrap_wrap hn ho]
      · rw [← hx]
        exact ⟨wrap_same o, wrap_range o⟩
    · rintro ⟨r0, hr0, e1, e2, e3, e4, e5, e6⟩
      obtain ⟨h1, h2, h3, h4⟩ := (grid_mem_rows _ _).1 hr0
      have hx := wrap_unique e4 e5 e6
      refine ⟨by rw [e1]; exact h1, ⟨r0.long, h2, hx.symm⟩, ?_, by rw [e2]; exact h4⟩
      rw [e3, h3, e1, e2, hx, unwrap_wrap hn h2]

/-- The longitude mask on wrapped longitudes. -/
theorem lmask_wrapped {b : Boundary} (hv : Valid b) (hb : b.longMin ≠ b.longMax) (r : Row V) (h1 : -180 ≤ r.long) (h2 : r.long < 180)
    (hanti : r.long ≠ -180 ∨ (b.longMin ≠ 180 ∧ b.longMax ≠ 180)) : Grid.mask b r = true ↔ HCovers b r.long r.lat := by
  by_cases hx : r.long = -180
  · have hb' := hanti.resolve_left (fun h => h hx)
    obtain ⟨v1, v2, v3, v4, v5, -⟩ := hv
    have v3' := lt_of_le_of_ne v3 hb'.1
    have v5' := lt_of_le_of_ne v5 hb'.2
    simp only [Grid.mask, Grid.lmask, HCovers, eastEdge, hx]
    by_cases h : b.longMin < b.longMax
    · simp only [h, if_true, Bool.and_eq_true, decide_eq_true_eq]
      constructor
      · rintro ⟨-, h3, -⟩; linarith
      · rintro ⟨⟨n, h3, h4⟩, h5⟩
        have h6 : (0 : ℚ) < n := by linarith
        have h7 : (n : ℚ) < 1 := by linarith
        have h6' : (0 : ℤ) < n := by exact_mod_cast h6
        have h7' : n < 1 := by exact_mod_cast h7
        omega
    · have h' : b.longMax < b.longMin := lt_of_le_of_ne (by push Not at h; exact h) (fun e => hb e.symm)
      simp only [h, if_false, Bool.and_eq_true, Bool.or_eq_true, decide_eq_true_eq]
      constructor
      · rintro ⟨h3, -⟩
        exact ⟨⟨1, by push_cast; linarith, by push_cast; linarith⟩, h3⟩
      · rintro ⟨-, h3⟩
        exact ⟨h3, by intro e; linarith, Or.inl ⟨le_rfl, v4⟩⟩
  · exact grid_mask_iff hv hb r ⟨lt_of_le_of_ne h1 (fun e => hx e.symm), h2.le⟩

theorem timeOk_iff (b : Boundary) (t : ℤ) : timeOk b t = true ↔ ∃ t0 t1 rest, b.time = t0 :: t1 :: rest ∧ t0 ≤ t ∧ t ≤ t1 := by
  unfold timeOk
  split
  · rename_i t0 t1 rest h
    rw [Bool.and_eq_true, decide_eq_true_eq, decide_eq_true_eq]
    constructor
    · rintro ⟨h1, h2⟩; exact ⟨t0, t1, rest, h, h1, h2⟩
    · rintro ⟨a, c, l, e, h1, h2⟩
      rw [h] at e
      simp only [List.cons.injEq] at e
      rw [e.1, e.2.1]
      exact ⟨h1, h2⟩
  · rename_i h
    constructor
    · intro h; cases h
    · rintro ⟨a, c, l, e, -⟩; exact absurd e (h a c l)

/-- Trimming a sorted grid selects the datapoints of the region, where the mask is right. -/
theorem trim_masked {b : Boundary} {g : Grid V} (hl : g.lats.Pairwise (· ≤ ·))
    (hx : g.longs.Pairwise (· ≤ ·)) (ht : g.times.isSome = true → ∃ p, timeLimits b = .ok p)
    (hm : ∀ r : Row V, r.long ∈ g.longs → (Grid.mask b r = true ↔ HCovers b r.long r.lat)) :
    ∃ g', g.trim b = .ok g' ∧ (Dataset.grid g').Sorted ∧ ∀ r, r ∈ g'.rows ↔ r ∈ g.rows ∧ Selected b g.times.isSome r := by
  refine ⟨_, grid_trim hl hx ht, ⟨hl.filter _, hx.filter _⟩, fun r => ?_⟩
  have := trimTo_rows b (Dataset.grid g)
  simp only [Dataset.trimTo, Dataset.rows] at this
  rw [this, List.mem_filter]
  refine and_congr_right fun hr => ?_
  obtain ⟨-, hx, -⟩ := (grid_mem_rows _ _).1 hr
  simp only [Dataset.sel, Dataset.mask, Dataset.hasTime, Bool.and_eq_true, hm r hx, Selected]
  refine and_congr_right fun _ => ?_
  rw [Bool.or_eq_true, timeOk_iff]
  rcases g.times.isSome <;> simp

/-- Trimming a sorted grid with wrapped longitudes selects the datapoints of the region. -/
theorem trim_selected {b : Boundary} (hv : Valid b) (hb : b.longMin ≠ b.longMax) {g : Grid V} (hl : g.lats.Pairwise (· ≤ ·))
    (hx : g.longs.Pairwise (· ≤ ·)) (ht : g.times.isSome = true → ∃ p, timeLimits b = .ok p) (h1 : ∀ x ∈ g.longs, -180 ≤ x ∧ x < 180)
    (hanti : (∀ x ∈ g.longs, x ≠ -180) ∨ (b.longMin ≠ 180 ∧ b.longMax ≠ 180)) :
    ∃ g', g.trim b = .ok g' ∧ (Dataset.grid g').Sorted ∧ ∀ r, r ∈ g'.rows ↔ r ∈ g.rows ∧ Selected b g.times.isSome r :=
  trim_masked hl hx ht (fun r hx => lmask_wrapped hv hb r (h1 _ hx).1 (h1 _ hx).2 (hanti.imp (fun h => h _ hx) id))

/-! ## C80 -/

theorem wrapped_longs {g g1 : Grid V} (h : wrapGrid g = .ok g1) : ∀ x, x ∈ g1.longs ↔ ∃ o ∈ g.longs, x = wrapLong o := by
  unfold wrapGrid at h
  split at h
  · cases h
    intro x
    rw [List.mem_insertionSort, List.mem_map]
    exact ⟨fun ⟨o, h1, h2⟩ => ⟨o, h1, h2.symm⟩, fun ⟨o, h1, h2⟩ => ⟨o, h1, h2.symm⟩⟩
  · cases h

theorem filterPy_time {b : Boundary} {files fs : List (List Char)} (h : filesInRange b files = .ok fs) (hne : fs ≠ []) :
    ∃ p, timeLimits b = .ok p := by
  unfold filesInRange at h
  induction files generalizing fs with
  | nil => cases h; exact absurd rfl hne
  | cons a l ih =>
    unfold filterPy at h
    rcases hk : inRange b.time a with e | k
    · rw [hk] at h; cases h
    rcases hr : filterPy (inRange b.time) l with e | r
    · rw [hk, hr] at h; cases h
    by_cases hr0 : r = []
    · rw [hk, hr] at h
      have h := Except.ok.inj h
      cases k with
      | false => rw [hr0] at h; exact absurd h.symm hne
      | true =>
        unfold timeLimits
        unfold inRange at hk
        split at hk
        · cases hk
        · rename_i t0 rest heq
          rcases hd : dayOf (dateField a) with e | d
          · rw [hd] at hk; cases hk
          rw [hd] at hk
          simp only [bind, Except.bind] at hk
          split at hk
          · split at hk
            · cases hk
            · rename_i t1 l; exact ⟨(t0, t1), by rw [heq]⟩
          · cases hk
    · exact ih hr hr0

/-- Wrapping, converting, putting the latitudes in ascending order and trimming. -/
theorem wrap_trim {b : Boundary} (hv : Valid b) (hb : b.longMin ≠ b.longMax) (f : V → W) {g : Grid V} {lats : List ℚ}
    (hl : lats.Pairwise (· ≤ ·)) (hmem : ∀ y, y ∈ lats ↔ y ∈ g.lats) (hx : DistinctMeridians g.longs)
    (ht : g.times.isSome = true → ∃ p, timeLimits b = .ok p)
    (hanti : (∀ x ∈ g.longs, ¬ SameMeridian x 180) ∨ (b.longMin ≠ 180 ∧ b.longMax ≠ 180)) :
    ∃ g1 g', wrapGrid g = .ok g1 ∧ g1.lats = g.lats ∧ ({ mapVals f g1 with lats := lats } : Grid W).trim b = .ok g' ∧
      (Dataset.grid g').Sorted ∧ ∀ r, r ∈ g'.rows ↔ ∃ r0 ∈ g.rows, Renamed f r0 r ∧ Selected b g.times.isSome r0 := by
  obtain ⟨g1, e1, e2, e3, e4, -, e6⟩ := wrapGrid_rows f hx
  have hm := wrapped_longs e1
  obtain ⟨g', t1, t2, t3⟩ := trim_selected hv hb (g := { mapVals f g1 with lats := lats }) hl e4
    (by rw [show ({ mapVals f g1 with lats := lats } : Grid W).times = g.times from e3]; exact ht)
    (fun x hx => by obtain ⟨o, -, rfl⟩ := (hm x).1 hx; exact wrap_range o)
    (hanti.imp (fun h x hx => by
      obtain ⟨o, ho, rfl⟩ := (hm x).1 hx
      intro e
      refine h o ho (meridian_trans (meridian_symm (wrap_same o)) ?_)
      rw [e]; exact ⟨-1, by norm_num⟩) id)
  refine ⟨g1, g', e1, e2, t1, t2, fun r => ?_⟩
  rw [t3]
  have hrev : ∀ r, r ∈ ({ mapVals f g1 with lats := lats } : Grid W).rows ↔ r ∈ (mapVals f g1).rows := by
    intro r
    rw [grid_mem_rows, grid_mem_rows]
    show r.lat ∈ lats ∧ _ ↔ r.lat ∈ g1.lats ∧ _
    rw [e2, hmem]
  rw [hrev, e6]
  have hts : ({ mapVals f g1 with lats := lats } : Grid W).times = g.times := e3
  rw [hts]
  constructor
  · rintro ⟨⟨r0, hr0, hren⟩, hs1, hs2⟩
    refine ⟨r0, hr0, hren, ?_, fun h => ?_⟩
    · rw [← hcovers_meridian hren.2.2.2.1, ← hren.1]; exact hs1
    · rw [← hren.2.1]; exact hs2 h
  · rintro ⟨r0, hr0, hren, hs1, hs2⟩
    refine ⟨⟨r0, hr0, hren⟩, ?_, fun h => ?_⟩
    · rw [hcovers_meridian hren.2.2.2.1, hren.1]; exact hs1
    · rw [hren.2.1]; exact hs2 h

/-- **C80** (partial): the ERA5 importers give exactly the datapoints of the files that lie in the region and time range,
each named by a longitude in `[-180, 180)`, on ascending axes.  Missing: data on the antimeridian when the region
ends there (`C80_antimeridian_false`); files with ascending latitudes (`C80_ascending_false`). -/
theorem C80_era5_partial {b : Boundary} (hv : Valid b) (hb : b.longMin ≠ b.longMax) (f : V → W) {read : List (List Char) → Py (Grid V)}
    {files fs : List (List Char)} (hf : filesInRange b files = .ok fs) (hne : fs ≠ []) {g : Grid V} (hr : read fs = .ok g)
    (hl : g.lats.Pairwise (· > ·)) (hx : DistinctMeridians g.longs)
    (hanti : (∀ x ∈ g.longs, ¬ SameMeridian x 180) ∨ (b.longMin ≠ 180 ∧ b.longMax ≠ 180)) :
    ∃ g', era5 f read files b = .ok (fs, g') ∧ (Dataset.grid g').Sorted ∧
      ∀ r, r ∈ g'.rows ↔ ∃ r0 ∈ g.rows, Renamed f r0 r ∧ Selected b g.times.isSome r0 := by
  obtain ⟨g1, g', e1, e2, t1, t2, t3⟩ := wrap_trim hv hb f (g := g) (lats := g.lats.reverse)
    (by rw [List.pairwise_reverse]; exact hl.imp (fun h => le_of_lt h)) (fun y => List.mem_reverse) hx (fun _ => filterPy_time hf hne) hanti
  refine ⟨g', ?_, t2, t3⟩
  have hnd : (mapVals f g1).lats.Nodup := by
    show g1.lats.Nodup
    rw [e2]; exact hl.imp (fun h => ne_of_gt h)
  have hlr : (mapVals f g1).lats.reverse = g.lats.reverse := congrArg List.reverse e2
  unfold era5 openFiles flipLats
  simp only [hf, if_neg hne, hr, e1, if_pos hnd, hlr, t1, bind, Except.bind, pure, Except.pure]

/-- **C80** (partial): the same for depths of BSOSE (ascending latitudes, no time): the elevation is minus the depth. -/
theorem C80_bsoseDepth_partial {b : Boundary} (hv : Valid b) (hb : b.longMin ≠ b.longMax)
    {read : List (List Char) → Py (Grid (Option ℚ))} {fs : List (List Char)} (hne : fs ≠ []) {g : Grid (Option ℚ)} (hr : read fs = .ok g)
    (hl : g.lats.Pairwise (· ≤ ·)) (hx : DistinctMeridians g.longs) (ht : g.times = none)
    (hanti : (∀ x ∈ g.longs, ¬ SameMeridian x 180) ∨ (b.longMin ≠ 180 ∧ b.longMax ≠ 180)) :
    ∃ g', bsoseDepth read fs b = .ok g' ∧ (Dataset.grid g').Sorted ∧
      ∀ r, r ∈ g'.rows ↔ ∃ r0 ∈ g.rows, Renamed (Option.map (fun d => -d)) r0 r ∧ HCovers b r0.long r0.lat := by
  obtain ⟨g1, g', e1, e2, t1, t2, t3⟩ := wrap_trim hv hb (Option.map (fun d : ℚ => -d)) (g := g) (lats := g.lats)
    hl (fun y => Iff.rfl) hx (by rw [ht]; intro h; cases h) hanti
  refine ⟨g', ?_, t2, fun r => ?_⟩
  · unfold bsoseDepth openFiles
    have : mapVals (fun d => Option.map (fun x : ℚ => -1 * x) d) g1 = { mapVals (Option.map (fun d : ℚ => -d)) g1 with lats := g.lats } := by
      unfold mapVals
      rw [← e2]
      simp only [neg_one_mul]
    simp only [if_neg hne, hr, e1, this, t1, bind, Except.bind]
  · rw [t3]
    simp only [Selected, ht, Option.isSome_none, Bool.false_eq_true, false_implies, and_true]

/-- What the value of BSOSE ice becomes. -/
def Spec.IceUnits (units : Option String) (f : ℚ → ℚ) : Prop :=
  (units = none ∨ units = some "percentage") ∧ (∀ x, f x = 100 * x) ∨ units = some "fraction" ∧ ∀ x, f x = x

/-- **C80** (partial): the same for ice of BSOSE, in percent unless a fraction is asked for. -/
theorem C80_bsoseIce_partial {b : Boundary} (hv : Valid b) (hb : b.longMin ≠ b.longMax) {units : Option String} {f : ℚ → ℚ}
    (hu : IceUnits units f) {read : List (List Char) → Py (Grid (Option ℚ))} {fs : List (List Char)} (hne : fs ≠ [])
    {g : Grid (Option ℚ)} (hr : read fs = .ok g) (hl : g.lats.Pairwise (· ≤ ·)) (hx : DistinctMeridians g.longs)
    (ht : g.times.isSome = true → ∃ p, timeLimits b = .ok p)
    (hanti : (∀ x ∈ g.longs, ¬ SameMeridian x 180) ∨ (b.longMin ≠ 180 ∧ b.longMax ≠ 180)) :
    ∃ g', bsoseIce units read fs b = .ok g' ∧ (Dataset.grid g').Sorted ∧
      ∀ r, r ∈ g'.rows ↔ ∃ r0 ∈ g.rows, Renamed (Option.map f) r0 r ∧ Selected b g.times.isSome r0 := by
  obtain ⟨g1, g', e1, e2, t1, t2, t3⟩ := wrap_trim hv hb id (g := g) (lats := g.lats) hl (fun y => Iff.rfl) hx ht hanti
  have hself : ({ mapVals id g1 with lats := g.lats } : Grid (Option ℚ)) = g1 := by
    unfold mapVals
    rw [← e2]
    rfl
  rw [hself] at t1
  have hrow : ∀ r, r ∈ (mapVals (Option.map f) g').rows ↔ ∃ r0 ∈ g.rows, Renamed (Option.map f) r0 r ∧ Selected b g.times.isSome r0 := by
    intro r
    have hmv : r ∈ (mapVals (Option.map f) g').rows ↔ ∃ q ∈ g'.rows, r = { q with val := q.val.map f } := by
      rw [grid_mem_rows]
      constructor
      · rintro ⟨h1, h2, h3, h4⟩
        refine ⟨⟨r.lat, r.long, r.time, g'.val r.lat r.long r.time⟩, (grid_mem_rows _ _).2 ⟨h1, h2, rfl, h4⟩, ?_⟩
        obtain ⟨_, _, _, _⟩ := r
        simp only [mapVals] at h3
        rw [h3]
      · rintro ⟨q, hq, rfl⟩
        obtain ⟨h1, h2, h3, h4⟩ := (grid_mem_rows _ _).1 hq
        exact ⟨h1, h2, congrArg (Option.map f) h3, h4⟩
    rw [hmv]
    constructor
    · rintro ⟨q, hq, rfl⟩
      obtain ⟨r0, h0, ⟨a1, a2, a3, a4⟩, hs⟩ := (t3 q).1 hq
      exact ⟨r0, h0, ⟨a1, a2, congrArg (Option.map f) a3, a4⟩, hs⟩
    · rintro ⟨r0, h0, ⟨a1, a2, a3, a4⟩, hs⟩
      refine ⟨⟨r.lat, r.long, r.time, r0.val⟩, (t3 _).2 ⟨r0, h0, ⟨a1, a2, rfl, a4⟩, hs⟩, ?_⟩
      obtain ⟨_, _, _, _⟩ := r
      simp only at a3 ⊢
      rw [a3]
  refine ⟨mapVals (Option.map f) g', ?_, ⟨t2.1, t2.2⟩, hrow⟩
  unfold bsoseIce openFiles
  simp only [if_neg hne, hr, e1, t1, bind, Except.bind, pure, Except.pure]
  have hcent : (∀ x, f x = 100 * x) → mapVals (fun d : Option ℚ => d.map (fun x => x * 100)) g' = mapVals (Option.map f) g' := by
    intro h
    have : f = fun x => x * 100 := funext fun x => by rw [h, mul_comm]
    rw [this]
  rcases hu with ⟨rfl | rfl, hf⟩ | ⟨rfl, hf⟩
  · simp only [hcent hf]
  · simp only [hcent hf, if_true]
  · have : f = id := funext hf
    rw [this]
    unfold mapVals
    simp only [Option.map_id, id_eq]
    rw [if_neg (by decide), if_pos trivial]

/-- **C80**: other units are refused. -/
theorem C80_units_raise {u : String} (h1 : u ≠ "percentage") (h2 : u ≠ "fraction") (read : List (List Char) → Py (Grid (Option ℚ)))
    (fs : List (List Char)) (b : Boundary) (g : Grid (Option ℚ)) : bsoseIce (some u) read fs b ≠ .ok g := by
  unfold bsoseIce
  intro h
  rcases h3 : openFiles read fs with e | g0
  · rw [h3] at h; cases h
  rcases h4 : wrapGrid g0 with e | g1
  · simp only [h3, h4, bind, Except.bind] at h; cases h
  rcases h5 : g1.trim b with e | g2
  · simp only [h3, h4, h5, bind, Except.bind] at h; cases h
  simp only [h3, h4, h5, bind, Except.bind, if_neg h1, if_neg h2] at h
  cases h

/-- **C80** (partial): winds of ERA5, whose longitudes are not renamed, are right for files with longitudes in
`(-180, 180]`.  Missing: `C80_unwrapped_false`. -/
theorem C80_era5Wind_partial {b : Boundary} (hv : Valid b) (hb : b.longMin ≠ b.longMax) {read : List (List Char) → Py (Grid V)}
    {files fs : List (List Char)} (hf : filesInRange b files = .ok fs) (hne : fs ≠ []) {g : Grid V} (hr : read fs = .ok g)
    (hl : g.lats.Pairwise (· > ·)) (hx : g.longs.Pairwise (· ≤ ·)) (hx' : ∀ x ∈ g.longs, -180 < x ∧ x ≤ 180) :
    ∃ g', era5Wind read files b = .ok (fs, g') ∧ (Dataset.grid g').Sorted ∧
      ∀ r, r ∈ g'.rows ↔ r ∈ g.rows ∧ Selected b g.times.isSome r := by
  have hp := filterPy_time hf hne
  obtain ⟨g', t1, t2, t3⟩ := trim_masked (b := b) (g := { g with lats := g.lats.reverse })
    (by show g.lats.reverse.Pairwise _
        rw [List.pairwise_reverse]; exact hl.imp (fun h => le_of_lt h)) hx (fun _ => hp) (fun r hr => grid_mask_iff hv hb r (hx' _ hr))
  refine ⟨g', ?_, t2, fun r => ?_⟩
  · have hnd : g.lats.Nodup := hl.imp (fun h => ne_of_gt h)
    obtain ⟨p, hp⟩ := hp
    unfold era5Wind openFiles flipLats
    unfold timeLimits at hp
    split at hp
    · rename_i heq
      simp only [hf, if_neg hne, hr, heq, if_pos hnd, t1, bind, Except.bind, pure, Except.pure]
    · cases hp
  · rw [t3, grid_mem_rows, grid_mem_rows, List.mem_reverse]

/-- **C80** (partial): currents of DUACS likewise, with ascending latitudes. -/
theorem C80_duacs_partial {b : Boundary} (hv : Valid b) (hb : b.longMin ≠ b.longMax) {read : List (List Char) → Py (Grid V)}
    {files fs : List (List Char)} (hf : filesInRange b files = .ok fs) (hne : fs ≠ []) {g : Grid V} (hr : read fs = .ok g)
    (hl : g.lats.Pairwise (· ≤ ·)) (hx : g.longs.Pairwise (· ≤ ·)) (hx' : ∀ x ∈ g.longs, -180 < x ∧ x ≤ 180) :
    ∃ g', duacs read files b = .ok (fs, g') ∧ (Dataset.grid g').Sorted ∧
      ∀ r, r ∈ g'.rows ↔ r ∈ g.rows ∧ Selected b g.times.isSome r := by
  obtain ⟨g', t1, t2, t3⟩ := trim_masked (b := b) hl hx (fun _ => filterPy_time hf hne) (fun r hr => grid_mask_iff hv hb r (hx' _ hr))
  refine ⟨g', ?_, t2, t3⟩
  unfold duacs openFiles
  simp only [hf, if_neg hne, hr, t1, bind, Except.bind, pure, Except.pure]

/-- **C80** (partial): GEBCO and the currents of the North Sea. -/
theorem C80_plainGrid_partial {b : Boundary} (hv : Valid b) (hb : b.longMin ≠ b.longMax) {read : List (List Char) → Py (Grid V)}
    {fs : List (List Char)} (hne : fs ≠ []) {g : Grid V} (hr : read fs = .ok g) (ht : g.times.isSome = true → ∃ p, timeLimits b = .ok p)
    (hl : g.lats.Pairwise (· ≤ ·)) (hx : g.longs.Pairwise (· ≤ ·)) (hx' : ∀ x ∈ g.longs, -180 < x ∧ x ≤ 180) :
    ∃ g', plainGrid read fs b = .ok g' ∧ (Dataset.grid g').Sorted ∧ ∀ r, r ∈ g'.rows ↔ r ∈ g.rows ∧ Selected b g.times.isSome r := by
  obtain ⟨g', t1, t2, t3⟩ := trim_masked (b := b) hl hx ht (fun r hr => grid_mask_iff hv hb r (hx' _ hr))
  refine ⟨g', ?_, t2, t3⟩
  unfold plainGrid openFiles
  simp only [if_neg hne, hr, t1, bind, Except.bind]

/-- **C80** (partial): ice of the Baltic, with descending latitudes. -/
theorem C80_balticIce_partial {b : Boundary} (hv : Valid b) (hb : b.longMin ≠ b.longMax) {read : List (List Char) → Py (Grid V)}
    {fs : List (List Char)} (hne : fs ≠ []) {g : Grid V} (hr : read fs = .ok g) (ht : g.times.isSome = true → ∃ p, timeLimits b = .ok p)
    (hl : g.lats.Pairwise (· > ·)) (hx : g.longs.Pairwise (· ≤ ·)) (hx' : ∀ x ∈ g.longs, -180 < x ∧ x ≤ 180) :
    ∃ g', balticIce read fs b = .ok g' ∧ (Dataset.grid g').Sorted ∧ ∀ r, r ∈ g'.rows ↔ r ∈ g.rows ∧ Selected b g.times.isSome r := by
  obtain ⟨g', t1, t2, t3⟩ := trim_masked (b := b) (g := { g with lats := g.lats.reverse })
    (by show g.lats.reverse.Pairwise _
        rw [List.pairwise_reverse]; exact hl.imp (fun h => le_of_lt h)) hx ht (fun r hr => grid_mask_iff hv hb r (hx' _ hr))
  refine ⟨g', ?_, t2, fun r => ?_⟩
  · have hnd : g.lats.Nodup := hl.imp (fun h => ne_of_gt h)
    unfold balticIce openFiles flipLats
    simp only [if_neg hne, hr, if_pos hnd, t1, bind, Except.bind]
  · rw [t3, grid_mem_rows, grid_mem_rows, List.mem_reverse]

/-- **C80** (partial): SOSE, whose files have longitudes in `[0, 360)`, for regions that do not cross the antimeridian: exactly
the datapoints of the region, longitudes named in `(-180, 180]`. -/
theorem C80_sose_partial {b : Boundary} (hv : Valid b) (hb : b.longMin < b.longMax) {read : List (List Char) → Py (Grid V)}
    {fs : List (List Char)} (hne : fs ≠ []) {g : Grid V} (hr : read fs = .ok g) (hx : ∀ x ∈ g.longs, 0 ≤ x ∧ x < 360) :
    ∃ t, sose read fs b = .ok t ∧ ∀ r, r ∈ t.rows ↔ ∃ r0 ∈ g.rows, r.lat = r0.lat ∧ r.time = r0.time ∧ r.val = r0.val ∧
      SameMeridian r.long r0.long ∧ -180 < r.long ∧ r.long ≤ 180 ∧ HCovers b r0.long r0.lat := by
  have hs : ∀ x : ℚ, 0 ≤ x → x < 360 → SameMeridian (soseLong x) x ∧ -180 < soseLong x ∧ soseLong x ≤ 180 := by
    intro x h1 h2
    unfold soseLong
    split
    · exact ⟨⟨-1, by push_cast; ring⟩, by linarith, by linarith⟩
    · exact ⟨⟨0, by push_cast; ring⟩, by linarith, by linarith⟩
  refine ⟨_, by unfold sose openFiles Table.trim; simp only [if_neg hne, hr, bind, Except.bind, Bool.false_eq_true, if_false]; rfl, fun r => ?_⟩
  simp only [List.mem_filter, List.mem_map]
  constructor
  · rintro ⟨⟨r0, hr0, rfl⟩, hm⟩
    obtain ⟨-, h2, -⟩ := (grid_mem_rows _ _).1 hr0
    obtain ⟨k1, k2, k3⟩ := hs _ (hx _ h2).1 (hx _ h2).2
    refine ⟨r0, hr0, rfl, rfl, rfl, k1, k2, k3, ?_⟩
    rw [← hcovers_meridian k1]
    have := (mask_iff (.table ⟨false, []⟩) hv hb { r0 with long := soseLong r0.long } ⟨k2, k3⟩).1 hm
    exact this
  · rintro ⟨r0, hr0, e1, e2, e3, e4, e5, e6, e7⟩
    obtain ⟨-, h2, -⟩ := (grid_mem_rows _ _).1 hr0
    obtain ⟨k1, k2, k3⟩ := hs _ (hx _ h2).1 (hx _ h2).2
    have hlong : r.long = soseLong r0.long := by
      obtain ⟨n, hn⟩ := meridian_trans e4 (meridian_symm k1)
      have h3 : (-1 : ℚ) < n := by linarith
      have h4 : (n : ℚ) < 1 := by linarith
      have h3' : (-1 : ℤ) < n := by exact_mod_cast h3
      have h4' : n < 1 := by exact_mod_cast h4
      obtain rfl : n = 0 := by omega
      simpa using hn
    refine ⟨⟨r0, hr0, ?_⟩, ?_⟩
    · obtain ⟨_, _, _, _⟩ := r
      simp only at e1 e2 e3 hlong
      rw [e1, e2, e3, hlong]
    · refine (mask_iff (.table ⟨false, []⟩) hv hb r ⟨e5, e6⟩).2 ?_
      rw [hcovers_meridian e4, e1]; exact e7

/-- **C80**: text files are put together in the order of the files, then trimmed. -/
theorem C80_csv {read : List Char → Py (Table V)} {files : List (List Char)} (hne : files ≠ []) {l : List (Table V)}
    (hr : List.Forall₂ (fun f t => read f = .ok t) files l) (ht : ∀ t ∈ l, t.hasTime = false) (b : Boundary) :
    ∃ t, csv read files b = .ok t ∧ t.hasTime = false ∧ t.rows = (l.map Table.rows).flatten.filter (Table.mask b) := by
  have hm : files.mapM read = .ok l := by
    clear hne ht
    induction hr with
    | nil => rfl
    | cons h _ ih => simp only [List.mapM_cons, h, ih, bind, Except.bind, pure, Except.pure]
  unfold csv
  simp only [hm, bind, Except.bind]
  cases l with
  | nil => cases hr; exact absurd rfl hne
  | cons t ts =>
    have h0 : t.hasTime = false := ht t (List.mem_cons_self ..)
    refine ⟨⟨false, ((t :: ts).flatMap Table.rows).filter (Table.mask b)⟩, ?_, rfl, ?_⟩
    · show Table.trim b _ = _
      unfold Table.trim
      simp only [h0, Bool.false_eq_true, if_false]
    · rw [List.flatMap_def]

/-- **C80**: without files there is nothing to import. -/
theorem C80_no_files (b : Boundary) (f : V → W) (read : List (List Char) → Py (Grid V)) (read' : List Char → Py (Table V)) :
    era5 f read [] b = .error .osError ∧ era5Wind read [] b = .error .osError ∧ duacs read [] b = .error .osError ∧
    plainGrid read [] b = .error .osError ∧ balticIce read [] b = .error .osError ∧ sose read [] b = .error .osError ∧
    csv read' [] b = .error .valueError := ⟨rfl, rfl, rfl, rfl, rfl, rfl, rfl⟩

/-- **C80** fails at the antimeridian: for every region ending at 180 from the west, no datapoint on that meridian is imported
(from ERA5 or BSOSE), though the region contains it. -/
theorem C80_antimeridian_false {b : Boundary} (hv : Valid b) (hb : b.longMin < 180) (hb' : b.longMax = 180) (f : V → W)
    {read : List (List Char) → Py (Grid V)} {files fs : List (List Char)} {g : Grid V} (hr : read fs = .ok g) (hl : g.lats.Pairwise (· > ·))
    {g' : Grid W} (h : era5 f read files b = .ok (fs, g')) :
    (∀ r ∈ g'.rows, ¬ SameMeridian r.long 180) ∧ ∀ y, b.latMin < y → y ≤ b.latMax → HCovers b 180 y := by
  constructor
  · unfold era5 at h
    rcases h1 : filesInRange b files with e | fs'
    · rw [h1] at h; cases h
    rcases h2 : openFiles read fs' with e | g0
    · simp only [h1, h2, bind, Except.bind] at h; cases h
    rcases h3 : wrapGrid g0 with e | g1
    · simp only [h1, h2, h3, bind, Except.bind] at h; cases h
    rcases h4 : flipLats (mapVals f g1) with e | g2
    · simp only [h1, h2, h3, h4, bind, Except.bind] at h; cases h
    rcases h5 : g2.trim b with e | g3
    · simp only [h1, h2, h3, h4, h5, bind, Except.bind] at h; cases h
    simp only [h1, h2, h3, h4, h5, bind, Except.bind, pure, Except.pure] at h
    obtain ⟨rfl, rfl⟩ := Prod.mk.inj (Except.ok.inj h)
    have hg0 : g0 = g := by
      unfold openFiles at h2
      split at h2
      · cases h2
      · rw [hr] at h2; exact (Except.ok.inj h2).symm
    subst hg0
    unfold wrapGrid at h3
    split at h3
    swap
    · cases h3
    have h3 := Except.ok.inj h3
    subst h3
    unfold flipLats at h4
    split at h4
    swap
    · cases h4
    have h4 := Except.ok.inj h4
    subst h4
    have hs : (Dataset.grid ({ mapVals f { g0 with longs := (g0.longs.map wrapLong).insertionSort (· ≤ ·), val := fun y x t => g0.val y (unwrap g0.longs x) t }
        with lats := g0.lats.reverse } : Grid W)).Sorted := by
      constructor
      · show g0.lats.reverse.Pairwise _
        rw [List.pairwise_reverse]; exact hl.imp (fun h => le_of_lt h)
      · exact List.pairwise_insertionSort _ _
    have h6 := trim_inv (d' := .grid g3) hs (by
      show (_ >>= fun g => pure (Dataset.grid g)) = _
      erw [h5]
      rfl)
    intro r hr ⟨n, hn⟩
    have hrows : g3.rows = (Dataset.grid g3).rows := rfl
    rw [hrows, h6, trimTo_rows, List.mem_filter] at hr
    obtain ⟨hr1, hr2⟩ := hr
    obtain ⟨-, hx, -⟩ := (grid_mem_rows _ _).1 hr1
    have hx' : -180 ≤ r.long ∧ r.long < 180 := by
      have := List.mem_insertionSort _ |>.1 hx
      obtain ⟨o, -, ho⟩ := List.mem_map.1 this
      rw [← ho]; exact wrap_range o
    have hlt : b.longMin < b.longMax := by rw [hb']; exact hb
    have hm : b.longMin < r.long := by
      simp only [Dataset.sel, Dataset.mask, Grid.mask, Grid.lmask, hlt, if_true, Bool.and_eq_true, decide_eq_true_eq] at hr2
      exact hr2.1.2.1
    have hv2 := hv.2.1
    have h7 : (-1 : ℚ) < n := by linarith
    have h8 : (n : ℚ) < 0 := by linarith
    have h7' : (-1 : ℤ) < n := by exact_mod_cast h7
    have h8' : n < 0 := by exact_mod_cast h8
    omega
  · intro y h1 h2
    refine ⟨⟨0, ?_, ?_⟩, h1, h2⟩
    · push_cast; linarith
    · unfold eastEdge
      rw [if_pos (by rw [hb']; exact hb), hb']; norm_num

/-- A descending index yields nothing for an ascending slice. -/
theorem selSlice_descending {l : List ℚ} (h : l.Pairwise (· > ·)) (hl : 2 ≤ l.length) {lo hi : ℚ} (hlo : lo < hi) : selSlice l lo hi = .ok [] := by
  unfold selSlice
  have h1 : ¬ l.Pairwise (· ≤ ·) := by
    match l, hl with
    | a :: c :: l, _ =>
      intro h2
      rw [List.pairwise_cons] at h h2
      have := h.1 c (List.mem_cons_self ..)
      have := h2.1 c (List.mem_cons_self ..)
      linarith
  rw [if_neg h1, if_pos (h.imp (fun h => le_of_lt h))]
  congr 1
  apply List.drop_eq_nil_of_le
  rw [List.length_take]
  refine le_trans (min_le_left _ _) (List.countP_mono_left (fun x _ hx => ?_))
  simp only [decide_eq_true_eq] at hx ⊢
  linarith

/-- **C80** fails for files with ascending latitudes: nothing is imported, whatever the region. -/
theorem C80_ascending_false {b : Boundary} (hv : b.latMin < b.latMax) (f : V → W) {read : List (List Char) → Py (Grid V)}
    {files fs : List (List Char)} {g : Grid V} (hr : read fs = .ok g) (hl : g.lats.Pairwise (· < ·)) (h2 : 2 ≤ g.lats.length)
    {g' : Grid W} (h : era5 f read files b = .ok (fs, g')) : g'.rows = [] := by
  unfold era5 at h
  rcases h1 : filesInRange b files with e | fs'
  · rw [h1] at h; cases h
  rcases h2 : openFiles read fs' with e | g0
  · simp only [h1, h2, bind, Except.bind] at h; cases h
  rcases h3 : wrapGrid g0 with e | g1
  · simp only [h1, h2, h3, bind, Except.bind] at h; cases h
  rcases h4 : flipLats (mapVals f g1) with e | g2
  · simp only [h1, h2, h3, h4, bind, Except.bind] at h; cases h
  rcases h5 : g2.trim b with e | g3
  · simp only [h1, h2, h3, h4, h5, bind, Except.bind] at h; cases h
  simp only [h1, h2, h3, h4, h5, bind, Except.bind, pure, Except.pure] at h
  obtain ⟨rfl, rfl⟩ := Prod.mk.inj (Except.ok.inj h)
  have hg0 : g0 = g := by
    unfold openFiles at h2
    split at h2
    · cases h2
    · rw [hr] at h2; exact (Except.ok.inj h2).symm
  subst hg0
  unfold wrapGrid at h3
  split at h3
  swap
  · cases h3
  have h3 := Except.ok.inj h3
  subst h3
  unfold flipLats at h4
  split at h4
  swap
  · cases h4
  have h4 := Except.ok.inj h4
  subst h4
  unfold Grid.trim at h5
  have hsl : selSlice g0.lats.reverse b.latMin b.latMax = .ok [] :=
    selSlice_descending (by rw [List.pairwise_reverse]; exact hl) (by simpa using by assumption) hv
  have hg3 : g3.lats = [] := by
    simp only [mapVals, hsl, bind, Except.bind] at h5
    split at h5
    · cases h5
    split at h5
    · cases h5
    have h5 := Except.ok.inj h5
    rw [← h5]
    simp
  unfold Grid.rows
  rw [hg3]
  rfl

/-- **C80** fails for winds of files with longitudes in `[0, 360)`: nothing is imported for a region west of Greenwich. -/
theorem C80_unwrapped_false {b : Boundary} (hb : b.longMin < b.longMax) (hb' : b.longMax < 0) {read : List (List Char) → Py (Grid V)}
    {files fs : List (List Char)} {g : Grid V} (hr : read fs = .ok g) (hx : g.longs.Pairwise (· ≤ ·)) (hx' : ∀ x ∈ g.longs, 0 ≤ x) {g' : Grid V}
    (h : era5Wind read files b = .ok (fs, g') ∨ duacs read files b = .ok (fs, g')) : g'.rows = [] := by
  have key : ∀ g0 : Grid V, g0.longs = g.longs → g0.trim b = .ok g' → g'.rows = [] := by
    intro g0 he h5
    have hsl : selSlice g0.longs b.longMin b.longMax = .ok [] := by
      rw [he, selSlice_sorted hx]
      congr 1
      rw [List.filter_eq_nil_iff]
      intro x hx
      have := hx' x hx
      simp only [decide_eq_true_eq, not_and, not_le]
      intro _; linarith
    have hg' : g'.longs = [] := by
      unfold Grid.trim Grid.selLongs at h5
      rcases hla : selSlice g0.lats b.latMin b.latMax with e | la
      · rw [hla] at h5; cases h5
      simp only [hla, hb, if_true, hsl, bind, Except.bind] at h5
      split at h5
      · cases h5
      have h5 := Except.ok.inj h5
      rw [← h5]
      simp
    rw [List.eq_nil_iff_forall_not_mem]
    intro r hr
    have := ((grid_mem_rows _ _).1 hr).2.1
    rw [hg'] at this
    cases this
  have hopen : ∀ {fs' : List (List Char)} {g0}, fs' = fs → openFiles read fs' = .ok g0 → g0 = g := by
    intro fs' g0 e h2
    subst e
    unfold openFiles at h2
    split at h2
    · cases h2
    · rw [hr] at h2; exact (Except.ok.inj h2).symm
  rcases h with h | h
  · unfold era5Wind at h
    rcases h1 : filesInRange b files with e | fs'
    · rw [h1] at h; cases h
    rcases h2 : openFiles read fs' with e | g0
    · simp only [h1, h2, bind, Except.bind] at h; cases h
    rcases h4 : flipLats g0 with e | g2
    · simp only [h1, h2, h4, bind, Except.bind] at h
      split at h <;> cases h
    rcases h5 : g2.trim b with e | g3
    · simp only [h1, h2, h4, h5, bind, Except.bind] at h
      split at h <;> cases h
    simp only [h1, h2, h4, h5, bind, Except.bind, pure, Except.pure] at h
    split at h
    · cases h
    obtain ⟨rfl, rfl⟩ := Prod.mk.inj (Except.ok.inj h)
    have hg0 := hopen rfl h2
    subst hg0
    refine key g2 ?_ h5
    unfold flipLats at h4
    split at h4
    · have h4 := Except.ok.inj h4
      rw [← h4]
    · cases h4
  · unfold duacs at h
    rcases h1 : filesInRange b files with e | fs'
    · rw [h1] at h; cases h
    rcases h2 : openFiles read fs' with e | g0
    · simp only [h1, h2, bind, Except.bind] at h; cases h
    rcases h5 : g0.trim b with e | g3
    · simp only [h1, h2, h5, bind, Except.bind] at h; cases h
    simp only [h1, h2, h5, bind, Except.bind, pure, Except.pure] at h
    obtain ⟨rfl, rfl⟩ := Prod.mk.inj (Except.ok.inj h)
    have hg0 := hopen rfl h2
    subst hg0
    exact key g0 rfl h5

/-! ## C81 -/

/-- The day a file is dated, by the form of its name: ten characters, the date, three characters. -/
def Spec.Dated (file : List Char) (a : PyDate) : Prop :=
  ∃ dir pre date suf : List Char, file = dir ++ (pre ++ date ++ suf) ∧ pre.length = 10 ∧ suf.length = 3 ∧ IsoDate date a ∧
    '/' ∉ pre ∧ '/' ∉ suf ∧ (dir = [] ∨ ∃ d, dir = d ++ ['/'])

/-- The same for AMSR: the date without hyphens before the last hyphen. -/
def Spec.AmsrDated (file : List Char) (a : PyDate) : Prop :=
  ∃ pre y m d suf : List Char, file = pre ++ '-' :: (y ++ m ++ d) ++ '-' :: suf ∧ y.length = 4 ∧ m.length = 2 ∧ '-' ∉ suf ∧
    IsoDate (y ++ '-' :: m ++ '-' :: d) a ∧ '-' ∉ d

theorem strptime_iso {s : List Char} {a : PyDate} (h : IsoDate s a) : TimeStr.strptime s = some a := by
  obtain ⟨y, m, d, rfl, hy, hm, hd, hdig, ha, hex⟩ := h
  match y, hy with
  | [y1, y2, y3, y4], _ =>
  match m, hm with
  | [m1, m2], _ =>
  match d, hd with
  | [d1, d2], _ =>
  simp only [List.cons_append, List.nil_append, List.mem_cons, List.not_mem_nil, or_false, forall_eq_or_imp, forall_eq] at hdig
  obtain ⟨e1, e2, e3, e4, e5, e6, e7, e8⟩ := hdig
  simp only [← digitsVal_eq] at ha
  have hmk : TimeStr.mkDate (TimeStr.digitsVal [y1, y2, y3, y4]) (TimeStr.digitsVal [m1, m2]) (TimeStr.digitsVal [d1, d2]) = some a := by
    unfold TimeStr.mkDate; rw [← ha, if_pos hex]
  show TimeStr.strptime [y1, y2, y3, y4, '-', m1, m2, '-', d1, d2] = some a
  unfold TimeStr.strptime
  obtain ⟨-, -, g1, g2, g3, g4⟩ := hex
  rw [ha] at g1 g2 g3 g4
  simp only at g1 g2 g3 g4
  have := daysInMonth_le (TimeStr.digitsVal [y1, y2, y3, y4]) (TimeStr.digitsVal [m1, m2])
  simp only [List.all_cons, e1, e2, e3, e4, List.all_nil, Bool.and_true, if_true, strpMonth_two e5 e6 _ ⟨g1, g2⟩,
    strpDay_two e7 e8 ⟨g3, by omega⟩, hmk]

theorem iso_no_slash {s : List Char} {a : PyDate} (h : IsoDate s a) : '/' ∉ s := by
  obtain ⟨y, m, d, rfl, -, -, -, hdig, -⟩ := h
  intro hm
  have key : ∀ c ∈ y ++ m ++ d, c ≠ '/' := by
    intro c hc e
    have := hdig c hc
    rw [e] at this
    revert this; decide
  simp only [List.mem_append, List.mem_cons] at hm key
  rcases hm with (h | h | h) | h | h
  · exact key '/' (by simp [h]) rfl
  · revert h; decide
  · exact key '/' (by simp [h]) rfl
  · revert h; decide
  · exact key '/' (by simp [h]) rfl

theorem basename_eq {dir w : List Char} (hw : '/' ∉ w) (hd : dir = [] ∨ ∃ d, dir = d ++ ['/']) : basename (dir ++ w) = w := by
  unfold basename
  have hall : ∀ c ∈ w.reverse, decide (c ≠ '/') = true := by
    intro c hc
    rw [decide_eq_true_eq]
    rintro rfl
    exact hw (List.mem_reverse.1 hc)
  rw [List.reverse_append, List.takeWhile_append_of_pos hall]
  rcases hd with rfl | ⟨d, rfl⟩
  · simp
  · simp

theorem dateField_eq {file : List Char} {a : PyDate} (h : Dated file a) : dayOf (dateField file) = .ok a.ordinal := by
  obtain ⟨dir, pre, date, suf, rfl, h1, h2, h3, h4, h5, h6⟩ := h
  have hd : dateField (dir ++ (pre ++ date ++ suf)) = date := by
    unfold dateField
    have hw : '/' ∉ pre ++ date ++ suf := by
      simp only [List.mem_append, not_or]
      exact ⟨⟨h4, iso_no_slash h3⟩, h5⟩
    simp only [basename_eq hw h6]
    have hlen : (pre ++ date ++ suf).length - 3 = (pre ++ date).length := by
      rw [List.length_append (bs := suf), h2]; omega
    rw [hlen, List.take_left, ← h1, List.drop_left]
  rw [hd]
  unfold dayOf
  rw [strptime_iso h3]

theorem filterPy_ok {α : Type} {p : α → Py Bool} {q : α → Bool} : ∀ {l : List α}, (∀ a ∈ l, p a = .ok (q a)) → filterPy p l = .ok (l.filter q)
  | [], _ => rfl
  | a :: l, h => by
    have ih := filterPy_ok (l := l) (fun c hc => h c (List.mem_cons_of_mem _ hc))
    unfold filterPy
    rw [h a (List.mem_cons_self ..), ih]
    simp only [bind, Except.bind, pure, Except.pure, List.filter_cons]

/-- **C81**: exactly the files dated within the time range are read, in their order. -/
theorem C81_files {b : Boundary} {t0 t1 : ℤ} {rest : List ℤ} (ht : b.time = t0 :: t1 :: rest) {files : List (List Char)}
    {day : List Char → PyDate} (h : ∀ f ∈ files, Dated f (day f)) :
    filesInRange b files = .ok (files.filter (fun f => t0 ≤ (day f).ordinal ∧ (day f).ordinal ≤ t1)) := by
  refine filterPy_ok (fun f hf => ?_)
  unfold inRange
  simp only [ht, dateField_eq (h f hf), bind, Except.bind, pure, Except.pure]
  by_cases h1 : t0 ≤ (day f).ordinal
  · simp [h1]
  · simp [h1]

theorem splitDash_ne_nil (a : List Char) : splitDash a ≠ [] := by
  intro hs
  cases a with
  | nil => simp [splitDash] at hs
  | cons d a =>
    unfold splitDash at hs
    split at hs
    · cases hs
    · split at hs <;> cases hs

theorem splitDash_cons (c : Char) (l : List Char) : splitDash (c :: l) = if c = '-' then [] :: splitDash l else
    match splitDash l with
    | [] => [[c]]
    | w :: ws => (c :: w) :: ws := by
  conv_lhs => unfold splitDash
  rfl

theorem splitDash_append (w : List Char) : ∀ a : List Char, splitDash (a ++ '-' :: w) = splitDash a ++ splitDash w
  | [] => by simp [splitDash_cons, splitDash]
  | c :: a => by
    have ih := splitDash_append w a
    rw [List.cons_append, splitDash_cons, splitDash_cons, ih]
    by_cases hc : c = '-'
    · simp [hc]
    · simp only [hc, if_false]
      rcases hs : splitDash a with _ | ⟨w', ws⟩
      · exact absurd hs (splitDash_ne_nil a)
      · rfl

theorem splitDash_plain : ∀ {w : List Char}, '-' ∉ w → splitDash w = [w]
  | [], _ => rfl
  | c :: w, h => by
    rw [List.mem_cons, not_or] at h
    unfold splitDash
    rw [if_neg (fun e => h.1 e.symm), splitDash_plain h.2]

theorem amsrDate_eq {file : List Char} {a : PyDate} (h : AmsrDated file a) : ∃ s, amsrDate file = .ok s ∧ dayOf s = .ok a.ordinal := by
  obtain ⟨pre, y, m, d, suf, rfl, h1, h2, h3, h4, h5⟩ := h
  have hym : '-' ∉ y ++ m := by
    obtain ⟨y', m', d', he, k1, k2, k3, k4, -⟩ := h4
    have hlen := congrArg List.length he
    simp only [List.length_append, List.length_cons, h1, h2, k1, k2, k3] at hlen
    have e1 := List.append_inj he (by simp [h1, h2, k1, k2])
    have e2 := List.append_inj e1.1 (by rw [h1, k1])
    rw [e2.1, (List.cons.inj e2.2).2]
    intro hm
    have := k4 '-' (List.mem_append_left _ hm)
    revert this; decide
  refine ⟨y ++ '-' :: m ++ '-' :: d, ?_, ?_⟩
  · unfold amsrDate
    rw [List.append_assoc, List.cons_append, splitDash_append, splitDash_append, splitDash_plain h3,
      splitDash_plain (w := y ++ m ++ d) (by simp only [List.mem_append, not_or] at hym ⊢; exact ⟨hym, h5⟩)]
    simp only [List.reverse_append, List.reverse_cons, List.reverse_nil, List.nil_append, List.cons_append]
    have e4 : (y ++ m ++ d).take 4 = y := by rw [List.append_assoc, ← h1, List.take_left]
    have e6 : (y ++ m ++ d).take 6 = y ++ m := by rw [show 6 = (y ++ m).length by simp [h1, h2], List.take_left]
    have e7 : (y ++ m ++ d).drop 6 = d := by rw [show 6 = (y ++ m).length by simp [h1, h2], List.drop_left]
    have e8 : (y ++ m).drop 4 = m := by rw [← h1, List.drop_left]
    rw [e4, e6, e7, e8]
  · unfold dayOf
    rw [strptime_iso h4]

/-- **C81**: the same for AMSR, where finding no file is an error of its own. -/
theorem C81_amsr {b : Boundary} {t0 t1 : ℤ} {rest : List ℤ} (ht : b.time = t0 :: t1 :: rest) {files : List (List Char)}
    {day : List Char → PyDate} (h : ∀ f ∈ files, AmsrDated f (day f)) :
    amsrFiles b files = (let fs := files.filter (fun f => t0 ≤ (day f).ordinal ∧ (day f).ordinal ≤ t1)
      if fs = [] then .error .fileNotFound else .ok fs) := by
  have : filterPy (amsrInRange b) files = .ok (files.filter (fun f => t0 ≤ (day f).ordinal ∧ (day f).ordinal ≤ t1)) := by
    refine filterPy_ok (fun f hf => ?_)
    obtain ⟨s, h1, h2⟩ := amsrDate_eq (h f hf)
    unfold amsrInRange
    simp only [ht, h1, h2, bind, Except.bind, pure, Except.pure]
    by_cases h1 : t0 ≤ (day f).ordinal
    · simp [h1]
    · simp [h1]
  unfold amsrFiles
  simp only [this, bind, Except.bind, pure, Except.pure]

/-- **C81**: which hemispheres are known. -/
theorem C81_hemisphere (h : Option String) :
    (∃ s, h = some s ∧ s.toLower = "north" ∧ amsrProj h = .ok "EPSG:3411") ∨
    (∃ s, h = some s ∧ s.toLower = "south" ∧ amsrProj h = .ok "EPSG:3412") ∨
    (∀ s, h = some s → s.toLower ≠ "north" ∧ s.toLower ≠ "south") ∧ ∃ e, amsrProj h = .error e := by
  unfold amsrProj
  cases h with
  | none => exact Or.inr (Or.inr ⟨fun s hs => by (cases hs), _, rfl⟩)
  | some s =>
    by_cases h1 : s.toLower = "north"
    · exact Or.inl ⟨s, rfl, h1, by simp [h1]⟩
    · by_cases h2 : s.toLower = "south"
      · exact Or.inr (Or.inl ⟨s, rfl, h2, by simp [h2]⟩)
      · refine Or.inr (Or.inr ⟨fun s' hs => ?_, .valueError, by simp [h1, h2]⟩)
        cases hs; exact ⟨h1, h2⟩

/-- **C81**: no file in range is an error, whatever the files hold. -/
theorem C81_none {b : Boundary} {t0 t1 : ℤ} {rest : List ℤ} (ht : b.time = t0 :: t1 :: rest) {files : List (List Char)}
    {day : List Char → PyDate} (h : ∀ f ∈ files, Dated f (day f)) (hout : ∀ f ∈ files, (day f).ordinal < t0 ∨ t1 < (day f).ordinal)
    (f : V → W) (read : List (List Char) → Py (Grid V)) :
    era5 f read files b = .error .osError ∧ era5Wind read files b = .error .osError ∧ duacs read files b = .error .osError := by
  have hf : filesInRange b files = .ok [] := by
    rw [C81_files ht h]
    congr 1
    rw [List.filter_eq_nil_iff]
    intro f hf
    have := hout f hf
    simp only [decide_eq_true_eq, not_and, not_le]
    intro h1
    omega
  unfold era5 era5Wind duacs openFiles
  simp only [hf, bind, Except.bind, if_true, and_self]

theorem filterPy_error {α : Type} {p : α → Py Bool} {e : Err} : ∀ {l : List α}, (∀ a ∈ l, p a = .error e ∨ ∃ k, p a = .ok k) →
    (∃ a ∈ l, p a = .error e) → filterPy p l = .error e
  | [], _, ⟨a, h, _⟩ => by cases h
  | a :: l, h, hex => by
    unfold filterPy
    rcases h a (List.mem_cons_self ..) with h1 | ⟨k, h1⟩
    · rw [h1]; rfl
    · have ih := filterPy_error (l := l) (fun c hc => h c (List.mem_cons_of_mem _ hc)) (by
        obtain ⟨c, hc, h2⟩ := hex
        rcases List.mem_cons.1 hc with rfl | hc
        · rw [h1] at h2; cases h2
        · exact ⟨c, hc, h2⟩)
      rw [h1, ih]; rfl

/-- **C81**: a name whose date field is no date stops the import with `ValueError`, even if other files would do. -/
theorem C81_bad_name {b : Boundary} {t0 t1 : ℤ} {rest : List ℤ} (ht : b.time = t0 :: t1 :: rest) {files : List (List Char)}
    (h : ∃ f ∈ files, TimeStr.strptime (dateField f) = none) (f : V → W) (read : List (List Char) → Py (Grid V)) :
    era5 f read files b = .error .valueError ∧ era5Wind read files b = .error .valueError ∧ duacs read files b = .error .valueError := by
  have hf : filesInRange b files = .error .valueError := by
    refine filterPy_error (fun f _ => ?_) ?_
    · unfold inRange dayOf
      rcases TimeStr.strptime (dateField f) with _ | d
      · left; simp only [ht, bind, Except.bind]
      · right
        simp only [ht, bind, Except.bind, pure, Except.pure]
        split <;> exact ⟨_, rfl⟩
    · obtain ⟨f, hf, h⟩ := h
      refine ⟨f, hf, ?_⟩
      unfold inRange dayOf
      simp only [ht, h, bind, Except.bind]
  unfold era5 era5Wind duacs
  simp only [hf, bind, Except.bind, and_self]

/-- **C81**: without a time range no dated file can be chosen. -/
theorem C81_no_time {b : Boundary} (ht : b.time = []) {files : List (List Char)} (hne : files ≠ []) (f : V → W)
    (read : List (List Char) → Py (Grid V)) :
    era5 f read files b = .error .indexError ∧ era5Wind read files b = .error .indexError ∧ duacs read files b = .error .indexError := by
  have hf : filesInRange b files = .error .indexError := by
    cases files with
    | nil => exact absurd rfl hne
    | cons a l =>
      unfold filesInRange filterPy inRange
      rw [ht]
      rfl
  unfold era5 era5Wind duacs
  simp only [hf, bind, Except.bind, and_self]

theorem filterPy_raises {α : Type} {p : α → Py Bool} : ∀ {l : List α}, (∃ a ∈ l, ∃ e, p a = .error e) → ∃ e, filterPy p l = .error e
  | [], ⟨a, h, _⟩ => by cases h
  | a :: l, hex => by
    unfold filterPy
    cases h1 : p a with
    | error e => exact ⟨e, rfl⟩
    | ok k =>
      obtain ⟨e, ih⟩ := filterPy_raises (l := l) (by
        obtain ⟨c, hc, e, h2⟩ := hex
        rcases List.mem_cons.1 hc with rfl | hc
        · rw [h1] at h2; cases h2
        · exact ⟨c, hc, e, h2⟩)
      exact ⟨e, by rw [ih]; rfl⟩

/-- **C81**: AMSR: a name without a date stops the import, even if other files would do, and so does a region without a time range. -/
theorem C81_amsr_errors {b : Boundary} {files : List (List Char)} :
    ((∃ f ∈ files, ∀ s, amsrDate f = .ok s → TimeStr.strptime s = none) → ∃ e, amsrFiles b files = .error e) ∧
    (b.time = [] → files ≠ [] → amsrFiles b files = .error .indexError) := by
  constructor
  · rintro ⟨f, hf, h⟩
    obtain ⟨e, he⟩ := filterPy_raises (p := amsrInRange b) (l := files) ⟨f, hf, by
      unfold amsrInRange
      cases h1 : amsrDate f with
      | error e => exact ⟨e, rfl⟩
      | ok s =>
        rcases ht : b.time with _ | ⟨t0, rest⟩
        · exact ⟨_, rfl⟩
        · refine ⟨.valueError, ?_⟩
          simp only [bind, Except.bind, dayOf, h s h1]⟩
    exact ⟨e, by unfold amsrFiles; rw [he]; rfl⟩
  · intro ht hne
    cases files with
    | nil => exact absurd rfl hne
    | cons f l =>
      have h1 : amsrInRange b f = .error .indexError := by
        unfold amsrInRange amsrDate
        rcases hs : (splitDash f).reverse with _ | ⟨w, _ | ⟨d, ws⟩⟩ <;> simp only [ht, bind, Except.bind]
      unfold amsrFiles filterPy
      rw [h1]
      rfl

example : (∃ e, amsrFiles ⟨-10, 10, -10, 10, [737430, 737440]⟩ ["asi-AMSR2-s6250-20170201-v5.4.nc".toList, "asi-AMSR2-s6250-2017-v5.4.nc".toList] = .error e) ∧
    amsrFiles ⟨-10, 10, -10, 10, []⟩ ["asi-AMSR2-s6250-20170201-v5.4.nc".toList] = .error .indexError :=
  ⟨C81_amsr_errors.1 ⟨"asi-AMSR2-s6250-2017-v5.4.nc".toList, by simp, fun s h => by
    have h1 : amsrDate "asi-AMSR2-s6250-2017-v5.4.nc".toList = .ok "2017--".toList := by decide +kernel
    rw [h1] at h
    cases h
    decide +kernel⟩, C81_amsr_errors.2 rfl (by simp)⟩

/-- A monthly file, as the examples use it: dated the first of January 2020, with values of every day. -/
def exFile : List Char := "data/era5_waves2020-01-01.nc".toList

theorem exFile_dated : Dated exFile ⟨2020, 1, 1⟩ := by
  refine ⟨"data/".toList, "era5_waves".toList, "2020-01-01".toList, ".nc".toList, by decide +kernel, by decide +kernel, by decide +kernel, ?_,
    by decide +kernel, by decide +kernel, Or.inr ⟨"data".toList, by decide +kernel⟩⟩
  refine ⟨"2020".toList, "01".toList, "01".toList, by decide +kernel, by decide +kernel, by decide +kernel, by decide +kernel, by decide +kernel,
    by decide +kernel, by decide +kernel⟩

/-- **C81** goes by the names alone, which does not do for monthly files (dated the first of the month): a region whose time begins later in the month finds nothing,
though the file holds data within region and time range. -/
theorem C81_month : ∃ (b : Boundary) (file : List Char) (a : PyDate) (read : List (List Char) → Py (Grid ℚ)) (g : Grid ℚ), Valid b ∧
    Dated file a ∧ a.d = 1 ∧ read [file] = .ok g ∧ (∃ r ∈ g.rows, Selected b g.times.isSome r ∧ a.ordinal ≤ r.time ∧ r.time < a.ordinal + 31) ∧
    era5 id read [file] b = .error .osError := by
  have ho : (⟨2020, 1, 1⟩ : PyDate).ordinal = 737425 := by decide +kernel
  refine ⟨⟨-10, 10, -10, 10, [737430, 737440]⟩, exFile, ⟨2020, 1, 1⟩, fun _ => .ok ⟨[0], [0], some [737425, 737435], fun _ _ _ => 3⟩, _,
    ⟨by norm_num, by norm_num, by norm_num, by norm_num, by norm_num, Or.inr ⟨_, _, rfl, by norm_num⟩⟩, exFile_dated, rfl, rfl, ⟨⟨0, 0, 737435, 3⟩, by decide +kernel, ⟨⟨⟨0, by norm_num, by norm_num [eastEdge]⟩, by norm_num⟩,
      fun _ => ⟨737430, 737440, [], rfl, by norm_num, by norm_num⟩⟩, by rw [ho]; norm_num⟩, ?_⟩
  exact (C81_none (t0 := 737430) (t1 := 737440) rfl (day := fun _ => ⟨2020, 1, 1⟩) (by simpa using exFile_dated)
    (by simp only [List.mem_singleton]; rintro f rfl; left; rw [ho]; norm_num) id _).1

/-! ## C82 -/

theorem fmod_range (x : ℝ) : 0 ≤ fmod x 360 ∧ fmod x 360 < 360 := by
  unfold fmod
  have h1 := Int.floor_le (x / 360)
  have h2 := Int.lt_floor_add_one (x / 360)
  constructor
  · have : (⌊x / 360⌋ : ℝ) * 360 ≤ x := by rw [← le_div_iff₀ (by norm_num)]; exact h1
    linarith
  · have : x < ((⌊x / 360⌋ : ℝ) + 1) * 360 := by rw [← div_lt_iff₀ (by norm_num)]; exact h2
    linarith

/-- **C82**: the wind direction is the angle in degrees, in `[0, 360)`, of the direction from which the wind blows, and the wind
magnitude is its speed: both together give the wind back. -/
theorem C82_wind (u v : ℝ) : 0 ≤ windDir u v ∧ windDir u v < 360 ∧ 0 ≤ windMag u v ∧
    windMag u v * Real.cos (windDir u v * (Real.pi / 180)) = -u ∧ windMag u v * Real.sin (windDir u v * (Real.pi / 180)) = -v := by
  have hr := fmod_range (180 + 180 / Real.pi * (Complex.mk u v).arg)
  have hpi := Real.pi_ne_zero
  refine ⟨hr.1, hr.2, Real.sqrt_nonneg _, ?_⟩
  have hang : windDir u v * (Real.pi / 180) = ((Complex.mk u v).arg + Real.pi) -
      (⌊(180 + 180 / Real.pi * (Complex.mk u v).arg) / 360⌋ : ℤ) * (2 * Real.pi) := by
    unfold windDir fmod
    field_simp
    ring
  have hmag : windMag u v = ‖Complex.mk u v‖ := by
    unfold windMag
    rw [Complex.norm_def, Complex.normSq_mk]
    congr 1
    ring
  rw [hang, Real.cos_sub_int_mul_two_pi, Real.sin_sub_int_mul_two_pi, Real.cos_add_pi, Real.sin_add_pi, hmag]
  have h1 := Complex.norm_mul_cos_arg (Complex.mk u v)
  have h2 := Complex.norm_mul_sin_arg (Complex.mk u v)
  constructor
  · rw [mul_neg, h1]
  · rw [mul_neg, h2]

/-- **C82**: waves from compass bearing `d` have a vector of unit length that points to the bearing opposite to it. -/
theorem C82_waves (d : ℝ) : (waveVector d).1 ^ 2 + (waveVector d).2 ^ 2 = 1 ∧
    (waveVector d).1 = Real.sin ((d + 180) * (Real.pi / 180)) ∧ (waveVector d).2 = Real.cos ((d + 180) * (Real.pi / 180)) := by
  have h : (d + 180) * (Real.pi / 180) = d * (Real.pi / 180) + Real.pi := by ring
  rw [h, Real.sin_add_pi, Real.cos_add_pi]
  unfold waveVector
  refine ⟨?_, by simp, by simp⟩
  have := Real.sin_sq_add_cos_sq (d * (Real.pi / 180))
  simp only [neg_one_mul, neg_sq]
  exact this

/-- C82: waves from the north move south, waves from the east move west. -/
example : waveVector 0 = (0, -1) ∧ waveVector 90 = (-1, 0) := by
  unfold waveVector
  constructor
  · simp
  · have h : (90 : ℝ) * (Real.pi / 180) = Real.pi / 2 := by ring
    simp [h]

/-- **C82**: currents of the Baltic are means over the times of the range that have a value, at the positions of the region.
(Partial: missing are files with longitudes beyond 180 or descending axes, as in C80.) -/
theorem C82_baltic_partial {b : Boundary} (hv : Valid b) (hb : b.longMin ≠ b.longMax) {read : List (List Char) → Py (Grid Vec)}
    {fs : List (List Char)} (hne : fs ≠ []) {g : Grid Vec} (hr : read fs = .ok g) {t0 t1 : ℤ} {rest : List ℤ} (ht : b.time = t0 :: t1 :: rest)
    {ts : List ℤ} (hts : g.times = some ts)
    (hl : g.lats.Pairwise (· ≤ ·)) (hx : g.longs.Pairwise (· ≤ ·)) (hx' : ∀ x ∈ g.longs, -180 < x ∧ x ≤ 180) :
    ∃ g', balticCurrent read fs b = .ok g' ∧ (Dataset.grid g').Sorted ∧ ∀ r, r ∈ g'.rows ↔ r.lat ∈ g.lats ∧ r.long ∈ g.longs ∧ r.time = 0 ∧
      HCovers b r.long r.lat ∧
      r.val = (listMean ((ts.filter (fun t => t0 ≤ t ∧ t ≤ t1)).filterMap (fun t => (g.val r.lat r.long t).1)),
               listMean ((ts.filter (fun t => t0 ≤ t ∧ t ≤ t1)).filterMap (fun t => (g.val r.lat r.long t).2))) := by
  have hlim : timeLimits b = .ok (t0, t1) := by unfold timeLimits; rw [ht]
  have htr := grid_trim (b := b) hl hx (fun _ => ⟨_, hlim⟩)
  have hok : (fun t => timeOk b t) = fun t => decide (t0 ≤ t ∧ t ≤ t1) := by
    funext t
    rw [Bool.eq_iff_iff, timeOk_iff, decide_eq_true_eq, ht]
    constructor
    · rintro ⟨a, c, l, e, h⟩
      simp only [List.cons.injEq] at e
      rw [e.1, e.2.1]; exact h
    · intro h; exact ⟨_, _, _, rfl, h⟩
  refine ⟨_, by unfold balticCurrent openFiles meanTime; simp only [if_neg hne, hr, htr, Grid.trimTo, hts, bind, Except.bind]; rfl,
    ⟨hl.filter _, hx.filter _⟩, fun r => ?_⟩
  rw [grid_mem_rows]
  simp only [List.mem_filter, decide_eq_true_eq, ← hok]
  have hmask : r.long ∈ g.longs → ((b.latMin < r.lat ∧ r.lat ≤ b.latMax) ∧ Grid.lmask b r.long = true ↔ HCovers b r.long r.lat) := by
    intro h
    rw [← grid_mask_iff hv hb r (hx' _ h)]
    unfold Grid.mask
    rw [Bool.and_eq_true, decide_eq_true_eq]
  constructor
  · rintro ⟨⟨h1, h2⟩, ⟨h3, h4⟩, h5, h6⟩
    exact ⟨h1, h3, h6, (hmask h3).1 ⟨h2, h4⟩, h5⟩
  · rintro ⟨h1, h3, h6, h7, h5⟩
    obtain ⟨h2, h4⟩ := (hmask h3).2 h7
    exact ⟨⟨h1, h2⟩, ⟨h3, h4⟩, h5, h6⟩

/-- **C82**: MODIS data is what the file has under a clear sky; under cloud there is no value.  No clear datapoint of the region is
lost.  (Partial, likewise.) -/
theorem C82_modis_partial {b : Boundary} (hv : Valid b) (hb : b.longMin ≠ b.longMax) {read : List (List Char) → Py (Grid (Option ℚ × Option ℚ))}
    {fs : List (List Char)} (hne : fs ≠ []) {g : Grid (Option ℚ × Option ℚ)} (hr : read fs = .ok g) (ht : g.times = none)
    (hl : g.lats.Pairwise (· ≤ ·)) (hx : g.longs.Pairwise (· ≤ ·)) (hx' : ∀ x ∈ g.longs, -180 < x ∧ x ≤ 180) :
    ∃ g', modis true read fs b = .ok g' ∧ (Dataset.grid g').Sorted ∧
      (∀ r ∈ g'.rows, HCovers b r.long r.lat ∧ ∃ r0 ∈ g.rows, r0.lat = r.lat ∧ r0.long = r.long ∧
        (r0.val.2 ≠ some 1 ∧ r.val = r0.val ∨ r0.val.2 = some 1 ∧ r.val = (none, none))) ∧
      ∀ r0 ∈ g.rows, HCovers b r0.long r0.lat → r0.val.2 ≠ some 1 → r0 ∈ g'.rows := by
  obtain ⟨g', t1, t2, t3⟩ := trim_masked (b := b) (g := clearSky g) (hl.filter _) (hx.filter _)
    (by intro h; simp [clearSky, ht] at h) (fun r hr => grid_mask_iff hv hb r (hx' _ (List.mem_filter.1 hr).1))
  refine ⟨g', ?_, t2, fun r hr => ?_, fun r0 h0 hc hcl => ?_⟩
  · unfold modis openFiles
    simp only [if_true, if_neg hne, hr, t1, bind, Except.bind]
  · obtain ⟨hr, hs, -⟩ := (t3 r).1 hr
    refine ⟨hs, ?_⟩
    obtain ⟨h1, h2, h3, h4⟩ := (grid_mem_rows _ _).1 hr
    have h4' : r.time = 0 := by simpa [clearSky, ht] using h4
    refine ⟨⟨r.lat, r.long, r.time, g.val r.lat r.long r.time⟩,
      (grid_mem_rows _ _).2 ⟨(List.mem_filter.1 h1).1, (List.mem_filter.1 h2).1, rfl, by rw [ht]; exact h4'⟩, rfl, rfl, ?_⟩
    by_cases hcl : (g.val r.lat r.long r.time).2 = some 1
    · right; exact ⟨hcl, by rw [h3]; simp [clearSky, hcl]⟩
    · left; exact ⟨hcl, by rw [h3]; simp [clearSky, hcl]⟩
  · rw [t3]
    refine ⟨?_, hc, by intro h; simp [clearSky, ht] at h⟩
    obtain ⟨h1, h2, h3, h4⟩ := (grid_mem_rows _ _).1 h0
    have h4' : r0.time = 0 := by simpa [ht] using h4
    rw [h3] at hcl
    rw [h4'] at hcl
    rw [grid_mem_rows]
    refine ⟨List.mem_filter.2 ⟨h1, ?_⟩, List.mem_filter.2 ⟨h2, ?_⟩, ?_, ?_⟩
    · rw [List.any_eq_true]
      exact ⟨_, h2, by simp [ht, hcl]⟩
    · rw [List.any_eq_true]
      exact ⟨_, h1, by simp [ht, hcl]⟩
    · rw [h3, h4']; simp [clearSky, hcl]
    · simp [clearSky, ht, h4']

/-- **C82**: a MODIS loader configured with a folder, which has no attribute `file`, always raises. -/
theorem C82_modis_folder_raises (read : List (List Char) → Py (Grid (Option ℚ × Option ℚ))) (fs : List (List Char)) (b : Boundary) :
    modis false read fs b = .error .attributeError := rfl

/-- **C82**: ice charts, one file of a known type, become percentages. -/
theorem C82_charts {kind : List Char → IcedFile} {read : List Char → Py (Grid (Option ℚ))} {f : List Char} {g : Grid (Option ℚ)}
    (hr : read f = .ok g) (hk : kind f ≠ .other) : ∃ g', visualIced kind read [f] = .ok (some g') ∧ g'.lats = g.lats ∧ g'.longs = g.longs ∧
      g'.times = g.times ∧ ∀ y x t, (g.val y x t = none → g'.val y x t = none) ∧ ∀ q, g.val y x t = some q → g'.val y x t = some (100 * q) := by
  refine ⟨mapVals (fun d => d.map (fun x => x * 100)) g, ?_, rfl, rfl, rfl, fun y x t => ⟨fun h => by simp [mapVals, h], fun q h => by simp [mapVals, h, mul_comm]⟩⟩
  unfold visualIced
  simp only [hr, bind, Except.bind, pure, Except.pure]

/-- **C82**: several charts, or none, are refused; a file of another type is silently no data. -/
theorem C82_charts_refused (kind : List Char → IcedFile) (read : List Char → Py (Grid (Option ℚ))) :
    (∀ fs, fs.length ≠ 1 → visualIced kind read fs = .error .valueError) ∧
    ∀ f g, read f = .ok g → kind f = .other → visualIced kind read [f] = .ok none := by
  constructor
  · intro fs h
    match fs, h with
    | [], _ => rfl
    | [_], h => exact absurd rfl h
    | _ :: _ :: _, _ => rfl
  · intro f g h1 h2
    unfold visualIced
    simp only [h1, h2, bind, Except.bind, pure, Except.pure]

/-- **C82**: the variables of MODIS data, ice and cloud, do not have the one data column that the scalar loader needs: choosing the
name of the data raises, whether a name is configured or not. -/
theorem C82_modis_name_raises (dataName : Option String) : LoaderInit.nameScalar dataName ⟨false, ["SIC", "cloud"]⟩ = .error .valueError := by
  cases dataName <;> rfl

/-! ## Examples -/

/-- ERA5 data on four meridians, named in `[0, 360)`, latitudes descending, two days. -/
def exEra : Grid (Option ℚ) := ⟨[10, 5, -5], [0, 90, 200, 350], some [737426, 737500], fun y x t => some (y + x + t)⟩

/-- A region over the antimeridian, in January 2020. -/
def exEraRegion : Boundary := ⟨-10, 6, 100, -5, [737420, 737450]⟩

theorem exEraRegion_valid : Valid exEraRegion :=
  ⟨by norm_num [exEraRegion], by norm_num [exEraRegion], by norm_num [exEraRegion], by norm_num [exEraRegion], by norm_num [exEraRegion],
    Or.inr ⟨_, _, rfl, by norm_num⟩⟩

theorem exEra_meridians : DistinctMeridians exEra.longs := by
  have hlt : ∀ a b : ℚ, wrapLong a ≠ wrapLong b → ¬ SameMeridian a b := fun a b h e => h (wrap_eq_iff.2 e)
  have hp : exEra.longs.Pairwise (fun a b => wrapLong a ≠ wrapLong b) := by decide +kernel
  exact hp.imp (fun {a b} h => hlt a b h)

theorem exFile_files : filesInRange exEraRegion [exFile] = .ok [exFile] := by
  have ho : (⟨2020, 1, 1⟩ : PyDate).ordinal = 737425 := by decide +kernel
  rw [C81_files (t0 := 737420) (t1 := 737450) (rest := []) rfl (day := fun _ => ⟨2020, 1, 1⟩) (by simpa using exFile_dated)]
  simp [ho]

/-- C80: four datapoints of the file, among them the one at 200 east, now 160 west; nothing of the later day. -/
example : ∃ g', era5 id (fun _ => .ok exEra) [exFile] exEraRegion = .ok ([exFile], g') ∧ (⟨5, -160, 737426, some 737631⟩ : Row (Option ℚ)) ∈ g'.rows ∧
    ∀ r ∈ g'.rows, r.time = 737426 ∧ r.lat ≤ 5 := by
  obtain ⟨g', h1, -, h3⟩ := C80_era5_partial (f := id) exEraRegion_valid (by norm_num [exEraRegion]) exFile_files (by simp)
    (read := fun _ => .ok exEra) rfl (by decide +kernel) exEra_meridians (Or.inr (by norm_num [exEraRegion]))
  refine ⟨g', h1, (h3 _).2 ⟨⟨5, 200, 737426, some 737631⟩, by decide +kernel, ⟨rfl, rfl, rfl, ⟨-1, by norm_num⟩, by norm_num, by norm_num⟩,
    ⟨⟨0, by norm_num [exEraRegion], by norm_num [exEraRegion, eastEdge]⟩, by norm_num [exEraRegion]⟩,
    fun _ => ⟨737420, 737450, [], rfl, by norm_num, by norm_num⟩⟩, fun r hr => ?_⟩
  obtain ⟨r0, h0, hren, hs1, hs2⟩ := (h3 r).1 hr
  obtain ⟨a, c, l, e, k1, k2⟩ := hs2 rfl
  obtain ⟨e1, e2⟩ : (737420 : ℤ) = a ∧ (737450 : ℤ) = c := by
    simp only [exEraRegion, List.cons.injEq] at e
    exact ⟨e.1, e.2.1⟩
  obtain ⟨m1, -, -, m4⟩ := (grid_mem_rows _ _).1 h0
  simp only [exEra, List.mem_cons, List.not_mem_nil, or_false] at m1 m4
  have hb := hs1.2.2
  simp only [exEraRegion] at hb
  rw [hren.2.1, hren.1]
  refine ⟨by omega, ?_⟩
  rcases m1 with h | h | h <;> rw [h] at hb ⊢ <;> first | (exfalso; norm_num at hb; done) | norm_num

/-- C80, the antimeridian: a file with a value there and a region that ends there; only the other meridian is imported. -/
example : (era5 id (fun _ => .ok (⟨[5, 0], [170, 180], some [737426], fun _ _ _ => 1⟩ : Grid ℚ)) [exFile]
    ⟨-10, 6, 100, 180, [737420, 737450]⟩).toOption.map (fun p => p.2.rows) = some [⟨0, 170, 737426, 1⟩, ⟨5, 170, 737426, 1⟩] ∧
    Valid ⟨-10, 6, 100, 180, [737420, 737450]⟩ :=
  ⟨by decide +kernel, ⟨by norm_num, by norm_num, by norm_num, by norm_num, by norm_num, Or.inr ⟨_, _, rfl, by norm_num⟩⟩⟩

/-- C80, ascending latitudes. -/
example : (era5 id (fun _ => .ok (⟨[0, 5], [150, 170], some [737426], fun _ _ _ => 1⟩ : Grid ℚ)) [exFile]
    ⟨-10, 6, 100, 180, [737420, 737450]⟩).toOption.map (fun p => p.2.rows) = some [] := by decide +kernel

/-- C80, BSOSE: depths below sea level become negative elevations. -/
example : ∃ g', bsoseDepth (fun _ => .ok ⟨[0, 5], [10, 200], none, fun _ _ _ => some 30⟩) [exFile] exEraRegion = .ok g' ∧
    (⟨5, -160, 0, some (-30)⟩ : Row (Option ℚ)) ∈ g'.rows := by
  have hp : ([10, 200] : List ℚ).Pairwise (fun a b => wrapLong a ≠ wrapLong b) := by decide +kernel
  obtain ⟨g', h1, -, h3⟩ := C80_bsoseDepth_partial exEraRegion_valid (by norm_num [exEraRegion]) (fs := [exFile]) (by simp)
    (read := fun _ => .ok ⟨[0, 5], [10, 200], none, fun _ _ _ => some 30⟩) rfl (by decide +kernel) (hp.imp (fun {a b} h e => h (wrap_eq_iff.2 e))) rfl
    (Or.inr (by norm_num [exEraRegion]))
  exact ⟨g', h1, (h3 _).2 ⟨⟨5, 200, 0, some 30⟩, by decide +kernel, ⟨rfl, rfl, rfl, ⟨-1, by norm_num⟩, by norm_num, by norm_num⟩,
    ⟨⟨0, by norm_num [exEraRegion], by norm_num [exEraRegion, eastEdge]⟩, by norm_num [exEraRegion]⟩⟩⟩

example : IceUnits none (fun x => 100 * x) ∧ IceUnits (some "fraction") id := ⟨Or.inl ⟨Or.inl rfl, fun _ => rfl⟩, Or.inr ⟨rfl, fun _ => rfl⟩⟩

/-- C80, SOSE. -/
example : ∃ t, sose (fun _ => .ok (⟨[0, 5], [10, 200], none, fun _ _ _ => some 3⟩ : Grid (Option ℚ))) [exFile] ⟨-10, 10, -170, -100, []⟩ = .ok t ∧
    t.rows = [⟨0, -160, 0, some 3⟩, ⟨5, -160, 0, some 3⟩] := ⟨_, rfl, by decide +kernel⟩

/-- C80, winds west of Greenwich: the file has the datapoint at 350 east, 10 west; nothing is imported.  East of it all is well. -/
example : (duacs (fun _ => .ok (⟨[-5, 5], [0, 90, 200, 350], some [737426], fun _ _ _ => 1⟩ : Grid ℚ)) [exFile]
      ⟨-10, 6, -20, -5, [737420, 737450]⟩).toOption.map (fun p => p.2.rows) = some [] ∧
    HCovers ⟨-10, 6, -20, -5, [737420, 737450]⟩ 350 5 ∧
    (era5Wind (fun _ => .ok (⟨[5, -5], [0, 90, 170], some [737426], fun _ _ _ => 1⟩ : Grid ℚ)) [exFile]
      ⟨-10, 6, 20, 100, [737420, 737450]⟩).toOption.map (fun p => p.2.rows) = some [⟨-5, 90, 737426, 1⟩, ⟨5, 90, 737426, 1⟩] :=
  ⟨by decide +kernel, ⟨⟨-1, by norm_num, by norm_num [eastEdge]⟩, by norm_num⟩, by decide +kernel⟩

/-- C80, text files. -/
example : (csv (fun f => .ok (⟨false, [⟨1, 2, 0, f.length⟩, ⟨50, 2, 0, 7⟩]⟩ : Table ℕ)) ["a".toList, "bc".toList] ⟨-10, 6, -20, 5, []⟩).toOption.map Table.rows =
    some [⟨1, 2, 0, 1⟩, ⟨1, 2, 0, 2⟩] := by decide +kernel

/-- C81: AMSR. -/
theorem exAmsr : AmsrDated "asi-AMSR2-s6250-20170201-v5.4.nc".toList ⟨2017, 2, 1⟩ := by
  refine ⟨"asi-AMSR2-s6250".toList, "2017".toList, "02".toList, "01".toList, "v5.4.nc".toList, by decide +kernel, by decide +kernel, by decide +kernel,
    by decide +kernel, ?_, by decide +kernel⟩
  refine ⟨"2017".toList, "02".toList, "01".toList, by decide +kernel, by decide +kernel, by decide +kernel, by decide +kernel, by decide +kernel,
    by decide +kernel, by decide +kernel⟩

example : amsrFiles ⟨-80, -40, -50, 50, [736361, 736362]⟩ ["asi-AMSR2-s6250-20170201-v5.4.nc".toList] = .ok ["asi-AMSR2-s6250-20170201-v5.4.nc".toList] := by
  have ho : (⟨2017, 2, 1⟩ : PyDate).ordinal = 736361 := by decide +kernel
  rw [C81_amsr (t0 := 736361) (t1 := 736362) (rest := []) rfl (day := fun _ => ⟨2017, 2, 1⟩) (by simpa using exAmsr)]
  simp [ho]

/-- C81: a name without a date. -/
example : TimeStr.strptime (dateField "data/era5_waves.nc".toList) = none := by decide +kernel

/-- C82: MODIS with one cloudy datapoint of four. -/
example : (modis true (fun _ => .ok ⟨[0, 5], [10, 20], none, fun y x _ => (some (x + y), if x = 20 ∧ y = 5 then some 1 else some 0)⟩) [exFile]
    ⟨-10, 10, 0, 50, []⟩).toOption.map Grid.rows = some [⟨0, 10, 0, (some 10, some 0)⟩, ⟨0, 20, 0, (some 20, some 0)⟩,
      ⟨5, 10, 0, (some 15, some 0)⟩, ⟨5, 20, 0, (none, none)⟩] := by decide +kernel

/-- C82: the Baltic, two days of three in range, one value missing. -/
example : (balticCurrent (fun _ => .ok ⟨[55], [10, 20], some [5, 6, 9], fun _ x t => (some t, if x = 20 ∧ t = 5 then none else some 4)⟩) [exFile]
    ⟨50, 60, 0, 50, [4, 7]⟩).toOption.map Grid.rows = some [⟨55, 10, 0, (some (11 / 2), some 4)⟩, ⟨55, 20, 0, (some (11 / 2), some 4)⟩] := by decide +kernel

end Verif
