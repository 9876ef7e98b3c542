import Mathlib.Tactic.Linarith
import Mathlib.Algebra.BigOperators.Group.List.Basic
import Verif.Model.LutInit
import Verif.Props.ErrorStats
import Verif.Props.Season

/-!
# C91: what `verify_data` makes of a look-up table
-/

namespace Verif
open Verif.LutInit Classical

/-- The polygons a geometry consists of. -/
def Spec.partsOf : LutInit.Shape → List Lut.Geom
  | .polygon g => [g]
  | .multi parts => parts
  | .other _ => []

/-- The geometry is a polygon or a multipolygon. -/
def Spec.Areal (s : LutInit.Shape) : Prop := (∃ g, s = .polygon g) ∨ ∃ parts, s = .multi parts

/-- How many rows have the label of the given row. -/
def Spec.sameLabel (rows : List TRow) (r : TRow) : ℕ := (rows.filter (fun r' => r'.label = r.label)).length

/-- A table can be verified: it has rows, all geometries are polygons or multipolygons, and a multipolygon has parts and is the only
row with its label. -/
def Spec.Verifiable (rows : List TRow) : Prop :=
  rows ≠ [] ∧ ∀ r ∈ rows, Spec.Areal r.shape ∧ ∀ parts, r.shape = .multi parts → parts ≠ [] ∧ Spec.sameLabel rows r = 1

theorem verifyRow_ok (rows : List TRow) (r : TRow)  : (∃ f, verifyRow rows r = .ok f) ↔
    Spec.Areal r.shape ∧ ∀ parts, r.shape = .multi parts → parts ≠ [] ∧ Spec.sameLabel rows r = 1 := by
  unfold verifyRow
  cases hs : r.shape with
  | polygon g => simp [Spec.Areal]
  | other p => simp [Spec.Areal]
  | multi parts =>
    by_cases hp : parts = []
    · simp [hp]
    · have hl : 0 < parts.length := List.length_pos_iff.2 hp
      have he : ((List.replicate parts.length (labelled rows r.label)).flatten).length = parts.length * Spec.sameLabel rows r := by
        simp [List.length_flatten, Spec.sameLabel, labelled]
      have hk : parts.length * Spec.sameLabel rows r = parts.length ↔ Spec.sameLabel rows r = 1 :=
        Nat.mul_eq_left (by omega)
      by_cases h : Spec.sameLabel rows r = 1
      · simp [hp, he, h, Spec.Areal]
      · simp [hp, he, hk, h]

theorem verifyRow_error (rows : List TRow) (r : TRow) (e : Err) (h : verifyRow rows r = .error e) : e = .valueError := by
  unfold verifyRow at h
  split at h
  · simp at h
  · split at h
    · simpa using h.symm
    · dsimp only at h
      split at h
      · simp at h
      · simpa using h.symm
  · simpa using h.symm

/-- The error of a `mapM` is one of the errors of its steps. -/
theorem mapM_error_source {α β : Type} {f : α → Py β} {l : List α} {e : Err} (h : l.mapM f = .error e) : ∃ a ∈ l, f a = .error e := by
  induction l with
  | nil => simp [pure, Except.pure] at h
  | cons a l ih =>
    rw [List.mapM_cons] at h
    cases hf : f a with
    | error e' =>
      rw [hf] at h
      simp only [bind, Except.bind, Except.error.injEq] at h
      exact ⟨a, List.mem_cons_self, h ▸ hf⟩
    | ok b =>
      rw [hf] at h
      cases hm : l.mapM f with
      | error e' =>
        rw [hm] at h
        simp only [bind, Except.bind, Except.error.injEq] at h
        obtain ⟨c, hc, he⟩ := ih (h ▸ hm)
        exact ⟨c, List.mem_cons_of_mem _ hc, he⟩
      | ok r =>
        rw [hm] at h
        simp [bind, Except.bind, pure, Except.pure] at h

theorem mapM_ok_exists {α β : Type} {f : α → Py β} {l : List α} : (∃ r, l.mapM f = .ok r) ↔ ∀ a ∈ l, ∃ b, f a = .ok b := by
  constructor
  · rintro ⟨r, h⟩ a ha
    have := mapM_ok_iff.1 h
    clear h
    induction this with
    | nil => simp at ha
    | cons h1 _ ih =>
      rcases List.mem_cons.1 ha with rfl | ha
      · exact ⟨_, h1⟩
      · exact ih ha
  · intro h
    cases hm : l.mapM f with
    | ok r => exact ⟨r, rfl⟩
    | error e =>
      obtain ⟨a, ha, he⟩ := mapM_error_source hm
      obtain ⟨b, hb⟩ := h a ha
      rw [hb] at he
      simp at he

theorem verify_ok_frames (t : LTable) (t' : LTable) : verify t = .ok t' ↔ ∃ frames, t.rows.mapM (verifyRow t.rows) = .ok frames ∧ frames ≠ [] ∧
    t' = ⟨false, t.columns, frames.flatten.mapIdx (fun i r => { r with label := i })⟩ := by
  unfold verify
  cases hm : t.rows.mapM (verifyRow t.rows) with
  | error e => simp [bind, Except.bind]
  | ok frames =>
    simp only [bind, Except.bind, pure, Except.pure]
    by_cases hf : frames = []
    · simp [hf]
    · simp [hf, eq_comm]

/-- **C91** A table is accepted exactly if it has rows, all its geometries are polygons or multipolygons, and every multipolygon has
parts and a label of its own; everything else raises `ValueError`. -/
theorem C91_accepted (t : LTable) :
    ((∃ t', verify t = .ok t') ↔ Spec.Verifiable t.rows) ∧ ∀ e, verify t = .error e → e = .valueError := by
  constructor
  · constructor
    · rintro ⟨t', h⟩
      obtain ⟨frames, hf, hne, -⟩ := (verify_ok_frames t t').1 h
      refine ⟨?_, fun r hr => (verifyRow_ok t.rows r).1 (mapM_ok_exists.1 ⟨frames, hf⟩ r hr)⟩
      intro h0
      rw [h0] at hf
      simp only [List.mapM_nil, pure, Except.pure, Except.ok.injEq] at hf
      exact hne hf.symm
    · rintro ⟨h0, h⟩
      obtain ⟨frames, hf⟩ := mapM_ok_exists.2 fun r hr => (verifyRow_ok t.rows r).2 (h r hr)
      refine ⟨_, (verify_ok_frames t _).2 ⟨frames, hf, ?_, rfl⟩⟩
      intro h1
      have := (mapM_ok_iff.1 hf).length_eq
      rw [h1] at this
      exact h0 (List.eq_nil_of_length_eq_zero (by simpa using this))
  · intro e h
    unfold verify at h
    cases hm : t.rows.mapM (verifyRow t.rows) with
    | error e' =>
      rw [hm] at h
      simp only [bind, Except.bind, Except.error.injEq] at h
      obtain ⟨r, -, hr⟩ := mapM_error_source hm
      exact verifyRow_error _ _ _ (h ▸ hr)
    | ok frames =>
      rw [hm] at h
      simp only [bind, Except.bind, pure, Except.pure] at h
      split at h <;> simp_all

/-- What is told of a row besides its label. -/
def Spec.content (r : TRow) : LutInit.Shape × LVal := (r.shape, r.value)

/-- The polygons of a row, each with the value of the row. -/
def Spec.pieces (r : TRow) : List (LutInit.Shape × LVal) := (Spec.partsOf r.shape).map (fun g => (.polygon g, r.value))

theorem mapIdx_content (l : List TRow) : (l.mapIdx (fun i r => { r with label := (i : ℤ) })).map Spec.content = l.map Spec.content := by
  apply List.ext_getElem
  · simp
  · intro i h1 h2
    simp [Spec.content]

theorem mapM_flatMap {α β γ : Type} {f : α → Py (List β)} {c : β → γ} {g : α → List γ} {l : List α} {fr : List (List β)}
    (h : l.mapM f = .ok fr) (hg : ∀ a ∈ l, ∀ b, f a = .ok b → b.map c = g a) : fr.flatten.map c = l.flatMap g := by
  have := mapM_ok_iff.1 h
  clear h
  induction this with
  | nil => rfl
  | cons h1 _ ih =>
    simp only [List.flatten_cons, List.map_append, List.flatMap_cons]
    rw [hg _ List.mem_cons_self _ h1, ih fun a ha => hg a (List.mem_cons_of_mem _ ha)]

theorem labelled_single (rows : List TRow) (r : TRow) (hr : r ∈ rows) (h : Spec.sameLabel rows r = 1) : labelled rows r.label = [r] := by
  unfold Spec.sameLabel at h
  obtain ⟨a, ha⟩ := List.length_eq_one_iff.1 h
  have : r ∈ rows.filter (fun r' => r'.label = r.label) := List.mem_filter.2 ⟨hr, by simp⟩
  rw [ha] at this
  unfold labelled
  rw [ha, List.mem_singleton.1 this]

theorem sameLabel_nodup (rows : List TRow) (hl : (rows.map (·.label)).Nodup) (r : TRow) (hr : r ∈ rows) : Spec.sameLabel rows r = 1 := by
  unfold Spec.sameLabel
  induction rows with
  | nil => simp at hr
  | cons a rows ih =>
    simp only [List.map_cons, List.nodup_cons, List.mem_map, not_exists, not_and] at hl
    rcases List.mem_cons.1 hr with rfl | hr
    · rw [List.filter_cons, if_pos (by simp), List.filter_eq_nil_iff.2]
      · rfl
      · intro r' hr'
        simpa using hl.1 r' hr'
    · rw [List.filter_cons, if_neg (by simpa using fun e => hl.1 r hr e.symm)]
      exact ih hl.2 hr

theorem verifyRow_pieces (rows : List TRow) (r : TRow) (hr : r ∈ rows) (h1 : Spec.sameLabel rows r = 1) (f : List TRow)
    (h : verifyRow rows r = .ok f) : f.map Spec.content = Spec.pieces r := by
  have hl := labelled_single rows r hr h1
  unfold verifyRow at h
  rw [hl] at h
  unfold Spec.pieces
  cases hs : r.shape with
  | polygon g =>
    rw [hs] at h
    simp only [Except.ok.injEq] at h
    subst h
    simp [Spec.content, Spec.partsOf, hs]
  | other p =>
    rw [hs] at h
    simp at h
  | multi parts =>
    rw [hs] at h
    dsimp only at h
    split at h
    · simp at h
    · split at h
      · simp only [Except.ok.injEq] at h
        subst h
        simp only [Spec.partsOf]
        clear * -
        induction parts with
        | nil => rfl
        | cons g parts ih =>
          simp only [List.length_cons, List.replicate_succ, List.flatten_cons, List.singleton_append, List.zipWith_cons_cons,
            List.map_cons, ih]
          rfl
      · simp at h

/-- **C91** If no two rows have the same label, the verified table has the polygons of all the rows, in their order, each
once and with the value of its row. -/
theorem C91_once (t t' : LTable) (hl : (t.rows.map (·.label)).Nodup) (h : verify t = .ok t') :
    t'.rows.map Spec.content = t.rows.flatMap Spec.pieces := by
  obtain ⟨frames, hf, -, rfl⟩ := (verify_ok_frames t t').1 h
  rw [mapIdx_content]
  exact mapM_flatMap hf fun r hr f hrf => verifyRow_pieces t.rows r hr (sameLabel_nodup _ hl r hr) f hrf

/-- **C91** If several rows have the same label (as the rows of one day have), each of them is repeated for each of them: the rows of
a label with `k` rows appear `k` times, and nothing else appears. -/
theorem C91_repeated (t t' : LTable) (h : verify t = .ok t') (hp : ∀ r ∈ t.rows, ∃ g, r.shape = .polygon g) :
    (∀ c, c ∈ t'.rows.map Spec.content ↔ c ∈ t.rows.map Spec.content) ∧
    t'.rows.length = (t.rows.map (Spec.sameLabel t.rows)).sum := by
  obtain ⟨frames, hf, -, rfl⟩ := (verify_ok_frames t t').1 h
  have hm : frames.flatten.map Spec.content = t.rows.flatMap (fun r => (labelled t.rows r.label).map Spec.content) := by
    refine mapM_flatMap hf fun r hr f hrf => ?_
    obtain ⟨g, hg⟩ := hp r hr
    unfold verifyRow at hrf
    rw [hg] at hrf
    simp only [Except.ok.injEq] at hrf
    rw [← hrf]
  constructor
  · intro c
    rw [mapIdx_content, hm]
    simp only [List.mem_flatMap, List.mem_map, labelled, List.mem_filter]
    constructor
    · rintro ⟨r, hr, r', ⟨hr', -⟩, rfl⟩
      exact ⟨r', hr', rfl⟩
    · rintro ⟨r, hr, rfl⟩
      exact ⟨r, hr, r, ⟨hr, by simp⟩, rfl⟩
  · have := congrArg List.length hm
    simp only [List.length_map] at this
    simp only [List.length_mapIdx, this, List.length_flatMap, List.length_map]
    rfl

/-- **C91** In every accepted table exactly the polygons of the rows are found, each with the value of its row. -/
theorem C91_polygons (t t' : LTable) (h : verify t = .ok t') (p : LutInit.Shape × LVal) :
    p ∈ t'.rows.map Spec.content ↔ ∃ r ∈ t.rows, p ∈ Spec.pieces r := by
  have hv := (C91_accepted t).1.1 ⟨t', h⟩
  obtain ⟨frames, hf, -, rfl⟩ := (verify_ok_frames t t').1 h
  rw [mapIdx_content]
  have hm : frames.flatten.map Spec.content = t.rows.flatMap (fun r => if Spec.sameLabel t.rows r = 1 then Spec.pieces r
      else (labelled t.rows r.label).map Spec.content) := by
    refine mapM_flatMap hf fun r hr f hrf => ?_
    by_cases h1 : Spec.sameLabel t.rows r = 1
    · rw [if_pos h1]
      exact verifyRow_pieces t.rows r hr h1 f hrf
    · rw [if_neg h1]
      unfold verifyRow at hrf
      rcases (hv.2 r hr).1 with ⟨g, hg⟩ | ⟨parts, hg⟩
      · rw [hg] at hrf
        simp only [Except.ok.injEq] at hrf
        rw [← hrf]
      · exact absurd ((hv.2 r hr).2 parts hg).2 h1
  rw [hm, List.mem_flatMap]
  have hpoly : ∀ r ∈ t.rows, Spec.sameLabel t.rows r ≠ 1 → Spec.pieces r = [Spec.content r] := by
    intro r hr h1
    rcases (hv.2 r hr).1 with ⟨g, hg⟩ | ⟨parts, hg⟩
    · simp [Spec.pieces, Spec.content, hg, Spec.partsOf]
    · exact absurd ((hv.2 r hr).2 parts hg).2 h1
  constructor
  · rintro ⟨r, hr, hp⟩
    split at hp
    · exact ⟨r, hr, hp⟩
    · rename_i h1
      obtain ⟨r', hr', rfl⟩ := List.mem_map.1 hp
      obtain ⟨hr', hl⟩ := List.mem_filter.1 hr'
      simp only [decide_eq_true_eq] at hl
      have h1' : Spec.sameLabel t.rows r' ≠ 1 := by
        unfold Spec.sameLabel at h1 ⊢
        rw [hl]
        exact h1
      exact ⟨r', hr', by rw [hpoly r' hr' h1']; exact List.mem_cons_self⟩
  · rintro ⟨r, hr, hp⟩
    refine ⟨r, hr, ?_⟩
    split
    · exact hp
    · rename_i h1
      rw [hpoly r hr h1, List.mem_singleton] at hp
      exact List.mem_map.2 ⟨r, List.mem_filter.2 ⟨hr, by simp⟩, hp.symm⟩

/-- **C91** Before a table is verified, its dates count: a request finds the rows of the days from the first to the last
asked for, both included, whose shape has a point in common with the cell, in their order, and no others. -/
theorem C91_days (t : LTable) (ht : t.timed = true) (cell : ℚ → ℚ → Prop) (time : ℤ × ℤ) :
    (trim cell time t).rows.Sublist t.rows ∧
    ∀ r, r ∈ (trim cell time t).rows ↔ r ∈ t.rows ∧ time.1 ≤ r.label ∧ r.label ≤ time.2 ∧ ∃ x y, r.shape.mem x y ∧ cell x y := by
  unfold trim
  simp only [ht, if_true]
  refine ⟨List.filter_sublist.trans List.filter_sublist, fun r => ?_⟩
  simp only [List.mem_filter, decide_eq_true_eq, and_assoc]
  rfl

/-- **C91** A verified table has lost its dates: later requests find the same rows whatever time range they ask for. -/
theorem C91_dates_lost (t t' : LTable) (h : verify t = .ok t') (cell : ℚ → ℚ → Prop) (time time' : ℤ × ℤ) :
    LutInit.trim cell time t' = LutInit.trim cell time' t' := by
  obtain ⟨frames, -, -, rfl⟩ := (verify_ok_frames t t').1 h
  rfl

/-- A polygon for examples. -/
def Spec.square (x : ℚ) : Lut.Geom := ⟨fun x' y' => x ≤ x' ∧ x' ≤ x + 1 ∧ 0 ≤ y' ∧ y' ≤ 1, fun _ _ => False⟩

/-- A table of two days with two polygons each. -/
def exDays : LTable := ⟨true, [some "geometry", some "density"],
  [⟨1, .polygon (Spec.square 0), .num (some 875)⟩, ⟨1, .polygon (Spec.square 1), .num (some 920)⟩,
   ⟨2, .polygon (Spec.square 0), .num (some 900)⟩, ⟨2, .polygon (Spec.square 1), .num (some 900)⟩]⟩

/-- Of the second day, a cell in the west finds the western polygon only. -/
example : (⟨2, .polygon (Spec.square 0), .num (some 900)⟩ : TRow) ∈ (trim (fun x y => x < 1 ∧ 0 ≤ y) (2, 2) exDays).rows ∧
    (⟨2, .polygon (Spec.square 1), .num (some 900)⟩ : TRow) ∉ (trim (fun x y => x < 1 ∧ 0 ≤ y) (2, 2) exDays).rows := by
  rw [(C91_days exDays rfl _ _).2, (C91_days exDays rfl _ _).2]
  constructor
  · exact ⟨by simp [exDays], by norm_num, by norm_num, 0, 0, by simp [LutInit.Shape.mem, Spec.square], by norm_num⟩
  · rintro ⟨-, -, -, x, y, hm, hx, -⟩
    simp only [LutInit.Shape.mem, Spec.square] at hm
    linarith [hm.1]

/-- A table with a multipolygon. -/
def exMulti : LTable := ⟨false, [some "geometry", some "zone"],
  [⟨0, .multi [Spec.square 0, Spec.square 5], .bool true⟩, ⟨1, .polygon (Spec.square 2), .bool false⟩]⟩

/-- Both tables are accepted; the four rows of the first become eight. -/
example : ∃ t', verify exDays = .ok t' ∧ t'.rows.length = 8 := by
  have hp : ∀ r ∈ exDays.rows, ∃ g, r.shape = .polygon g := by
    intro r hr
    simp only [exDays, List.mem_cons, List.not_mem_nil, or_false] at hr
    rcases hr with rfl | rfl | rfl | rfl <;> exact ⟨_, rfl⟩
  obtain ⟨t', h⟩ := (C91_accepted exDays).1.2 ⟨by simp [exDays], fun r hr => by
    obtain ⟨g, hg⟩ := hp r hr
    exact ⟨.inl ⟨g, hg⟩, fun parts he => by rw [hg] at he; simp at he⟩⟩
  refine ⟨t', h, ?_⟩
  rw [(C91_repeated exDays t' h hp).2]
  simp [exDays, Spec.sameLabel]

example : ∃ t', verify exMulti = .ok t' ∧ t'.rows.map Spec.content =
    [(.polygon (Spec.square 0), .bool true), (.polygon (Spec.square 5), .bool true), (.polygon (Spec.square 2), .bool false)] := by
  obtain ⟨t', h⟩ := (C91_accepted exMulti).1.2 ⟨by simp [exMulti], fun r hr => by
    simp only [exMulti, List.mem_cons, List.not_mem_nil, or_false] at hr
    rcases hr with rfl | rfl
    · exact ⟨.inr ⟨_, rfl⟩, fun parts he => by cases he; exact ⟨by simp, by simp [Spec.sameLabel, exMulti]⟩⟩
    · exact ⟨.inl ⟨_, rfl⟩, fun parts he => by simp at he⟩⟩
  exact ⟨t', h, by rw [C91_once exMulti t' (by simp [exMulti]) h]; rfl⟩

/-- With a second row of its label a multipolygon is refused. -/
example : verify ⟨true, [some "geometry", some "density"],
    [⟨1, .multi [Spec.square 0, Spec.square 5], .num (some 875)⟩, ⟨1, .polygon (Spec.square 2), .num (some 920)⟩]⟩ = .error .valueError := by
  cases h : verify ⟨true, [some "geometry", some "density"],
    [⟨1, .multi [Spec.square 0, Spec.square 5], .num (some 875)⟩, ⟨1, .polygon (Spec.square 2), .num (some 920)⟩]⟩ with
  | error e => rw [(C91_accepted _).2 e h]
  | ok t' =>
    obtain ⟨-, h2⟩ := (C91_accepted _).1.1 ⟨t', h⟩
    have := ((h2 _ List.mem_cons_self).2 _ rfl).2
    simp [Spec.sameLabel] at this

end Verif
