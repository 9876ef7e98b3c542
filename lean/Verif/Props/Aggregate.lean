import Verif.Props.SplitValues
import Mathlib.Data.List.Basic

/-!
# C31, C32, C33: filling missing values, sources sharing a name
-/

namespace Verif
open Spec

variable {S C : Type}

/-! ## Specification -/

/-- `v` is the first present value of the list, NaN if there is none. -/
def Spec.IsFirst (l : List (Option ℚ)) (v : Option ℚ) : Prop :=
  (∃ pre x post, l = pre ++ some x :: post ∧ (∀ y ∈ pre, y = none) ∧ v = some x) ∨ ((∀ y ∈ l, y = none) ∧ v = none)

theorem Spec.IsFirst.head {x : ℚ} {l : List (Option ℚ)} : IsFirst (some x :: l) (some x) := Or.inl ⟨[], x, l, rfl, by simp, rfl⟩

theorem Spec.IsFirst.skip {l : List (Option ℚ)} {v : Option ℚ} (h : IsFirst l v) : IsFirst (none :: l) v := by
  rcases h with ⟨pre, x, post, rfl, h2, h3⟩ | ⟨h1, h2⟩
  · exact Or.inl ⟨none :: pre, x, post, rfl, by simpa using h2, h3⟩
  · exact Or.inr ⟨by simpa using h1, h2⟩

theorem Spec.IsFirst.exists (l : List (Option ℚ)) : ∃ v, IsFirst l v := by
  induction l with
  | nil => exact ⟨none, Or.inr ⟨by simp, rfl⟩⟩
  | cons y l ih =>
    cases y with
    | some x => exact ⟨some x, .head⟩
    | none => obtain ⟨v, hv⟩ := ih; exact ⟨v, hv.skip⟩

theorem Spec.IsFirst.of_none {l : List (Option ℚ)} {v : Option ℚ} (h : IsFirst (none :: l) v) : IsFirst l v := by
  rcases h with ⟨pre, x, post, h1, h2, h3⟩ | ⟨h1, h2⟩
  · cases pre with
    | nil => cases h1
    | cons a pre =>
      simp only [List.cons_append, List.cons.injEq] at h1
      exact Or.inl ⟨pre, x, post, h1.2, fun y hy => h2 y (by simp [hy]), h3⟩
  · exact Or.inr ⟨fun y hy => h1 y (by simp [hy]), h2⟩

theorem Spec.IsFirst.of_some {x : ℚ} {l : List (Option ℚ)} {v : Option ℚ} (h : IsFirst (some x :: l) v) : v = some x := by
  rcases h with ⟨pre, y, post, h1, h2, h3⟩ | ⟨h1, h2⟩
  · cases pre with
    | nil => simp only [List.nil_append, List.cons.injEq, Option.some.injEq] at h1; rw [h3, h1.1]
    | cons a pre =>
      simp only [List.cons_append, List.cons.injEq] at h1
      have := h2 a (by simp)
      rw [← h1.1] at this; cases this
  · have := h1 (some x) (by simp); cases this

theorem Spec.IsFirst.unique {l : List (Option ℚ)} {v w : Option ℚ} (h : IsFirst l v) (h' : IsFirst l w) : v = w := by
  induction l with
  | nil =>
    rcases h with ⟨pre, x, post, h1, -⟩ | ⟨-, h2⟩
    · simp at h1
    · rcases h' with ⟨pre, x, post, h1, -⟩ | ⟨-, h2'⟩
      · simp at h1
      · rw [h2, h2']
  | cons y l ih =>
    cases y with
    | none => exact ih h.of_none h'.of_none
    | some x => rw [h.of_some, h'.of_some]

/-- The loader gives one number (or NaN) under its name, which has no comma: `val` is that number. -/
structure Spec.IsScalar (l : Loader S C) (val : Boundary → S → Py (Option ℚ)) : Prop where
  name : ',' ∉ l.dataName.toList
  value : ∀ b d v, val b d = .ok v → l.getValue b d = .ok [(l.dataName, .num v)]

/-- The first source of a cell that uses the loader, and the value it has there. -/
def Spec.ValueAt (l : Loader S C) (val : Boundary → S → Py (Option ℚ)) (a : Boundary × List (Source S C)) (v : Option ℚ) : Prop :=
  ∃ pre s post, a.2 = pre ++ s :: post ∧ s.loader.id = l.id ∧ (∀ s' ∈ pre, s'.loader.id ≠ l.id) ∧ val a.1 s.subset = .ok v

/-! ## Names -/

theorem splitChars_ne (l : List Char) : splitChars l ≠ [] := by
  cases l with
  | nil => simp [splitChars]
  | cons c cs =>
    unfold splitChars
    split
    · simp
    · split <;> simp

theorem splitChars_single {l : List Char} (h : ',' ∉ l) : splitChars l = [l] := by
  induction l with
  | nil => rfl
  | cons c cs ih =>
    have h1 : c ≠ ',' := fun e => h (by simp [e])
    have h2 : ',' ∉ cs := fun e => h (by simp [e])
    unfold splitChars
    rw [if_neg h1, ih h2]

theorem splitChars_many {l : List Char} (h : ',' ∈ l) : 1 < (splitChars l).length := by
  induction l with
  | nil => cases h
  | cons c cs ih =>
    unfold splitChars
    by_cases hc : c = ','
    · rw [if_pos hc]
      have := splitChars_ne cs
      have := List.length_pos_iff.2 this
      simp only [List.length_cons]; omega
    · rw [if_neg hc]
      have h2 : ',' ∈ cs := by
        rcases List.mem_cons.1 h with e | e
        · exact absurd e.symm hc
        · exact e
      have := ih h2
      split
      · rename_i e; rw [e] at this; simp at this
      · rename_i w ws e; rw [e] at this; simpa using this

theorem splitChars_no_comma (l : List Char) : ∀ w ∈ splitChars l, ',' ∉ w := by
  induction l with
  | nil => simp [splitChars]
  | cons c cs ih =>
    unfold splitChars
    by_cases hc : c = ','
    · rw [if_pos hc]; simpa using ih
    · rw [if_neg hc]
      split
      · intro w hw; simp only [List.mem_singleton] at hw; subst hw; simpa using fun e : ',' = c => hc e.symm
      · rename_i w ws e
        rw [e] at ih
        intro w' hw'
        rcases List.mem_cons.1 hw' with rfl | hw'
        · have := ih w (by simp)
          simp only [List.mem_cons, not_or]
          exact ⟨fun e => hc e.symm, this⟩
        · exact ih w' (by simp [hw'])

/-- Joining the parts with commas gives the string back: with `splitChars_no_comma` this says that
`splitChars` is `split(',')`. -/
theorem splitChars_join (l : List Char) : List.intercalate [','] (splitChars l) = l := by
  induction l with
  | nil => rfl
  | cons c cs ih =>
    have hne := splitChars_ne cs
    unfold splitChars
    by_cases hc : c = ','
    · rw [if_pos hc]
      cases hs : splitChars cs with
      | nil => exact absurd hs hne
      | cons w ws =>
        rw [hs] at ih
        rw [List.intercalate_cons_cons, ih, hc]; rfl
    · rw [if_neg hc]
      cases hs : splitChars cs with
      | nil => exact absurd hs hne
      | cons w ws =>
        rw [hs] at ih
        cases ws with
        | nil => simpa [List.intercalate] using ih
        | cons w' ws =>
          rw [List.intercalate_cons_cons] at ih ⊢
          rw [← ih]; rfl

theorem splitName_scalar {s : String} (h : ',' ∉ s.toList) : (splitName s).length = 1 := by
  unfold splitName; rw [splitChars_single h]; rfl

theorem splitName_vector {s : String} (h : ',' ∈ s.toList) : 1 < (splitName s).length := by
  unfold splitName; rw [List.length_map]; exact splitChars_many h

/-! ## C31 -/

theorem findSource_split (l : Loader S C) {pre post : List (Source S C)} {s : Source S C} (h1 : s.loader.id = l.id)
    (h2 : ∀ s' ∈ pre, s'.loader.id ≠ l.id) : findSource l (pre ++ s :: post) = .ok s := by
  induction pre with
  | nil => simp [findSource, h1]
  | cons a pre ih =>
    rw [List.cons_append, findSource, if_neg (h2 a (by simp))]
    exact ih (fun s' hs' => h2 s' (by simp [hs']))

theorem fillFromParents_ok {l : Loader S C} {val : Boundary → S → Py (Option ℚ)} (hl : IsScalar l val)
    {anc : List (Boundary × List (Source S C))} {vals : List (Option ℚ)} (h : List.Forall₂ (ValueAt l val) anc vals)
    (v : Option ℚ) {r : Option ℚ} (hr : IsFirst (v :: vals) r) :
    fillFromParents l l.dataName anc [(l.dataName, .num v)] = .ok [(l.dataName, .num r)] := by
  induction h generalizing v with
  | nil =>
    have : r = v := by
      cases v with
      | some x => exact hr.of_some
      | none => exact hr.of_none.unique (Or.inr ⟨by simp, rfl⟩)
    rw [this]; rfl
  | @cons a w anc vals ha hrest ih =>
    obtain ⟨ab, ad⟩ := a
    simp only [fillFromParents, Dict.get, Dict.get?, if_true, bind, Except.bind, pure, Except.pure, Val.isNan]
    cases v with
    | some x => rw [hr.of_some]; rfl
    | none =>
      obtain ⟨pre, s, post, h1, h2, h3, h4⟩ := ha
      simp only at h1 h4
      simp only [Option.isNone_none, if_true, h1, findSource_split l h2 h3, hl.value _ _ _ h4]
      exact ih w hr.of_none

/-- **C31**: the value of a scalar source in a cell.  With fill type 'parent' it is the first present value
among that of the cell and those of its ancestors, nearest first, hence NaN only if none has data; with a
constant, a present value is kept and a missing one is replaced by the constant. -/
theorem C31_fill {src : Source S C} {val : Boundary → S → Py (Option ℚ)} (hl : IsScalar src.loader val) {b : Boundary}
    {anc : List (Boundary × List (Source S C))} {v : Option ℚ} (hv : val b src.subset = .ok v) :
    (src.fill = .parent → ∀ vals, List.Forall₂ (ValueAt src.loader val) anc vals →
      ∃ r, IsFirst (v :: vals) r ∧ sourceValue b anc src = .ok [(src.loader.dataName, .num r)]) ∧
    (∀ x, src.fill = .const x → sourceValue b anc src = .ok [(src.loader.dataName, match v with | some q => .num (some q) | none => x)]) ∧
    (∀ q, v = some q → sourceValue b anc src = .ok [(src.loader.dataName, .num (some q))]) := by
  have hn := splitName_scalar hl.name
  have hsv : sourceValue b anc src = (if v.isNone then
      (match src.fill with
        | .parent => fillFromParents src.loader src.loader.dataName anc [(src.loader.dataName, .num v)]
        | .const x => .ok [(src.loader.dataName, x)])
      else .ok [(src.loader.dataName, .num v)]) := by
    unfold sourceValue
    rw [hl.value _ _ _ hv]
    simp only [hn, lt_irrefl, if_false, Dict.get, Dict.get?, if_true, bind, Except.bind, pure, Except.pure, Val.isNan, Dict.set]
    rfl
  refine ⟨?_, ?_, ?_⟩
  · intro hf vals hvals
    obtain ⟨r, hr⟩ := IsFirst.exists (v :: vals)
    refine ⟨r, hr, ?_⟩
    rw [hsv, hf]
    cases v with
    | none => simpa using fillFromParents_ok hl hvals none hr
    | some x => rw [hr.of_some]; rfl
  · intro x hf
    rw [hsv, hf]
    cases v <;> rfl
  · rintro q rfl
    rw [hsv]; rfl

theorem scalarLoader_isScalar (id : ℕ) {name : String} (hn : ',' ∉ name.toList) (agg : AggType) (minDp : ℕ) :
    IsScalar (scalarLoader id name agg minDp) (scalarValue agg) := by
  refine ⟨hn, ?_⟩
  intro b d v h
  show (scalarValue agg b d >>= fun v => pure [(name, Val.num v)]) = _
  rw [h]; rfl

/-- With loaders of different identity the source of an ancestor is the one at the same place. -/
theorem valueAt_trimSources {full : List (Source S C)} (hid : (full.map (fun s => s.loader.id)).Nodup) {s : Source S C}
    (hs : s ∈ full) {val : Boundary → S → Py (Option ℚ)} {b : Boundary} {v : Option ℚ}
    (hv : val b (s.loader.trim b s.subset) = .ok v) : ValueAt s.loader val (b, trimSources b full) v := by
  obtain ⟨pre, post, rfl⟩ := List.append_of_mem hs
  refine ⟨trimSources b pre, { s with subset := s.loader.trim b s.subset }, trimSources b post, ?_, rfl, ?_, hv⟩
  · simp [trimSources]
  · intro s' hs'
    obtain ⟨s0, h0, rfl⟩ := List.mem_map.1 hs'
    rw [List.map_append, List.map_cons, List.nodup_append] at hid
    exact hid.2.2 _ (List.mem_map.2 ⟨s0, h0, rfl⟩) _ (by simp)

/-- The kept subset of a cell has the same value as the full data. -/
theorem scalarValue_trim (agg : AggType) {d d' : Dataset (Option ℚ)} (hs : d.Sorted) {b : Boundary} (hr : TrimsRight d b)
    (h : d.trim b = .ok d') : scalarValue agg b d' = scalarValue agg b d := by
  unfold scalarValue
  rw [(C25_composes_partial d hs hr hr (.refl b) h).2, h]

/-- **C31** on meshes: in every mesh reached by any splits over a region that does not cross the
antimeridian, a scalar source with fill type 'parent' has in every live cell the first present value among
the value of its full data on the box of the cell and on the boxes of its ancestors, nearest first; these
boxes contain the cell. -/
theorem C31_mesh {b : Boundary} {W H : ℚ} {depth : ℕ} {full : List (Source (Dataset (Option ℚ)) Cond)}
    {m : MeshState (List (Source (Dataset (Option ℚ)) Cond))} (hp : ProperGrid b W H) (hcr : b.longMin < b.longMax)
    (hl : ∀ s ∈ full, TrimsDatapoints s.loader ∧ s.subset.Sorted ∧ ∃ d', s.subset.trim b = .ok d')
    (hid : (full.map (fun s => s.loader.id)).Nodup)
    (h : Reach (sourceOps (Dataset (Option ℚ)) Cond) b W H (fun q => trimSources q full) depth m) {i : ℕ}
    {c : CellBox (List (Source (Dataset (Option ℚ)) Cond))} (hc : Live m i c)
    {id : ℕ} {name : String} {agg : AggType} {minDp : ℕ} {conds : List Cond} {data : Dataset (Option ℚ)} (hn : ',' ∉ name.toList)
    (hagg : agg ∈ [AggType.min, .max, .mean, .median, .std, .count])
    (hs : ⟨scalarLoader id name agg minDp, conds, .parent, data⟩ ∈ full) :
    ∃ s ∈ c.data, s.loader = scalarLoader id name agg minDp ∧ ∃ vals r,
      (c.bounds :: c.anc.map Prod.fst).map (fun q => scalarValue agg q data) = vals.map Except.ok ∧ IsFirst vals r ∧
      sourceValue c.bounds c.anc s = .ok [(name, .num r)] ∧ ∀ a ∈ c.anc, Within c.bounds a.1 := by
  obtain ⟨e1, e2, -⟩ := C25_cached_partial hp hcr hl h hc
  have hist := (reach_history_noncrossing hp hcr h hc).1
  obtain ⟨hb, hanc⟩ := hist.all
  obtain ⟨h1, h2, d', hd'⟩ := hl _ hs
  simp only at h2 hd'
  -- the value of the full data on a box of the history
  have hval : ∀ q, Within q b → ProperBox q → q.longMin < q.longMax → ∃ v, scalarValue agg q data = .ok v ∧
      scalarValue agg q ((scalarLoader id name agg minDp).trim q data) = .ok v := by
    intro q hw hq hcq
    have ht : data.hasTime = true → ∃ p, timeLimits q = .ok p := by rw [timeLimits_congr hw.2]; exact trim_time hd'
    have hok := trim_eq h2 ht
    have hr : TrimsRight data q := ⟨hq, by cases data with | table t => exact hcq | grid g => exact Or.inl hcq⟩
    have e := scalarValue_trim agg h2 hr hok
    have hex : ∃ v, scalarValue agg q data = .ok v := by
      rw [scalarValue_eq agg h2 ht]
      by_cases hc : agg = .count
      · subst hc
        cases hg : data.isGrid
        · exact ⟨_, (C29_count _).1⟩
        · exact ⟨_, (C29_count _).2⟩
      · by_cases hst : agg = .std
        · subst hst
          rw [valueOf_eq, if_neg (by simp)]
          split
          · exact ⟨_, rfl⟩
          · cases data.isGrid <;> exact ⟨_, rfl⟩
        · obtain ⟨r, hr, -⟩ := (C29_values data.isGrid ((pointsIn data q).map Row.val)).1 agg (by
            simp only [List.mem_cons, List.not_mem_nil, or_false] at hagg ⊢
            tauto)
          exact ⟨r, hr⟩
    obtain ⟨v, hv⟩ := hex
    exact ⟨v, hv, by rw [h1 q _ _ hok, e, hv]⟩
  have hval' : ∀ a ∈ c.anc, ∃ v, scalarValue agg a.1 data = .ok v ∧ ValueAt (scalarLoader id name agg minDp) (scalarValue agg) a v := by
    intro a ha
    obtain ⟨⟨q1, q2, q3⟩, -⟩ := hanc a ha
    obtain ⟨v, hv, hv'⟩ := hval a.1 q2 q1 q3
    refine ⟨v, hv, ?_⟩
    have e := e2 a ha
    obtain ⟨ab, ad⟩ := a
    simp only at e
    subst e
    exact valueAt_trimSources hid hs hv'
  have hall : ∀ anc : List (Boundary × List (Source (Dataset (Option ℚ)) Cond)), (∀ a ∈ anc, ∃ v, scalarValue agg a.1 data = .ok v ∧
      ValueAt (scalarLoader id name agg minDp) (scalarValue agg) a v) → ∃ vals,
      anc.map (fun a => scalarValue agg a.1 data) = vals.map Except.ok ∧
      List.Forall₂ (ValueAt (scalarLoader id name agg minDp) (scalarValue agg)) anc vals := by
    intro anc hanc
    induction anc with
    | nil => exact ⟨[], rfl, .nil⟩
    | cons a anc ih =>
      obtain ⟨vals, i1, i2⟩ := ih (fun a ha => hanc a (by simp [ha]))
      obtain ⟨v, v1, v2⟩ := hanc a (by simp)
      exact ⟨v :: vals, by simp [v1, i1], .cons v2 i2⟩
  obtain ⟨vals, hv1, hv2⟩ := hall c.anc hval'
  obtain ⟨v, w1, w2⟩ := hval c.bounds hb.2.1 hb.1 hb.2.2
  have hmem : (⟨scalarLoader id name agg minDp, conds, .parent, (scalarLoader id name agg minDp).trim c.bounds data⟩ :
      Source (Dataset (Option ℚ)) Cond) ∈ c.data := by
    rw [e1]
    exact List.mem_map.2 ⟨_, hs, rfl⟩
  obtain ⟨r, hr1, hr2⟩ := (C31_fill (scalarLoader_isScalar id hn agg minDp) (anc := c.anc) (src := ⟨scalarLoader id name agg minDp, conds, .parent,
    (scalarLoader id name agg minDp).trim c.bounds data⟩) w2).1 rfl vals hv2
  refine ⟨_, hmem, rfl, v :: vals, r, ?_, hr1, hr2, fun a ha => (hanc a ha).2⟩
  rw [List.map_cons, w1, List.map_map]
  simp only [List.map_cons, List.cons.injEq, true_and]
  exact hv1

/-- A source without data in the cells around the corner, filled from ancestors. -/
example : ∃ (m : MeshState (List (Source (Dataset (Option ℚ)) Cond))) (c : CellBox (List (Source (Dataset (Option ℚ)) Cond))),
    Reach (sourceOps (Dataset (Option ℚ)) Cond) exRegion 10 5 (fun q => trimSources q exSources) 3 m ∧ Live m 5 c ∧
    c.anc.length = 1 ∧ ∃ s ∈ c.data, ∃ r, sourceValue c.bounds c.anc s = .ok [("a", .num r)] := by
  obtain ⟨m, hm, c, hc, ha⟩ := exSources_mesh
  obtain ⟨s, hs, -, vals, r, -, -, hr, -⟩ := C31_mesh exRegion_proper (by norm_num [exRegion]) (by
    intro s hs
    simp only [exSources, List.mem_cons, List.not_mem_nil, or_false] at hs
    rcases hs with rfl | rfl
    · exact ⟨scalarLoader_trims _ _ _ _, trivial, _, trim_eq (d := exTable) trivial (by intro h; cases h)⟩
    · exact ⟨scalarLoader_trims _ _ _ _, exGrid_sorted, _, trim_eq exGrid_sorted (by intro h; cases h)⟩) (by decide +kernel) hm hc
    (id := 0) (name := "a") (agg := .mean) (minDp := 5) (conds := [⟨1, 0, 1, false⟩]) (data := exTable) (by decide +kernel) (by decide)
    (by simp [exSources])
  exact ⟨m, c, hm, hc, ha, s, hs, r, hr⟩

/-! ## C32 -/

theorem get?_update_single (d : Dict String Val) (n k : String) (v : Val) :
    (d.update [(n, v)]).get? k = if n = k then some v else d.get? k := Dict.get?_set _ _ _ _

/-- **C32**: if every source of a cell has (after filling) one number or NaN under its name, then the cell
gets under each name the first present value of the sources of that name, in source order; NaN if none of
them has one, and nothing under other names.  (Partial: missing are fill types given as texts, for which it is false,
`C32_string_fill_raises`.) -/
theorem C32_first_present_partial {c : CellBox (List (Source S C))} {w : Source S C → Option ℚ}
    (hw : ∀ s ∈ c.data, sourceValue c.bounds c.anc s = .ok [(s.loader.dataName, .num (w s))]) :
    ∃ agg, aggregate c = .ok agg ∧ ∀ n,
      ((∀ s ∈ c.data, s.loader.dataName ≠ n) → agg.get? n = none) ∧
      ((∃ s ∈ c.data, s.loader.dataName = n) → ∃ v, agg.get? n = some (.num v) ∧
        IsFirst ((c.data.filter (fun s => s.loader.dataName = n)).map w) v) := by
  have key : ∀ (l : List (Source S C)) (acc : Dict String Val) (seen : String → Option (List (Option ℚ))),
      (∀ s ∈ l, sourceValue c.bounds c.anc s = .ok [(s.loader.dataName, .num (w s))]) →
      (∀ n, match seen n with | none => acc.get? n = none | some vs => ∃ v, acc.get? n = some (.num v) ∧ IsFirst vs v) →
      ∃ agg, l.foldlM (aggregateStep c.bounds c.anc) acc = .ok agg ∧ ∀ n,
        ((∀ s ∈ l, s.loader.dataName ≠ n) → match seen n with
          | none => agg.get? n = none
          | some vs => ∃ v, agg.get? n = some (.num v) ∧ IsFirst vs v) ∧
        ((∃ s ∈ l, s.loader.dataName = n) → ∃ v, agg.get? n = some (.num v) ∧
          IsFirst ((seen n).getD [] ++ (l.filter (fun s => s.loader.dataName = n)).map w) v) := by
    intro l
    induction l with
    | nil =>
      intro acc seen _ hacc
      exact ⟨acc, rfl, fun n => ⟨fun _ => hacc n, by simp⟩⟩
    | cons s l ih =>
      intro acc seen hl hacc
      have hs := hl s (by simp)
      have hstep : ∃ acc', aggregateStep c.bounds c.anc acc s = .ok acc' ∧
          (∀ n, n ≠ s.loader.dataName → acc'.get? n = acc.get? n) ∧
          ∃ v, acc'.get? s.loader.dataName = some (.num v) ∧ IsFirst ((seen s.loader.dataName).getD [] ++ [w s]) v := by
        unfold aggregateStep
        rw [hs]
        have h0 := hacc s.loader.dataName
        cases hseen : seen s.loader.dataName with
        | none =>
          rw [hseen] at h0
          simp only [bind, Except.bind, h0, pure, Except.pure]
          refine ⟨_, rfl, ?_, w s, ?_, ?_⟩
          · intro n hn; rw [get?_update_single, if_neg (fun e => hn e.symm)]
          · rw [get?_update_single, if_pos rfl]
          · cases w s with
            | some x => exact .head
            | none => exact Or.inr ⟨by simp, rfl⟩
        | some vs =>
          rw [hseen] at h0
          obtain ⟨v, hv1, hv2⟩ := h0
          cases v with
          | some x =>
            simp only [bind, Except.bind, hv1, pure, Except.pure, Val.isNan, Option.isNone_some, Bool.false_eq_true, if_false]
            refine ⟨_, rfl, fun _ _ => rfl, some x, hv1, ?_⟩
            rcases hv2 with ⟨pre, y, post, e1, e2, e3⟩ | ⟨-, e⟩
            · exact Or.inl ⟨pre, y, post ++ [w s], by simp [e1], e2, e3⟩
            · cases e
          | none =>
            simp only [bind, Except.bind, hv1, pure, Except.pure, Val.isNan, Option.isNone_none, if_true]
            refine ⟨_, rfl, ?_, w s, ?_, ?_⟩
            · intro n hn; rw [get?_update_single, if_neg (fun e => hn e.symm)]
            · rw [get?_update_single, if_pos rfl]
            · have hnone : ∀ y ∈ vs, y = none := by
                rcases hv2 with ⟨pre, y, post, e1, e2, e3⟩ | ⟨e, -⟩
                · cases e3
                · exact e
              cases hws : w s with
              | some x => exact Or.inl ⟨vs, x, [], rfl, hnone, rfl⟩
              | none =>
                refine Or.inr ⟨?_, rfl⟩
                intro y hy
                rcases List.mem_append.1 hy with hy | hy
                · exact hnone y hy
                · simpa using hy
      obtain ⟨acc', h1, h2, v0, h3, h4⟩ := hstep
      obtain ⟨agg, g1, g2⟩ := ih acc' (fun n => if n = s.loader.dataName then some ((seen n).getD [] ++ [w s]) else seen n)
        (fun s' hs' => hl s' (by simp [hs'])) (by
          intro n
          by_cases hn : n = s.loader.dataName
          · subst hn; simp only [if_true]; exact ⟨v0, h3, h4⟩
          · simp only [hn, if_false]; rw [h2 n hn]; exact hacc n)
      refine ⟨agg, ?_, ?_⟩
      · rw [List.foldlM_cons, h1]; exact g1
      · intro n
        obtain ⟨k1, k2⟩ := g2 n
        by_cases hn : n = s.loader.dataName
        · subst hn
          simp only [if_true] at k1 k2
          refine ⟨fun h => absurd rfl (h s (by simp)), fun _ => ?_⟩
          by_cases hex : ∃ s' ∈ l, s'.loader.dataName = s.loader.dataName
          · obtain ⟨v, e1, e2⟩ := k2 hex
            refine ⟨v, e1, ?_⟩
            simpa using e2
          · push Not at hex
            obtain ⟨v, e1, e2⟩ := k1 hex
            refine ⟨v, e1, ?_⟩
            have : l.filter (fun s' => s'.loader.dataName = s.loader.dataName) = [] := by
              rw [List.filter_eq_nil_iff]; intro s' hs'; simpa using hex s' hs'
            simpa [this] using e2
        · simp only [hn, if_false] at k1 k2
          have hn' : ¬ s.loader.dataName = n := fun e => hn e.symm
          refine ⟨fun h => k1 (fun s' hs' => h s' (by simp [hs'])), ?_⟩
          rintro ⟨s', hs', e⟩
          rcases List.mem_cons.1 hs' with rfl | hs'
          · exact absurd e hn'
          · obtain ⟨v, e1, e2⟩ := k2 ⟨s', hs', e⟩
            refine ⟨v, e1, ?_⟩
            simpa [hn'] using e2
  obtain ⟨agg, h1, h2⟩ := key c.data [] (fun _ => none) hw (fun n => rfl)
  refine ⟨agg, h1, fun n => ⟨(h2 n).1, fun hex => ?_⟩⟩
  obtain ⟨v, e1, e2⟩ := (h2 n).2 hex
  exact ⟨v, e1, by simpa using e2⟩

/-- Two sources of one name, the first without data in the cell and filled by nothing (no ancestors). -/
def exShared : CellBox (List (Source (Dataset (Option ℚ)) Cond)) :=
  ⟨⟨0, 10, 0, 10, []⟩, 7, 0,
    [⟨scalarLoader 0 "a" .mean 5, [], .parent, .table ⟨false, [⟨50, 5, 0, some 9⟩]⟩⟩,
     ⟨scalarLoader 1 "a" .mean 5, [], .parent, .table ⟨false, [⟨5, 5, 0, some 3⟩]⟩⟩,
     ⟨scalarLoader 2 "a" .mean 5, [], .parent, .table ⟨false, [⟨5, 5, 0, some 4⟩]⟩⟩], []⟩

example : (∀ s ∈ exShared.data, ∃ w, sourceValue exShared.bounds exShared.anc s = .ok [(s.loader.dataName, .num w)]) ∧
    (aggregate exShared : Py (Dict String Val)) = .ok [("a", .num (some 3))] := by
  constructor
  · intro s hs
    simp only [exShared, List.mem_cons, List.not_mem_nil, or_false] at hs
    rcases hs with rfl | rfl | rfl
    · exact ⟨none, by decide +kernel⟩
    · exact ⟨some 3, by decide +kernel⟩
    · exact ⟨some 4, by decide +kernel⟩
  · decide +kernel

/-- A fill type given as a string that is not 'parent' ('Nan', or a number in quotes, both accepted by the
configuration check) is stored as a string; a later source of the same name then raises `TypeError`, even if
it has data. -/
theorem C32_string_fill_raises (floatStr : String → Bool) (t : String) (ht : t = "Nan" ∨ floatStr t = true ∧ t ≠ "parent")
    {b : Boundary} {anc : List (Boundary × List (Source S C))} {s1 s2 : Source S C} {rest : List (Source S C)}
    {val1 val2 : Boundary → S → Py (Option ℚ)} (h1 : IsScalar s1.loader val1) (h2 : IsScalar s2.loader val2)
    (hn : s2.loader.dataName = s1.loader.dataName) (v1 : val1 b s1.subset = .ok none) {x : ℚ} (v2 : val2 b s2.subset = .ok (some x))
    (hf : checkValueFillType floatStr (.str t) = .ok s1.fill) (id depth : ℕ) :
    aggregate ⟨b, id, depth, s1 :: s2 :: rest, anc⟩ = .error .typeError := by
  have e1 : s1.fill = .const (.str t) := by
    unfold checkValueFillType at hf
    have hne : t ≠ "parent" := by
      rcases ht with rfl | h
      · decide
      · exact h.2
    have hc : floatStr t = true ∨ t = "parent" ∨ t = "Nan" := by
      rcases ht with rfl | h
      · exact Or.inr (Or.inr rfl)
      · exact Or.inl h.1
    simp only [if_pos hc, if_neg hne] at hf
    injection hf with hf
    exact hf.symm
  have w1 := (C31_fill h1 (anc := anc) v1).2.1 _ e1
  have w2 := (C31_fill h2 (anc := anc) v2).2.2 x rfl
  show List.foldlM (aggregateStep b anc) [] (s1 :: s2 :: rest) = _
  rw [List.foldlM_cons]
  have a1 : aggregateStep b anc [] s1 = .ok [(s1.loader.dataName, .str t)] := by
    unfold aggregateStep; rw [w1]; rfl
  have a2 : aggregateStep b anc [(s1.loader.dataName, .str t)] s2 = .error .typeError := by
    unfold aggregateStep
    rw [w2, hn]
    simp only [Dict.get?, if_true, bind, Except.bind, Val.isNan]
  simp only [a1, bind, Except.bind, List.foldlM_cons, a2]

/-- A source without data filled with 'Nan', and one with data. -/
def exStringFill : List (Source (Dataset (Option ℚ)) Cond) :=
  [⟨scalarLoader 0 "a" .mean 5, [], .const (.str "Nan"), .table ⟨false, []⟩⟩,
   ⟨scalarLoader 1 "a" .mean 5, [], .parent, .table ⟨false, [⟨5, 5, 0, some 3⟩]⟩⟩]

example : (aggregate ⟨⟨0, 10, 0, 10, []⟩, 7, 0, exStringFill, []⟩ : Py _) = .error .typeError := by
  have h1 : IsScalar (scalarLoader 0 "a" .mean 5) (scalarValue .mean) := scalarLoader_isScalar 0 (by decide +kernel) .mean 5
  have h2 : IsScalar (scalarLoader 1 "a" .mean 5) (scalarValue .mean) := scalarLoader_isScalar 1 (by decide +kernel) .mean 5
  have v1 : (scalarValue .mean ⟨0, 10, 0, 10, []⟩ (.table ⟨false, []⟩) : Py (Option ℚ)) = .ok none := by decide +kernel
  have v2 : (scalarValue .mean ⟨0, 10, 0, 10, []⟩ (.table ⟨false, [⟨5, 5, 0, some 3⟩]⟩) : Py (Option ℚ)) = .ok (some 3) := by
    decide +kernel
  exact C32_string_fill_raises (fun _ => false) "Nan" (Or.inl rfl)
    (s1 := ⟨scalarLoader 0 "a" .mean 5, [], .const (.str "Nan"), .table ⟨false, []⟩⟩)
    (s2 := ⟨scalarLoader 1 "a" .mean 5, [], .parent, .table ⟨false, [⟨5, 5, 0, some 3⟩]⟩⟩) h1 h2 rfl v1 v2 rfl 7 0

/-! ## C33 -/

/-- The loader gives a number (or NaN) for each of the comma separated names in its name, and nothing else. -/
structure Spec.IsVector (l : Loader S C) (names : List String) (val : Boundary → S → Py (String → Option ℚ)) : Prop where
  comma : ',' ∈ l.dataName.toList
  split : splitName l.dataName = names
  value : ∀ b d f, val b d = .ok f → ∃ D, l.getValue b d = .ok D ∧ (∀ n ∈ names, D.get? n = some (.num (f n))) ∧
    ∀ n, n ∉ names → D.get? n = none

/-- The values of the components at an ancestor. -/
def Spec.VectorAt (l : Loader S C) (val : Boundary → S → Py (String → Option ℚ)) (a : Boundary × List (Source S C))
    (f : String → Option ℚ) : Prop :=
  ∃ pre s post, a.2 = pre ++ s :: post ∧ s.loader.id = l.id ∧ (∀ s' ∈ pre, s'.loader.id ≠ l.id) ∧ val a.1 s.subset = .ok f

theorem name_not_component {l : Loader S C} {names : List String} {val : Boundary → S → Py (String → Option ℚ)}
    (hl : IsVector l names val) : l.dataName ∉ names := by
  intro h
  rw [← hl.split] at h
  unfold splitName at h
  obtain ⟨w, hw, e⟩ := List.mem_map.1 h
  have := splitChars_no_comma _ w hw
  apply this
  have hc := hl.comma
  rw [← e] at hc
  simpa using hc

theorem fillComponent_ok {l : Loader S C} {names : List String} {val : Boundary → S → Py (String → Option ℚ)} (hl : IsVector l names val)
    {anc : List (Boundary × List (Source S C))} {fs : List (String → Option ℚ)} (h : List.Forall₂ (VectorAt l val) anc fs)
    {n : String} (hn : n ∈ names) (D : Dict String Val) {v : Option ℚ} (hv : D.get? n = some (.num v)) {r : Option ℚ}
    (hr : IsFirst (v :: fs.map (fun f => f n)) r) :
    ∃ D', fillComponent l n anc D = .ok D' ∧ D'.get? n = some (.num r) ∧ ∀ k, k ≠ n → D'.get? k = D.get? k := by
  induction h generalizing D v with
  | nil =>
    have : r = v := by
      cases v with
      | some x => exact hr.of_some
      | none => exact hr.of_none.unique (Or.inr ⟨by simp, rfl⟩)
    exact ⟨D, rfl, by rw [hv, this], fun _ _ => rfl⟩
  | @cons a f anc fs ha hrest ih =>
    obtain ⟨ab, ad⟩ := a
    simp only [fillComponent, Dict.get, hv, bind, Except.bind, pure, Except.pure, Val.isNan]
    cases v with
    | some x => exact ⟨D, rfl, by rw [hv, hr.of_some], fun _ _ => rfl⟩
    | none =>
      obtain ⟨pre, s, post, h1, h2, h3, h4⟩ := ha
      simp only at h1 h4
      obtain ⟨E, e1, e2, -⟩ := hl.value _ _ _ h4
      simp only [Option.isNone_none, if_true, h1, findSource_split l h2 h3, e1, e2 n hn]
      have := ih (D.set n (.num (f n))) (v := f n) (by rw [Dict.get?_set, if_pos rfl]) hr.of_none
      obtain ⟨D', d1, d2, d3⟩ := this
      refine ⟨D', d1, d2, ?_⟩
      intro k hk
      rw [d3 k hk, Dict.get?_set, if_neg (fun e => hk e.symm)]

/-- **C33**, fill type 'parent': each component of a vector source gets the first present value among that
of the cell and those of its ancestors, nearest first, independently of the other components. -/
theorem C33_parent_partial {src : Source S C} {names : List String} {val : Boundary → S → Py (String → Option ℚ)}
    (hl : IsVector src.loader names val) (hnd : names.Nodup) {b : Boundary} {anc : List (Boundary × List (Source S C))}
    {f : String → Option ℚ} (hf : val b src.subset = .ok f) (hfill : src.fill = .parent) {fs : List (String → Option ℚ)}
    (hanc : List.Forall₂ (VectorAt src.loader val) anc fs) :
    ∃ D, sourceValue b anc src = .ok D ∧ (∀ n ∈ names, ∃ r, D.get? n = some (.num r) ∧ IsFirst (f n :: fs.map (fun g => g n)) r) ∧
      ∀ n, n ∉ names → D.get? n = none := by
  obtain ⟨D0, g1, g2, g3⟩ := hl.value _ _ _ hf
  have key : ∀ (l : List String) (D : Dict String Val), l.Nodup → (∀ n ∈ l, n ∈ names ∧ D.get? n = some (.num (f n))) →
      ∃ D', l.foldlM (checkComponent src anc) D = .ok D' ∧
        (∀ n ∈ l, ∃ r, D'.get? n = some (.num r) ∧ IsFirst (f n :: fs.map (fun g => g n)) r) ∧ ∀ n, n ∉ l → D'.get? n = D.get? n := by
    intro l
    induction l with
    | nil => intro D _ _; exact ⟨D, rfl, by simp, fun _ _ => rfl⟩
    | cons n l ih =>
      intro D hnd hD
      obtain ⟨hn, hDn⟩ := hD n (by simp)
      obtain ⟨r, hr⟩ := IsFirst.exists (f n :: fs.map (fun g => g n))
      have hstep : ∃ D1, checkComponent src anc D n = .ok D1 ∧ D1.get? n = some (.num r) ∧ ∀ k, k ≠ n → D1.get? k = D.get? k := by
        simp only [checkComponent, Dict.get, hDn, bind, Except.bind, pure, Except.pure, Val.isNan, hfill]
        cases hfn : f n with
        | some x =>
          rw [hfn] at hr hDn
          exact ⟨D, rfl, by rw [hDn, hr.of_some], fun _ _ => rfl⟩
        | none =>
          simp only [Option.isNone_none, if_true]
          rw [hfn] at hr hDn
          exact fillComponent_ok hl hanc hn D hDn hr
      obtain ⟨D1, d1, d2, d3⟩ := hstep
      rw [List.nodup_cons] at hnd
      obtain ⟨D', e1, e2, e3⟩ := ih D1 hnd.2 (fun k hk => ⟨(hD k (by simp [hk])).1, by
        rw [d3 k (fun e => hnd.1 (e ▸ hk))]; exact (hD k (by simp [hk])).2⟩)
      refine ⟨D', by rw [List.foldlM_cons, d1]; exact e1, ?_, ?_⟩
      · intro k hk
        rcases List.mem_cons.1 hk with rfl | hk
        · exact ⟨r, by rw [e3 _ hnd.1, d2], hr⟩
        · exact e2 k hk
      · intro k hk
        simp only [List.mem_cons, not_or] at hk
        rw [e3 k hk.2, d3 k hk.1]
  obtain ⟨D, h1, h2, h3⟩ := key names D0 hnd (fun n hn => ⟨hn, g2 n hn⟩)
  refine ⟨D, ?_, h2, fun n hn => by rw [h3 n hn, g3 n hn]⟩
  unfold sourceValue
  rw [g1]
  simp only [bind, Except.bind, splitName_vector hl.comma, if_true, checkVectorData]
  rw [hl.split]
  exact h1

/-- **C33 is false for constant fill types**: the components are left as they are, NaN included; the
constant is stored under the joined name instead, which is not the name of any component. -/
theorem C33_constant_not_filled {src : Source S C} {names : List String} {val : Boundary → S → Py (String → Option ℚ)}
    (hl : IsVector src.loader names val) {b : Boundary} {anc : List (Boundary × List (Source S C))} {f : String → Option ℚ}
    (hf : val b src.subset = .ok f) {x : Val} (hfill : src.fill = .const x) :
    ∃ D, sourceValue b anc src = .ok D ∧ (∀ n ∈ names, D.get? n = some (.num (f n))) ∧
      src.loader.dataName ∉ names ∧
      D.get? src.loader.dataName = (if ∃ n ∈ names, f n = none then some x else none) := by
  have hname := name_not_component hl
  obtain ⟨D0, g1, g2, g3⟩ := hl.value _ _ _ hf
  have key : ∀ (l : List String) (D : Dict String Val), (∀ n ∈ l, n ∈ names) → (∀ n ∈ names, D.get? n = some (.num (f n))) →
      ∃ D', l.foldlM (checkComponent src anc) D = .ok D' ∧ (∀ n ∈ names, D'.get? n = some (.num (f n))) ∧
        D'.get? src.loader.dataName = (if ∃ n ∈ l, f n = none then some x else D.get? src.loader.dataName) := by
    intro l
    induction l with
    | nil => intro D _ hD; exact ⟨D, rfl, hD, by simp⟩
    | cons n l ih =>
      intro D hln hD
      have hDn := hD n (hln n (by simp))
      have hstep : checkComponent src anc D n = .ok (if f n = none then D.set src.loader.dataName x else D) := by
        simp only [checkComponent, Dict.get, hDn, bind, Except.bind, pure, Except.pure, Val.isNan, hfill]
        cases f n <;> simp
      obtain ⟨D', e1, e2, e3⟩ := ih (if f n = none then D.set src.loader.dataName x else D) (fun k hk => hln k (by simp [hk])) (by
        intro k hk
        split
        · rw [Dict.get?_set, if_neg (fun e : src.loader.dataName = k => hname (e ▸ hk)), hD k hk]
        · exact hD k hk)
      refine ⟨D', by rw [List.foldlM_cons, hstep]; exact e1, e2, ?_⟩
      rw [e3]
      by_cases h1 : ∃ k ∈ l, f k = none
      · obtain ⟨k, hk, hk'⟩ := h1
        rw [if_pos ⟨k, hk, hk'⟩, if_pos ⟨k, by simp [hk], hk'⟩]
      · rw [if_neg h1]
        by_cases h2 : f n = none
        · rw [if_pos h2, Dict.get?_set, if_pos rfl, if_pos ⟨n, by simp, h2⟩]
        · rw [if_neg h2, if_neg]
          rintro ⟨k, hk, hk'⟩
          rcases List.mem_cons.1 hk with rfl | hk
          · exact h2 hk'
          · exact h1 ⟨k, hk, hk'⟩
  obtain ⟨D, h1, h2, h3⟩ := key names D0 (fun _ h => h) g2
  refine ⟨D, ?_, h2, hname, ?_⟩
  · unfold sourceValue
    rw [g1]
    simp only [bind, Except.bind, splitName_vector hl.comma, if_true, checkVectorData]
    rw [hl.split]
    exact h1
  · rw [h3, g3 _ hname]

theorem get?_update (d e : Dict String Val) (k : String) (hk : (e.map Prod.fst).Nodup) :
    (d.update e).get? k = match e.get? k with | some v => some v | none => d.get? k := by
  unfold Dict.update
  induction e generalizing d with
  | nil => rfl
  | cons p e ih =>
    obtain ⟨a, v⟩ := p
    rw [List.map_cons, List.nodup_cons] at hk
    rw [List.foldl_cons, ih _ hk.2]
    simp only [Dict.get?]
    by_cases ha : a = k
    · subst ha
      have : Dict.get? e a = none := by
        by_contra h
        exact hk.1 ((Dict.mem_keys_iff e a).2 (by cases hh : Dict.get? e a with | none => exact absurd hh h | some _ => rfl))
      rw [this, Dict.get?_set, if_pos rfl, if_pos rfl]
    · rw [if_neg ha]
      cases Dict.get? e k with
      | some w => rfl
      | none => simp only [Dict.get?_set, if_neg ha]

/-- **C33 is false for sources sharing a name**: whatever the sources before it gave, a vector source
overwrites all components (its NaNs included), because the presence test looks for the joined name. -/
theorem C33_overwrites {c : CellBox (List (Source S C))} {pre : List (Source S C)} {s : Source S C} (hdata : c.data = pre ++ [s])
    {D : Source S C → Dict String Val} (hD : ∀ s' ∈ c.data, sourceValue c.bounds c.anc s' = .ok (D s') ∧
      ((D s').map Prod.fst).Nodup ∧ (D s').get? s.loader.dataName = none ∧
      ∀ v, (D s').get? s'.loader.dataName = some v → ∃ x, v = .num x) :
    ∀ agg, aggregate c = .ok agg → ∀ n v, (D s).get? n = some v → agg.get? n = some v := by
  have key : ∀ (l : List (Source S C)) (acc agg : Dict String Val), (∀ s' ∈ l, s' ∈ c.data) → acc.get? s.loader.dataName = none →
      l.foldlM (aggregateStep c.bounds c.anc) acc = .ok agg → agg.get? s.loader.dataName = none := by
    intro l
    induction l with
    | nil => intro acc agg _ h0 h; cases h; exact h0
    | cons s' l ih =>
      intro acc agg hl h0 h
      obtain ⟨d1, d2, d3, -⟩ := hD s' (hl s' (by simp))
      rw [List.foldlM_cons] at h
      cases hst : aggregateStep c.bounds c.anc acc s' with
      | error e => rw [hst] at h; cases h
      | ok acc' =>
        rw [hst] at h
        refine ih acc' agg (fun s'' hs'' => hl s'' (by simp [hs''])) ?_ h
        have hu : (acc.update (D s')).get? s.loader.dataName = none := by rw [get?_update _ _ _ d2, d3]; exact h0
        unfold aggregateStep at hst
        rw [d1] at hst
        simp only [bind, Except.bind, pure, Except.pure] at hst
        cases hg : acc.get? s'.loader.dataName with
        | none => rw [hg] at hst; cases hst; exact hu
        | some old =>
          rw [hg] at hst
          cases hn : old.isNan with
          | error e => simp only [hn] at hst; cases hst
          | ok nan =>
            simp only [hn] at hst
            cases hst
            split
            · exact hu
            · exact h0
  intro agg hagg n v hv
  unfold aggregate at hagg
  rw [hdata, List.foldlM_append] at hagg
  cases hpre : pre.foldlM (aggregateStep c.bounds c.anc) [] with
  | error e => rw [hpre] at hagg; cases hagg
  | ok acc =>
    rw [hpre] at hagg
    have h0 := key pre [] acc (fun s' hs' => by rw [hdata]; simp [hs']) rfl hpre
    obtain ⟨d1, d2, -⟩ := hD s (by rw [hdata]; simp)
    change List.foldlM (aggregateStep c.bounds c.anc) acc [s] = _ at hagg
    rw [List.foldlM_cons] at hagg
    unfold aggregateStep at hagg
    rw [d1] at hagg
    simp only [bind, Except.bind, pure, Except.pure, h0] at hagg
    cases hagg
    rw [get?_update _ _ _ d2, hv]

end Verif
