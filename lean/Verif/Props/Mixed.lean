import Verif.Model.Mixed
import Verif.Props.Lut
import Verif.Props.VectorHom
import Verif.Proof.FaithfulValues

/-!
# C110: a mesh built from sources of different kinds
-/

namespace Verif
open Spec

variable {S C S' C' : Type}

/-! ## Wrapping -/

section Wrap
variable {put : S → S'} {get : S' → Option S} {putC : C → C'} {getC : C' → Option C} (hg : ∀ d, get (put d) = some d)
  (hc : ∀ c, getC (putC c) = some c) {In : Boundary → Prop} {s : Source S C}
include hg

theorem wrapped_trim (q : Boundary) (d : S) : (s.wrap put get putC getC).loader.trim q (put d) = put (s.loader.trim q d) := by
  show (match get (put d) with | some d => put (s.loader.trim q d) | none => put d) = _
  rw [hg]

include hc in
theorem wrap_faithful {verdict : Boundary → C → Verdict} (h : FaithfulOn In s verdict) :
    FaithfulOn In (s.wrap put get putC getC) (fun q c => match getC c with | some c => verdict q c | none => .clr) := by
  constructor
  · intro p q hp hq hw
    show (s.wrap put get putC getC).loader.trim q ((s.wrap put get putC getC).loader.trim p (put s.subset)) =
      (s.wrap put get putC getC).loader.trim q (put s.subset)
    rw [wrapped_trim hg, wrapped_trim hg, wrapped_trim hg, h.trims p q hp hq hw]
  · intro q hq c hm
    obtain ⟨c, hcm, rfl⟩ := List.mem_map.1 hm
    show (match get ((s.wrap put get putC getC).loader.trim q (put s.subset)), getC (putC c) with
      | some d, some c => s.loader.homCond q c d | _, _ => .error .typeError) = _
    rw [wrapped_trim hg, hg, hc]
    exact h.decides q hq c hcm

theorem wrap_valued {value : Boundary → String → Option ℚ} (h : ValuedOn In s value) : ValuedOn In (s.wrap put get putC getC) value := by
  refine ⟨h.names, ?_, ?_, h.fills⟩
  · intro q d D e
    change (match get d with | some d => s.loader.getValue q d | none => .error .typeError) = .ok D at e
    cases hd : get d with
    | none => rw [hd] at e; cases e
    | some d0 => rw [hd] at e; exact h.keys q d0 D e
  · intro q hq
    obtain ⟨D, h1, h2⟩ := h.gives q hq
    refine ⟨D, ?_, h2⟩
    show (match get ((s.wrap put get putC getC).loader.trim q (put s.subset)) with
      | some d => s.loader.getValue q d | none => .error .typeError) = _
    rw [wrapped_trim hg, hg]
    exact h1

end Wrap

/-! ## Specification -/

/-- `v` is the vector named by the aggregation type over the datapoints. -/
def Spec.VectorStatistic (grid : Bool) (agg : AggType) (l : List Vec) (v : Vec) : Prop :=
  match agg with
  | .min => (complete l = [] ∧ v = (none, none)) ∨ ∃ p ∈ complete l, v = (some p.1, some p.2) ∧ ∀ q ∈ complete l, normSq p ≤ normSq q
  | .max => (complete l = [] ∧ v = (none, none)) ∨ ∃ p ∈ complete l, v = (some p.1, some p.2) ∧ ∀ q ∈ complete l, normSq q ≤ normSq p
  | .mean => if grid = true ∧ complete l = [] then v = (none, none) else IsMeanOf (l.filterMap Prod.fst) v.1 ∧ IsMeanOf (l.filterMap Prod.snd) v.2
  | .count => v = if (if grid then complete l = [] else l = []) then (none, none) else (some (l.length : ℚ), some (l.length : ℚ))
  | _ => False

/-- The time range of a box, as far as the table needs one. -/
def Spec.rangeOf (t : LutTable) (q : Boundary) : ℤ × ℤ :=
  match t.timed, q.time with
  | true, t0 :: t1 :: _ => (t0, t1)
  | _, _ => (0, 0)

/-- The points of a box that does not cross the antimeridian, borders included. -/
def Spec.boxPoints (q : Boundary) : ℚ → ℚ → Prop := rectPoints q.longMin q.longMax q.latMin q.latMax

/-- The rows of a look-up table that count for a box: those whose polygon has a point in it, and that are in its time range. -/
noncomputable def Spec.lutIn (t : LutTable) (q : Boundary) : List Lut.Row := lutRows (boxPoints q) (rangeOf t q) t.rows

/-- `v` is the statistic of the values of the rows: NaN counts as the least and the greatest wherever it occurs. -/
def Spec.LutStatistic (agg : Lut.Agg) (rows : List Lut.Row) (v : Option ℚ) : Prop :=
  match agg with
  | .min => LutExtreme (· ≤ ·) false (rows.map (·.value)) v
  | .max => LutExtreme (· ≥ ·) false (rows.map (·.value)) v
  | .count => v = some (rows.length : ℚ)
  | .mean => (rows = [] ∧ v = none) ∨ rows ≠ [] ∧ ∃ x, v = some x ∧ x * rows.length = (rows.map (fun r => r.value.getD 0)).sum

/-- A scalar source as in C108. -/
structure Spec.PlainScalar (b : Boundary) (s : Source (Dataset (Option ℚ)) Cond) : Prop where
  loader : ∃ id name agg minDp, s.loader = scalarLoader id name agg minDp ∧ ',' ∉ name.toList ∧
    agg ∈ [AggType.min, .max, .mean, .median, .std, .count]
  fill : s.fill = .parent ∨ ∃ x, s.fill = .const (.num x)
  sorted : s.subset.Sorted
  time : ∃ d', s.subset.trim b = .ok d'

/-- A vector source of two names, filled from parents, whose data and conditions suit each other: distances from the mean only on
tables; curls only on tables without two datapoints at one place, or on grids without time. -/
structure Spec.PlainVector (b : Boundary) (s : Source (Dataset Vec) VectorHom.Conds) : Prop where
  loader : ∃ id name agg minDp x y, s.loader = vectorLoader id name agg (fun b c _ => VectorHom.hom minDp c b s.subset) ∧
    splitName name = [x, y] ∧ x ≠ y ∧ agg ∈ [AggType.min, .max, .mean, .count] ∧ 1 ≤ minDp
  fill : s.fill = .parent
  sorted : s.subset.Sorted
  time : ∃ d', s.subset.trim b = .ok d'
  conds : ∀ c ∈ s.conds, match s.subset, c.curl with
    | .table t, some _ => (t.rows.map (fun r => (r.lat, r.long))).Nodup
    | .table _, none => c.dmag ≠ none
    | .grid g, some _ => g.times = none
    | .grid _, none => False

/-- A look-up table with complete conditions; means only of tables without NaN. -/
structure Spec.PlainLut (b : Boundary) (s : Source LutTable Lut.Conds) : Prop where
  loader : ∃ coverage id name agg, s.loader = lutLoader coverage id name agg ∧ ',' ∉ name.toList ∧
    (agg = .mean → (∀ r ∈ s.subset.rows, r.value ≠ none) ∧ ∀ q l, l ≠ [] → coverage q l ≠ 0)
  fill : s.fill = .parent ∨ ∃ x, s.fill = .const (.num x)
  edges : ∀ r ∈ s.subset.rows, ∀ x y, r.geom.edge x y → r.geom.mem x y
  time : s.subset.timed = true → ∃ t0 t1 l, b.time = t0 :: t1 :: l
  conds : ∀ c ∈ s.conds, ∃ e l, c = ⟨some e, some l⟩

/-- Sources of the three kinds, in any order. -/
inductive Spec.PlainAny (b : Boundary) : Source AnyData AnyCond → Prop
  | scalar {s} : PlainScalar b s → PlainAny b (.ofScalar s)
  | vector {s} : PlainVector b s → PlainAny b (.ofVector s)
  | lut {s} : PlainLut b s → PlainAny b (.ofLut s)

/-- What a source gives for a box by itself, under each of its names. -/
inductive Spec.Gives (q : Boundary) : Source AnyData AnyCond → (String → Option ℚ) → Prop
  | scalar {s : Source (Dataset (Option ℚ)) Cond} {f} {id name agg minDp} : s.loader = scalarLoader id name agg minDp →
      Statistic s.subset.isGrid agg ((rowsIn s.subset q).map Row.val) (f name) → Gives q (.ofScalar s) f
  | vector {s : Source (Dataset Vec) VectorHom.Conds} {f} {id name agg hom x y} : s.loader = vectorLoader id name agg hom →
      splitName name = [x, y] → VectorStatistic s.subset.isGrid agg ((rowsIn s.subset q).map Row.val) (f x, f y) → Gives q (.ofVector s) f
  | lut {s : Source LutTable Lut.Conds} {f} {coverage id name agg} : s.loader = lutLoader coverage id name agg →
      LutStatistic agg (lutIn s.subset q) (f name) → Gives q (.ofLut s) f

/-- The source has a condition that finds the box inhomogeneous.  Scalar data: enough datapoints, and the share of values over the
threshold strictly between the two bounds.  Vector data: enough datapoints, and the share of complete vectors farther than the threshold
from the mean strictly between the two bounds.  Look-up tables: the edge of a polygon in the time range runs through the box. -/
inductive Spec.Uneven (q : Boundary) : Source AnyData AnyCond → Prop
  | scalar {s : Source (Dataset (Option ℚ)) Cond} {id name agg minDp c} : s.loader = scalarLoader id name agg minDp → c ∈ s.conds →
      minDp ≤ (rowsIn s.subset q).length → c.lower < fractionOver c.threshold ((rowsIn s.subset q).map Row.val) →
      fractionOver c.threshold ((rowsIn s.subset q).map Row.val) < c.upper → Uneven q (.ofScalar s)
  | vector {s : Source (Dataset Vec) VectorHom.Conds} {id name agg minDp c a} :
      s.loader = vectorLoader id name agg (fun b c _ => VectorHom.hom minDp c b s.subset) → ⟨none, some c⟩ ∈ s.conds →
      minDp ≤ (rowsIn s.subset q).length → complete ((rowsIn s.subset q).map Row.val) ≠ [] → IsMeanVec ((rowsIn s.subset q).map Row.val) a →
      c.lower < share (fun v => (c.threshold : ℝ) < distance v a) (complete ((rowsIn s.subset q).map Row.val)) →
      share (fun v => (c.threshold : ℝ) < distance v a) (complete ((rowsIn s.subset q).map Row.val)) < c.upper → Uneven q (.ofVector s)
  | lut {s : Source LutTable Lut.Conds} {l} : ⟨some true, l⟩ ∈ s.conds →
      LutEdge (boxPoints q) (rangeOf s.subset q) s.subset.rows → Uneven q (.ofLut s)

/-- The source never prevents splitting, and decides by what `Uneven` says. -/
inductive Spec.Unlocked : Source AnyData AnyCond → Prop
  | scalar {s : Source (Dataset (Option ℚ)) Cond} : (∀ c ∈ s.conds, c.splitLock = false) → Unlocked (.ofScalar s)
  | vector {s : Source (Dataset Vec) VectorHom.Conds} : (∀ c ∈ s.conds, ∃ d, c = ⟨none, some d⟩ ∧ d.splitLock = false) → Unlocked (.ofVector s)
  | lut {s : Source LutTable Lut.Conds} : (∀ c ∈ s.conds, c.splitLock = some false) → Unlocked (.ofLut s)

/-- The conditions are those that `Uneven` and `Locks` describe. -/
inductive Spec.Decided : Source AnyData AnyCond → Prop
  | scalar {s : Source (Dataset (Option ℚ)) Cond} : Decided (.ofScalar s)
  | vector {s : Source (Dataset Vec) VectorHom.Conds} : (∀ c ∈ s.conds, ∃ d, c = ⟨none, some d⟩) → Decided (.ofVector s)
  | lut {s : Source LutTable Lut.Conds} : Decided (.ofLut s)

/-- The source has a condition that prevents splitting the box.  Scalar and vector data: the condition is a lock, there are enough
datapoints, and the share over the threshold reaches the upper bound (and is over the lower one).  Look-up tables: the condition is a lock,
and no polygon in the time range has a point in the box. -/
inductive Spec.Locks (q : Boundary) : Source AnyData AnyCond → Prop
  | scalar {s : Source (Dataset (Option ℚ)) Cond} {id name agg minDp c} : s.loader = scalarLoader id name agg minDp → c ∈ s.conds →
      c.splitLock = true → minDp ≤ (rowsIn s.subset q).length → c.lower < fractionOver c.threshold ((rowsIn s.subset q).map Row.val) →
      c.upper ≤ fractionOver c.threshold ((rowsIn s.subset q).map Row.val) → Locks q (.ofScalar s)
  | vector {s : Source (Dataset Vec) VectorHom.Conds} {id name agg minDp c a} :
      s.loader = vectorLoader id name agg (fun b c _ => VectorHom.hom minDp c b s.subset) → ⟨none, some c⟩ ∈ s.conds →
      c.splitLock = true → minDp ≤ (rowsIn s.subset q).length → complete ((rowsIn s.subset q).map Row.val) ≠ [] →
      IsMeanVec ((rowsIn s.subset q).map Row.val) a →
      c.lower < share (fun v => (c.threshold : ℝ) < distance v a) (complete ((rowsIn s.subset q).map Row.val)) →
      c.upper ≤ share (fun v => (c.threshold : ℝ) < distance v a) (complete ((rowsIn s.subset q).map Row.val)) → Locks q (.ofVector s)
  | lut {s : Source LutTable Lut.Conds} {e} : ⟨e, some true⟩ ∈ s.conds →
      ¬ LutOverlap (boxPoints q) (rangeOf s.subset q) s.subset.rows → Locks q (.ofLut s)

/-! ## Scalar and vector sources -/

theorem dataset_trims {V : Type} {l : Loader (Dataset V) C} (hl : TrimsDatapoints l) {d : Dataset V} (hs : d.Sorted) {b p q : Boundary}
    {d0 : Dataset V} (h : d.trim b = .ok d0) (hp : Inner b p) (hq : Inner p q) : l.trim q (l.trim p d) = l.trim q d := by
  have right : ∀ q : Boundary, ProperBox q → q.longMin < q.longMax → TrimsRight d q := by
    intro q h1 h2
    refine ⟨h1, ?_⟩
    cases d with
    | table t => exact h2
    | grid g => exact Or.inl h2
  obtain ⟨d1, e1, -⟩ := rowsIn_trim hs hp.2.1 hp.2.2.2 h
  obtain ⟨d2, e2, -⟩ := rowsIn_trim hs hq.2.1 (hq.2.2.2.trans hp.2.2.2) h
  have e := (C25_composes_partial d hs (right p hp.1 hp.2.1) (right q hq.1 hq.2.1) hq.2.2 e1).1
  rw [hl p _ _ e1, hl q _ _ e2, hl q d1 d2 (by rw [e, e2])]

theorem scalar_faithful {b : Boundary} {s : Source (Dataset (Option ℚ)) Cond} (h : PlainScalar b s) {id name agg minDp}
    (e : s.loader = scalarLoader id name agg minDp) :
    Faithful b s (fun q c => homCondition minDp c ((rowsIn s.subset q).map Row.val)) := by
  obtain ⟨d0, h0⟩ := h.time
  constructor
  · intro p q hp hq' hw
    have hq : Inner p q := ⟨hq'.1, hq'.2.1, hw⟩
    exact dataset_trims (by rw [e]; exact scalarLoader_trims _ _ _ _) h.sorted h0 hp hq
  · intro q hq c _
    obtain ⟨d', e1, e2⟩ := rowsIn_trim h.sorted hq.2.1 hq.2.2.2 h0
    rw [e]
    show Except.ok (homCondition minDp c (Dataset.vals (match s.subset.trim q with | .ok d' => d' | .error _ => s.subset))) = _
    rw [e1]
    simp only [Dataset.vals, e2]

theorem scalar_valued {b : Boundary} {s : Source (Dataset (Option ℚ)) Cond} (h : PlainScalar b s) :
    ∃ value, Valued b s value ∧ ∀ q, Inner b q → Gives q (.ofScalar s) (value q) := by
  obtain ⟨id, name, agg, minDp, e, hn, hagg⟩ := h.loader
  obtain ⟨d0, h0⟩ := h.time
  have hname : s.loader.dataName = name := by rw [e]; rfl
  have key : ∀ q, ∃ v, Inner b q → s.loader.getValue q (s.loader.trim q s.subset) = .ok [(name, .num v)] ∧
      Statistic s.subset.isGrid agg ((rowsIn s.subset q).map Row.val) v := by
    intro q
    by_cases hq : Inner b q
    · obtain ⟨d', v, e1, e2, e3⟩ := scalar_statistic hagg h.sorted h0 hq.1 hq.2.1 hq.2.2.2
      refine ⟨v, fun _ => ⟨?_, e3⟩⟩
      rw [e, scalarLoader_trims id name agg minDp q _ _ e1]
      show (scalarValue agg q d' >>= fun v => pure [(name, Val.num v)]) = _
      rw [e2]; rfl
    · exact ⟨none, fun h => absurd h hq⟩
  choose v hv using key
  refine ⟨fun q _ => v q, ⟨?_, ?_, ?_, ?_⟩, fun q hq => .scalar e (hv q hq).2⟩
  · rw [hname, splitName_single hn]; simp
  · intro q d D hD
    rw [e] at hD
    change (scalarValue agg q d >>= fun v => pure [(name, Val.num v)]) = _ at hD
    cases hx : scalarValue agg q d with
    | error _ => rw [hx] at hD; cases hD
    | ok x => rw [hx] at hD; cases hD; simp
  · intro q hq
    refine ⟨_, (hv q hq).1, ?_, ?_⟩
    · rw [hname, splitName_single hn]; simp [Dict.get?]
    · rw [hname, splitName_single hn]
      intro n hne
      rw [List.mem_singleton] at hne
      simp [Dict.get?, Ne.symm hne]
  · rcases h.fill with h | h
    · exact Or.inl h
    · exact Or.inr ⟨by rw [hname]; exact hn, h⟩

theorem vectorLoader_trims {C : Type} (id : ℕ) (name : String) (agg : AggType) (hom : Boundary → C → Dataset Vec → Py Verdict) :
    TrimsDatapoints (vectorLoader id name agg hom) := by
  intro b d d' h
  show (match d.trim b with | .ok d' => d' | .error _ => d) = d'
  rw [h]

theorem vector_statistic (grid : Bool) {agg : AggType} (hagg : agg ∈ [AggType.min, .max, .mean, .count]) (l : List Vec) :
    ∃ v, vectorOf grid agg l = .ok v ∧ VectorStatistic grid agg l v := by
  simp only [List.mem_cons, List.not_mem_nil, or_false] at hagg
  rcases hagg with rfl | rfl | rfl | rfl
  · rcases (C53_extreme grid l).1 with ⟨h1, h2⟩ | ⟨p, h1, h2, h3⟩
    · exact ⟨_, h2, Or.inl ⟨h1, rfl⟩⟩
    · exact ⟨_, h2, Or.inr ⟨p, h1, rfl, h3⟩⟩
  · rcases (C53_extreme grid l).2 with ⟨h1, h2⟩ | ⟨p, h1, h2, h3⟩
    · exact ⟨_, h2, Or.inl ⟨h1, rfl⟩⟩
    · exact ⟨_, h2, Or.inr ⟨p, h1, rfl, h3⟩⟩
  · exact C53_mean grid l
  · have := (C53_errors grid l).2.2
    refine ⟨if (if grid then complete l = [] else l = []) then (none, none) else (some (l.length : ℚ), some (l.length : ℚ)), ?_, rfl⟩
    rw [this]
    split <;> split <;> rfl

theorem vector_valued {b : Boundary} {s : Source (Dataset Vec) VectorHom.Conds} (h : PlainVector b s) :
    ∃ value, Valued b s value ∧ ∀ q, Inner b q → Gives q (.ofVector s) (value q) := by
  obtain ⟨id, name, agg, minDp, x, y, e, hn, hxy, hagg, -⟩ := h.loader
  obtain ⟨d0, h0⟩ := h.time
  have hname : s.loader.dataName = name := by rw [e]; rfl
  have hget : ∀ q d, s.loader.getValue q d = (vectorValue agg d >>= fun v => pure [(x, Val.num v.1), (y, Val.num v.2)]) := by
    intro q d
    rw [e]
    show (vectorValue agg d >>= fun v => _) = _
    cases vectorValue agg d with
    | error _ => rfl
    | ok v => simp only [bind, Except.bind, hn]
  have key : ∀ q, ∃ v : Vec, Inner b q → s.loader.getValue q (s.loader.trim q s.subset) = .ok [(x, .num v.1), (y, .num v.2)] ∧
      VectorStatistic s.subset.isGrid agg ((rowsIn s.subset q).map Row.val) v := by
    intro q
    by_cases hq : Inner b q
    · obtain ⟨d', e1, e2⟩ := rowsIn_trim h.sorted hq.2.1 hq.2.2.2 h0
      obtain ⟨v, v1, v2⟩ := vector_statistic s.subset.isGrid hagg ((rowsIn s.subset q).map Row.val)
      refine ⟨v, fun _ => ⟨?_, v2⟩⟩
      rw [hget]
      have ht : s.loader.trim q s.subset = d' := by
        rw [e]
        exact vectorLoader_trims id name agg _ q _ _ e1
      have hv : vectorValue agg d' = .ok v := by
        rw [← v1, ← e2]
        have hg := (trim_inv h.sorted e1).symm
        cases hd : s.subset with
        | table t => rw [hd] at hg; subst hg; rfl
        | grid g => rw [hd] at hg; subst hg; rfl
      rw [ht, hv]; rfl
    · exact ⟨(none, none), fun h => absurd h hq⟩
  choose v hv using key
  refine ⟨fun q n => if n = x then (v q).1 else (v q).2, ⟨?_, ?_, ?_, Or.inl h.fill⟩, fun q hq => .vector e hn ?_⟩
  · rw [hname, hn]; simp [hxy]
  · intro q d D hD
    rw [hget] at hD
    cases hx : vectorValue agg d with
    | error _ => rw [hx] at hD; cases hD
    | ok x => rw [hx] at hD; cases hD; simp [hxy]
  · intro q hq
    refine ⟨_, (hv q hq).1, ?_, ?_⟩
    · rw [hname, hn]
      intro n hm
      simp only [List.mem_cons, List.not_mem_nil, or_false] at hm
      rcases hm with rfl | rfl
      · simp [Dict.get?]
      · simp [Dict.get?, hxy, Ne.symm hxy]
    · rw [hname, hn]
      intro n hm
      simp only [List.mem_cons, List.not_mem_nil, or_false, not_or] at hm
      simp [Dict.get?, Ne.symm hm.1, Ne.symm hm.2]
  · simp only [if_true, if_neg hxy.symm]
    exact (hv q hq).2

theorem curlField_total {f : VectorHom.VField} (hn : f.n ≠ 0) (hm : f.m ≠ 0) : ∃ r, VectorHom.curlField f = .ok r := by
  unfold VectorHom.curlField
  split
  · exact ⟨_, rfl⟩
  · rw [if_neg (by tauto)]
    simp only
    split <;> exact ⟨_, rfl⟩

theorem axis_ne {l : List ℚ} (h : l ≠ []) : (VectorHom.axis l).length ≠ 0 := by
  unfold VectorHom.axis
  rw [(List.perm_insertionSort _ _).length_eq]
  intro h0
  rw [List.length_eq_zero_iff] at h0
  apply h
  cases l with
  | nil => rfl
  | cons x l =>
    have : x ∈ (x :: l).dedup := List.mem_dedup.2 (by simp)
    rw [h0] at this
    cases this

/-- Curls and distances are found without raising. -/
theorem vector_total {b q : Boundary} {s : Source (Dataset Vec) VectorHom.Conds} (h : PlainVector b s) (hq : Inner b q) {minDp : ℕ}
    (hdp : 1 ≤ minDp) {c : VectorHom.Conds} (hc : c ∈ s.conds) : ∃ v, VectorHom.hom minDp c q s.subset = .ok v := by
  obtain ⟨d0, h0⟩ := h.time
  obtain ⟨d', e1, e2⟩ := rowsIn_trim h.sorted hq.2.1 hq.2.2.2 h0
  have hcond := h.conds c hc
  have hinv := trim_inv h.sorted e1
  obtain ⟨curl, dmag⟩ := c
  unfold VectorHom.hom
  simp only [e1, bind, Except.bind, VectorHom.homTrimmed]
  split
  · exact ⟨_, rfl⟩
  · rename_i hnum
    cases hd : s.subset with
    | table t =>
      rw [hd] at hcond hinv
      subst hinv
      simp only [Dataset.trimTo, VectorHom.numDp] at hnum ⊢
      cases curl with
      | some sc =>
        simp only at hcond
        have hnd : ((t.rows.filter ((Dataset.table t).sel q)).map (fun r => (r.lat, r.long))).Nodup :=
          hcond.sublist (List.Sublist.map _ List.filter_sublist)
        have hne : t.rows.filter ((Dataset.table t).sel q) ≠ [] := by
          intro h0; rw [h0] at hnum; simp at hnum; omega
        simp only [VectorHom.meshgrid, VectorHom.meshgridTable, if_pos hnd]
        obtain ⟨r, hr⟩ := curlField_total (f := ⟨(VectorHom.axis ((t.rows.filter ((Dataset.table t).sel q)).map Row.long)).length,
          (VectorHom.axis ((t.rows.filter ((Dataset.table t).sel q)).map Row.lat)).length,
          fun i j => VectorHom.lookup (t.rows.filter ((Dataset.table t).sel q))
            ((VectorHom.axis ((t.rows.filter ((Dataset.table t).sel q)).map Row.lat)).getD j 0)
            ((VectorHom.axis ((t.rows.filter ((Dataset.table t).sel q)).map Row.long)).getD i 0)⟩)
          (axis_ne (by simpa using hne)) (axis_ne (by simpa using hne))
        rw [hr]
        cases r <;> exact ⟨_, rfl⟩
      | none =>
        cases dmag with
        | none => exact absurd rfl hcond
        | some sc =>
          simp only [VectorHom.dmagField, bind, Except.bind]
          have : ∃ a, vectorValueDf .mean ((t.rows.filter ((Dataset.table t).sel q)).map Row.val) = .ok a := by
            unfold vectorValueDf
            split <;> exact ⟨_, rfl⟩
          obtain ⟨a, ha⟩ := this
          rw [ha]
          simp only [pure, Except.pure]
          split
          · rename_i h; split at h <;> [skip; split at h] <;> cases h
          · rename_i h
            split <;> exact ⟨_, rfl⟩
    | grid g =>
      rw [hd] at hcond hinv
      subst hinv
      simp only [Dataset.trimTo, VectorHom.numDp] at hnum ⊢
      cases curl with
      | none => exact absurd hcond id
      | some sc =>
        simp only at hcond
        have ht : (g.trimTo q).times = none := by simp [Grid.trimTo, hcond]
        simp only [VectorHom.meshgrid, ht]
        have hne : (g.trimTo q).rows ≠ [] := by
          intro h0; rw [h0] at hnum; simp at hnum; omega
        have hy : (g.trimTo q).lats.length ≠ 0 := by
          intro h0
          apply hne
          rw [List.length_eq_zero_iff] at h0
          simp [Grid.rows, h0]
        have hx : (g.trimTo q).longs.length ≠ 0 := by
          intro h0
          apply hne
          rw [List.length_eq_zero_iff] at h0
          simp [Grid.rows, h0]
        obtain ⟨r, hr⟩ := curlField_total (f := ⟨(g.trimTo q).lats.length, (g.trimTo q).longs.length,
          fun i j => (g.trimTo q).val ((g.trimTo q).lats.getD i 0) ((g.trimTo q).longs.getD j 0) 0⟩) hy hx
        rw [hr]
        cases r <;> exact ⟨_, rfl⟩

/-- The verdict that a source has on a box. -/
def ownVerdict (s : Source S C) (q : Boundary) (c : C) : Verdict :=
  match s.loader.homCond q c (s.loader.trim q s.subset) with
  | .ok v => v
  | .error _ => .clr

theorem Faithful.own {In : Boundary → Prop} {s : Source S C} {verdict : Boundary → C → Verdict} (h : FaithfulOn In s verdict) :
    FaithfulOn In s (ownVerdict s) := by
  refine ⟨h.trims, ?_⟩
  intro q hq c hc
  unfold ownVerdict
  rw [h.decides q hq c hc]

theorem ownVerdict_wrap {put : S → S'} {get : S' → Option S} {putC : C → C'} {getC : C' → Option C} (hg : ∀ d, get (put d) = some d)
    (hc : ∀ c, getC (putC c) = some c) (s : Source S C) (q : Boundary) (c : C) :
    ownVerdict (s.wrap put get putC getC) q (putC c) = ownVerdict s q c := by
  have : (s.wrap put get putC getC).loader.homCond q (putC c) ((s.wrap put get putC getC).loader.trim q (put s.subset)) =
      s.loader.homCond q c (s.loader.trim q s.subset) := by
    rw [wrapped_trim hg]
    show (match get (put _), getC (putC c) with | some d, some c => s.loader.homCond q c d | _, _ => .error .typeError) = _
    rw [hg, hc]
  unfold ownVerdict
  show (match (s.wrap put get putC getC).loader.homCond q (putC c) ((s.wrap put get putC getC).loader.trim q (put s.subset)) with
    | .ok v => v | .error _ => .clr) = _
  rw [this]

theorem vector_faithful {b : Boundary} {s : Source (Dataset Vec) VectorHom.Conds} (h : PlainVector b s) : Faithful b s (ownVerdict s) := by
  obtain ⟨id, name, agg, minDp, x, y, e, -, -, -, hdp⟩ := h.loader
  obtain ⟨d0, h0⟩ := h.time
  constructor
  · intro p q hp hq' hw
    have hq : Inner p q := ⟨hq'.1, hq'.2.1, hw⟩
    exact dataset_trims (by rw [e]; exact vectorLoader_trims _ _ _ _) h.sorted h0 hp hq
  · intro q hq c hc
    obtain ⟨v, hv⟩ := vector_total h hq hdp hc
    have : s.loader.homCond q c (s.loader.trim q s.subset) = .ok v := by rw [e]; exact hv
    unfold ownVerdict
    rw [this]

/-! ## Look-up tables -/

theorem cellPoints_box {q : Boundary} (h : q.longMin < q.longMax) : Lut.cellPoints q = boxPoints q := by
  funext x y
  unfold Lut.cellPoints LoaderInit.rects
  rw [if_pos h]
  simp [boxPoints, rectPoints]

theorem limits_range {t : LutTable} {b q : Boundary} (h : t.timed = true → ∃ t0 t1 l, b.time = t0 :: t1 :: l) (hq : q.time = b.time) :
    t.limits q = .ok (rangeOf t q) := by
  unfold LutTable.limits rangeOf
  cases ht : t.timed with
  | false => simp
  | true =>
    obtain ⟨t0, t1, l, e⟩ := h ht
    rw [hq, e]
    simp [timeLimits, hq, e]

theorem lut_trim_box {t : LutTable} {b q : Boundary} (h : t.timed = true → ∃ t0 t1 l, b.time = t0 :: t1 :: l) (hq : Inner b q) :
    t.trim q = .ok ⟨t.timed, lutIn t q⟩ := by
  unfold LutTable.trim
  rw [limits_range h hq.2.2.2, cellPoints_box hq.2.1]
  simp only [bind, Except.bind, lut_trim_eq]
  rfl

theorem lutRows_twice (cell cell' : ℚ → ℚ → Prop) (time : ℤ × ℤ) (rows : List Lut.Row) (h : ∀ x y, cell' x y → cell x y) :
    lutRows cell' time (lutRows cell time rows) = lutRows cell' time rows := by
  unfold lutRows
  rw [List.filter_filter]
  refine List.filter_congr fun r _ => ?_
  rw [Bool.eq_iff_iff]
  simp only [Bool.and_eq_true, decide_eq_true_eq]
  constructor
  · exact fun h => h.1
  · rintro ⟨h1, x, y, h2, h3⟩
    exact ⟨⟨h1, x, y, h2, h3⟩, h1, x, y, h2, h x y h3⟩

theorem inner_edges {p q : Boundary} (hp : ProperBox p) (hc : p.longMin < p.longMax) (hq : Inner p q) :
    p.longMin ≤ q.longMin ∧ q.longMax ≤ p.longMax ∧ p.latMin ≤ q.latMin ∧ q.latMax ≤ p.latMax := by
  obtain ⟨⟨hv, -, hlat⟩, hlong, hw, -⟩ := hq
  obtain ⟨hpv, -, -⟩ := hp
  have e1 : eastEdge q = q.longMax := by unfold eastEdge; rw [if_pos (by linarith)]
  have e2 : eastEdge p = p.longMax := by unfold eastEdge; rw [if_pos (by linarith)]
  have key : ∀ x y, q.longMin < x → x ≤ q.longMax → q.latMin < y → y ≤ q.latMax →
      p.longMin < x ∧ x ≤ p.longMax ∧ p.latMin < y ∧ y ≤ p.latMax := by
    intro x y h1 h2 h3 h4
    obtain ⟨⟨n, h5, h6⟩, h7, h8⟩ := hw x y ⟨⟨0, by simpa using h1, by rw [e1]; simpa using h2⟩, h3, h4⟩
    rw [e2] at h6
    have hn : n = 0 := by
      have a1 : (n : ℚ) < 1 := by linarith [hpv.2.2.1, hpv.2.2.2.1, hpv.2.2.2.2.1, hv.2.1, hv.2.2.1, hv.2.2.2.1, hv.2.2.2.2.1]
      have a2 : (-1 : ℚ) < n := by linarith [hpv.2.1, hpv.2.2.1, hpv.2.2.2.1, hpv.2.2.2.2.1, hv.2.1, hv.2.2.1, hv.2.2.2.1, hv.2.2.2.2.1]
      have a3 : n < 1 := by exact_mod_cast a1
      have a4 : -1 < n := by exact_mod_cast a2
      omega
    subst hn
    exact ⟨by simpa using h5, by simpa using h6, h7, h8⟩
  have top := key q.longMax q.latMax hlong le_rfl hlat le_rfl
  refine ⟨?_, top.2.1, ?_, top.2.2.2⟩
  · by_contra h
    push Not at h
    have := key (min p.longMin q.longMax) q.latMax (lt_min h hlong) (min_le_right _ _) hlat le_rfl
    exact absurd this.1 (not_lt.2 (min_le_left _ _))
  · by_contra h
    push Not at h
    have := key q.longMax (min p.latMin q.latMax) hlong le_rfl (lt_min h hlat) (min_le_right _ _)
    exact absurd this.2.2.1 (not_lt.2 (min_le_left _ _))

theorem within_points {p q : Boundary} (hp : ProperBox p) (hc : p.longMin < p.longMax) (hq : Inner p q) :
    ∀ x y, boxPoints q x y → boxPoints p x y := by
  obtain ⟨h1, h2, h3, h4⟩ := inner_edges hp hc hq
  rintro x y ⟨h5, h6, h7, h8⟩
  exact ⟨h1.trans h5, h6.trans h2, h3.trans h7, h8.trans h4⟩

theorem lut_faithful {b : Boundary} {s : Source LutTable Lut.Conds} (h : PlainLut b s) : Faithful b s (ownVerdict s) := by
  obtain ⟨coverage, id, name, agg, e, -, -⟩ := h.loader
  have htrim : ∀ q, Inner b q → ∀ t : LutTable, t.timed = s.subset.timed → s.loader.trim q t = ⟨t.timed, lutIn t q⟩ := by
    intro q hq t ht
    rw [e]
    show (match t.trim q with | .ok t' => t' | .error _ => t) = _
    rw [lut_trim_box (by rw [ht]; exact h.time) hq]
  constructor
  · intro p q hp hq' hw
    have hq : Inner p q := ⟨hq'.1, hq'.2.1, hw⟩
    rw [htrim p hp _ rfl, htrim q (hq.trans hp) ⟨s.subset.timed, lutIn s.subset p⟩ rfl, htrim q (hq.trans hp) s.subset rfl]
    congr 1
    unfold lutIn
    have ht : rangeOf ⟨s.subset.timed, lutRows (boxPoints p) (rangeOf s.subset p) s.subset.rows⟩ q = rangeOf s.subset q := rfl
    have ht' : rangeOf s.subset p = rangeOf s.subset q := by unfold rangeOf; rw [hq.2.2.2]
    rw [ht, ht']
    exact lutRows_twice _ _ _ _ (within_points hp.1 hp.2.1 hq)
  · intro q hq c hc
    obtain ⟨e', l, rfl⟩ := h.conds c hc
    have : ∃ v, s.loader.homCond q ⟨some e', some l⟩ (s.loader.trim q s.subset) = .ok v := by
      rw [htrim q hq _ rfl, e]
      show ∃ v, (LutTable.limits q ⟨s.subset.timed, lutIn s.subset q⟩ >>= fun time =>
        Lut.homCondition (Lut.cellPoints q) time ⟨some e', some l⟩ (lutIn s.subset q) >>= fun v => pure v.verdict) = .ok v
      rw [limits_range (t := ⟨s.subset.timed, lutIn s.subset q⟩) h.time hq.2.2.2]
      obtain ⟨v, hv⟩ := (C47_decision (Lut.cellPoints q) (rangeOf ⟨s.subset.timed, lutIn s.subset q⟩ q) e' l (lutIn s.subset q) (by
        intro r hr
        exact h.edges r (List.mem_of_mem_filter hr))).2.2
      exact ⟨v.verdict, by simp only [bind, Except.bind, hv]; rfl⟩
    obtain ⟨v, hv⟩ := this
    unfold ownVerdict
    rw [hv]

/-- What a look-up table decides on a box. -/
theorem lut_verdict {b q : Boundary} {s : Source LutTable Lut.Conds} (h : PlainLut b s) (hq : Inner b q) (e l : Bool) :
    (ownVerdict s q ⟨some e, some l⟩ = .het ↔ e = true ∧ LutEdge (boxPoints q) (rangeOf s.subset q) s.subset.rows) ∧
    (ownVerdict s q ⟨some e, some l⟩ = .hom ↔ l = true ∧ ¬ LutOverlap (boxPoints q) (rangeOf s.subset q) s.subset.rows) ∧
    ownVerdict s q ⟨some e, some l⟩ ≠ .min := by
  obtain ⟨coverage, id, name, agg, el, -, -⟩ := h.loader
  have ht : s.loader.trim q s.subset = ⟨s.subset.timed, lutIn s.subset q⟩ := by
    rw [el]
    show (match s.subset.trim q with | .ok t' => t' | .error _ => s.subset) = _
    rw [lut_trim_box h.time hq]
  obtain ⟨h1, h2, v, hv⟩ := C47_decision (boxPoints q) (rangeOf s.subset q) e l (lutIn s.subset q)
    (fun r hr => h.edges r (List.mem_of_mem_filter hr))
  have hov : ownVerdict s q ⟨some e, some l⟩ = v.verdict := by
    have : s.loader.homCond q ⟨some e, some l⟩ (s.loader.trim q s.subset) = .ok v.verdict := by
      rw [ht, el]
      show (LutTable.limits q ⟨s.subset.timed, lutIn s.subset q⟩ >>= fun time =>
        Lut.homCondition (Lut.cellPoints q) time ⟨some e, some l⟩ (lutIn s.subset q) >>= fun v => pure v.verdict) = _
      rw [limits_range (t := ⟨s.subset.timed, lutIn s.subset q⟩) h.time hq.2.2.2, cellPoints_box hq.2.1]
      have hr : rangeOf ⟨s.subset.timed, lutIn s.subset q⟩ q = rangeOf s.subset q := rfl
      simp only [bind, Except.bind, hr, hv]
      rfl
    unfold ownVerdict
    rw [this]
  have hmem : ∀ r, r ∈ lutIn s.subset q ↔ r ∈ Lut.trim (boxPoints q) (rangeOf s.subset q) s.subset.rows := by
    intro r; unfold lutIn; rw [lut_trim_eq]
  have ee : LutEdge (boxPoints q) (rangeOf s.subset q) (lutIn s.subset q) ↔ LutEdge (boxPoints q) (rangeOf s.subset q) s.subset.rows := by
    constructor
    · rintro ⟨r, hr, h3⟩
      exact ⟨r, List.mem_of_mem_filter hr, h3⟩
    · rintro ⟨r, hr, h3, x, y, h4, h5⟩
      exact ⟨r, (hmem r).2 ((lut_mem_trim ..).2 ⟨hr, (lut_inTime_iff ..).2 h3, x, y, h.edges r hr x y h4, h5⟩), h3, x, y, h4, h5⟩
  have eo : LutOverlap (boxPoints q) (rangeOf s.subset q) (lutIn s.subset q) ↔ LutOverlap (boxPoints q) (rangeOf s.subset q) s.subset.rows := by
    constructor
    · rintro ⟨r, hr, h3⟩
      exact ⟨r, List.mem_of_mem_filter hr, h3⟩
    · rintro ⟨r, hr, h3, h4⟩
      exact ⟨r, (hmem r).2 ((lut_mem_trim ..).2 ⟨hr, (lut_inTime_iff ..).2 h3, h4⟩), h3, h4⟩
  rw [← ee, ← eo, ← h1, ← h2, hov, hv]
  cases v <;> simp [Lut.Cond.verdict]

theorem lut_statistic {b q : Boundary} {s : Source LutTable Lut.Conds} (h : PlainLut b s) (hq : Inner b q) {coverage id name agg}
    (el : s.loader = lutLoader coverage id name agg)
    (hm : agg = .mean → (∀ r ∈ s.subset.rows, r.value ≠ none) ∧ ∀ q l, l ≠ [] → coverage q l ≠ 0) :
    ∃ v, s.loader.getValue q (s.loader.trim q s.subset) = .ok [(name, .num v)] ∧ LutStatistic agg (lutIn s.subset q) v := by
  have ht : s.loader.trim q s.subset = ⟨s.subset.timed, lutIn s.subset q⟩ := by
    rw [el]
    show (match s.subset.trim q with | .ok t' => t' | .error _ => s.subset) = _
    rw [lut_trim_box h.time hq]
  have htw : lutRows (boxPoints q) (rangeOf s.subset q) (lutIn s.subset q) = lutIn s.subset q := lutRows_twice _ _ _ _ (fun _ _ h => h)
  have hval : ∃ v, Lut.getValue (coverage q) (boxPoints q) (rangeOf s.subset q) agg false (lutIn s.subset q) = .ok v ∧
      LutStatistic agg (lutIn s.subset q) v := by
    obtain ⟨⟨lo, a1, a2⟩, ⟨hi, b1, b2⟩, c1⟩ := C59_extremes (coverage q) (boxPoints q) (rangeOf s.subset q) false (lutIn s.subset q)
    rw [htw] at a2 b2 c1
    cases agg with
    | min => exact ⟨lo, a1, a2⟩
    | max => exact ⟨hi, b1, b2⟩
    | count => exact ⟨_, c1, rfl⟩
    | mean =>
      obtain ⟨hv, hc⟩ := hm rfl
      by_cases hn : lutIn s.subset q = []
      · refine ⟨none, ?_, Or.inl ⟨hn, rfl⟩⟩
        unfold Lut.getValue
        rw [lut_trim_eq, htw, hn]
        rfl
      · have hv' : ∀ r ∈ lutRows (boxPoints q) (rangeOf s.subset q) (lutIn s.subset q), r.value = some (r.value.getD 0) := by
          intro r hr
          rw [htw] at hr
          have := hv r (List.mem_of_mem_filter hr)
          cases hrv : r.value with
          | none => exact absurd hrv this
          | some x => rfl
        have := mean_plain (coverage q) (boxPoints q) (rangeOf s.subset q) false (lutIn s.subset q) (fun r => r.value.getD 0) hv'
          (by rw [htw]; exact hn) (by rw [htw]; exact hc q _ (by simpa using hn))
        rw [htw] at this
        refine ⟨_, this, Or.inr ⟨hn, _, rfl, ?_⟩⟩
        have hl : ((lutIn s.subset q).length : ℚ) ≠ 0 := by
          simpa using hn
        field_simp
  obtain ⟨v, h1, h2⟩ := hval
  refine ⟨v, ?_, h2⟩
  rw [ht, el]
  show (LutTable.limits q ⟨s.subset.timed, lutIn s.subset q⟩ >>= fun time =>
    Lut.getValue (coverage q) (Lut.cellPoints q) time agg false (lutIn s.subset q) >>= fun v => pure [(name, Val.num v)]) = _
  rw [limits_range (t := ⟨s.subset.timed, lutIn s.subset q⟩) h.time hq.2.2.2, cellPoints_box hq.2.1]
  have hr : rangeOf ⟨s.subset.timed, lutIn s.subset q⟩ q = rangeOf s.subset q := rfl
  simp only [bind, Except.bind, hr, h1]
  rfl

theorem lut_valued {b : Boundary} {s : Source LutTable Lut.Conds} (h : PlainLut b s) :
    ∃ value, Valued b s value ∧ ∀ q, Inner b q → Gives q (.ofLut s) (value q) := by
  obtain ⟨coverage, id, name, agg, e, hn, hm⟩ := h.loader
  have hname : s.loader.dataName = name := by rw [e]; rfl
  have key : ∀ q, ∃ v, Inner b q → s.loader.getValue q (s.loader.trim q s.subset) = .ok [(name, .num v)] ∧
      LutStatistic agg (lutIn s.subset q) v := by
    intro q
    by_cases hq : Inner b q
    · obtain ⟨v, hv⟩ := lut_statistic h hq e hm
      exact ⟨v, fun _ => hv⟩
    · exact ⟨none, fun h => absurd h hq⟩
  choose v hv using key
  refine ⟨fun q _ => v q, ⟨?_, ?_, ?_, ?_⟩, fun q hq => .lut e (hv q hq).2⟩
  · rw [hname, splitName_single hn]; simp
  · intro q d D hD
    rw [e] at hD
    change (d.limits q >>= fun time => Lut.getValue (coverage q) (Lut.cellPoints q) time agg false d.rows >>= fun v =>
      pure [(name, Val.num v)]) = _ at hD
    cases hx : d.limits q with
    | error _ => rw [hx] at hD; cases hD
    | ok t =>
      rw [hx] at hD
      simp only [bind, Except.bind] at hD
      cases hy : Lut.getValue (coverage q) (Lut.cellPoints q) t agg false d.rows with
      | error _ => rw [hy] at hD; cases hD
      | ok x => rw [hy] at hD; cases hD; simp
  · intro q hq
    refine ⟨_, (hv q hq).1, ?_, ?_⟩
    · rw [hname, splitName_single hn]; simp [Dict.get?]
    · rw [hname, splitName_single hn]
      intro n hne
      rw [List.mem_singleton] at hne
      simp [Dict.get?, Ne.symm hne]
  · rcases h.fill with h | h
    · exact Or.inl h
    · exact Or.inr ⟨by rw [hname]; exact hn, h⟩

/-! ## All together -/

theorem any_faithful {b : Boundary} {s : Source AnyData AnyCond} (h : PlainAny b s) : Faithful b s (ownVerdict s) := by
  cases h with
  | scalar h =>
    obtain ⟨id, name, agg, minDp, e, -, -⟩ := h.loader
    exact Faithful.own (wrap_faithful (by intro _; rfl) (by intro _; rfl) (scalar_faithful h e))
  | vector h => exact Faithful.own (wrap_faithful (by intro _; rfl) (by intro _; rfl) (vector_faithful h))
  | lut h => exact Faithful.own (wrap_faithful (by intro _; rfl) (by intro _; rfl) (lut_faithful h))

theorem any_valued {b : Boundary} {s : Source AnyData AnyCond} (h : PlainAny b s) :
    ∃ value, Valued b s value ∧ ∀ q, Inner b q → Gives q s (value q) := by
  cases h with
  | scalar h =>
    obtain ⟨v, h1, h2⟩ := scalar_valued h
    exact ⟨v, wrap_valued (by intro _; rfl) h1, h2⟩
  | vector h =>
    obtain ⟨v, h1, h2⟩ := vector_valued h
    exact ⟨v, wrap_valued (by intro _; rfl) h1, h2⟩
  | lut h =>
    obtain ⟨v, h1, h2⟩ := lut_valued h
    exact ⟨v, wrap_valued (by intro _; rfl) h1, h2⟩

theorem scalar_verdict {b q : Boundary} {s : Source (Dataset (Option ℚ)) Cond} (h : PlainScalar b s) {id name agg minDp}
    (e : s.loader = scalarLoader id name agg minDp) (hq : Inner b q) {c : Cond} (hc : c ∈ s.conds) :
    (ownVerdict s q c = .het ↔ minDp ≤ (rowsIn s.subset q).length ∧ c.lower < fractionOver c.threshold ((rowsIn s.subset q).map Row.val) ∧
      fractionOver c.threshold ((rowsIn s.subset q).map Row.val) < c.upper) ∧
    (¬ (ownVerdict s q c = .clr ∨ ownVerdict s q c = .het) ↔ c.splitLock = true ∧ minDp ≤ (rowsIn s.subset q).length ∧
      c.lower < fractionOver c.threshold ((rowsIn s.subset q).map Row.val) ∧ c.upper ≤ fractionOver c.threshold ((rowsIn s.subset q).map Row.val)) := by
  have hv : ownVerdict s q c = homCondition minDp c ((rowsIn s.subset q).map Row.val) := by
    unfold ownVerdict
    rw [(scalar_faithful h e).decides q hq c hc]
  rw [hv]
  obtain ⟨d1, d2, -⟩ := C27_decision minDp c ((rowsIn s.subset q).map Row.val)
  rw [List.length_map] at d1 d2
  rcases Nat.lt_or_ge (rowsIn s.subset q).length minDp with h | h
  · rw [d1 h]
    exact ⟨⟨fun h => (by cases h), fun h' => absurd h'.1 (by omega)⟩, fun h => absurd (Or.inl rfl) h, fun h' => absurd h'.2.1 (by omega)⟩
  · obtain ⟨-, -, k1, k2, k3⟩ := d2 h
    rcases le_or_gt (fractionOver c.threshold ((rowsIn s.subset q).map Row.val)) c.lower with h1 | h1
    · rw [k1 h1]
      exact ⟨⟨fun h => (by cases h), fun h' => absurd h'.2.1 (not_lt.2 h1)⟩, fun h => absurd (Or.inl rfl) h, fun h' => absurd h'.2.2.1 (not_lt.2 h1)⟩
    · rcases le_or_gt c.upper (fractionOver c.threshold ((rowsIn s.subset q).map Row.val)) with h2 | h2
      · rw [k2 h1 h2]
        refine ⟨⟨fun h => ?_, fun h' => absurd h'.2.2 (not_lt.2 h2)⟩, ?_⟩
        · split at h <;> cases h
        · cases hl : c.splitLock
          · simp
          · simp [h, h1, h2]
      · rw [k3 h1 h2]
        exact ⟨⟨fun _ => ⟨h, h1, h2⟩, fun _ => rfl⟩, fun h => absurd (Or.inr rfl) h, fun h' => absurd h'.2.2.2 (not_le.2 h2)⟩

theorem meanVec_exists {l : List Vec} (h : complete l ≠ []) : ∃ a, IsMeanVec l a := by
  obtain ⟨p, hp⟩ := List.exists_mem_of_ne_nil _ h
  have hm := mem_complete.1 hp
  have h1 : (l.filterMap Prod.fst) ≠ [] := List.ne_nil_of_mem (List.mem_filterMap.2 ⟨_, hm, rfl⟩)
  have h2 : (l.filterMap Prod.snd) ≠ [] := List.ne_nil_of_mem (List.mem_filterMap.2 ⟨_, hm, rfl⟩)
  have h1' : ((l.filterMap Prod.fst).length : ℚ) ≠ 0 := by simpa using h1
  have h2' : ((l.filterMap Prod.snd).length : ℚ) ≠ 0 := by simpa using h2
  exact ⟨((l.filterMap Prod.fst).sum / (l.filterMap Prod.fst).length, (l.filterMap Prod.snd).sum / (l.filterMap Prod.snd).length),
    div_mul_cancel₀ _ h1', div_mul_cancel₀ _ h2'⟩

theorem vector_verdict {b q : Boundary} {s : Source (Dataset Vec) VectorHom.Conds} (h : PlainVector b s) {id name agg minDp}
    (e : s.loader = vectorLoader id name agg (fun b c _ => VectorHom.hom minDp c b s.subset)) (hq : Inner b q) {c : Cond}
    (hc : ⟨none, some c⟩ ∈ s.conds) :
    (ownVerdict s q ⟨none, some c⟩ = .het ↔ minDp ≤ (rowsIn s.subset q).length ∧ complete ((rowsIn s.subset q).map Row.val) ≠ [] ∧
      ∃ a, IsMeanVec ((rowsIn s.subset q).map Row.val) a ∧
        c.lower < share (fun v => (c.threshold : ℝ) < distance v a) (complete ((rowsIn s.subset q).map Row.val)) ∧
        share (fun v => (c.threshold : ℝ) < distance v a) (complete ((rowsIn s.subset q).map Row.val)) < c.upper) ∧
    (¬ (ownVerdict s q ⟨none, some c⟩ = .clr ∨ ownVerdict s q ⟨none, some c⟩ = .het) ↔ c.splitLock = true ∧
      minDp ≤ (rowsIn s.subset q).length ∧ complete ((rowsIn s.subset q).map Row.val) ≠ [] ∧ ∃ a, IsMeanVec ((rowsIn s.subset q).map Row.val) a ∧
        c.lower < share (fun v => (c.threshold : ℝ) < distance v a) (complete ((rowsIn s.subset q).map Row.val)) ∧
        c.upper ≤ share (fun v => (c.threshold : ℝ) < distance v a) (complete ((rowsIn s.subset q).map Row.val))) := by
  obtain ⟨d0, h0⟩ := h.time
  obtain ⟨d', e1, e2⟩ := rowsIn_trim h.sorted hq.2.1 hq.2.2.2 h0
  have hcond := h.conds _ hc
  cases hd : s.subset with
  | grid g => rw [hd] at hcond; exact hcond.elim
  | table t =>
    have hv : ∀ v, VectorHom.hom minDp ⟨none, some c⟩ q (.table t) = .ok v → ownVerdict s q ⟨none, some c⟩ = v := by
      intro v hv
      have : s.loader.homCond q ⟨none, some c⟩ (s.loader.trim q s.subset) = .ok v := by rw [e, hd]; exact hv
      unfold ownVerdict
      rw [this]
    rw [hd] at e1 e2
    obtain ⟨t', ht', rfl⟩ : ∃ t', t.trim q = .ok t' ∧ d' = .table t' := by
      cases ht : t.trim q with
      | error x => simp only [Dataset.trim, ht, bind, Except.bind] at e1; cases e1
      | ok t' => simp only [Dataset.trim, ht, bind, Except.bind, pure, Except.pure] at e1; cases e1; exact ⟨t', rfl, rfl⟩
    have hr : t'.rows = rowsIn (.table t) q := e2
    obtain ⟨k1, k2⟩ := C73_dmag (minDp := minDp) (c := c) ht'
    rw [hr] at k1 k2
    by_cases hn : minDp ≤ (rowsIn (.table t) q).length ∧ complete ((rowsIn (.table t) q).map Row.val) ≠ []
    · obtain ⟨a, ha⟩ := meanVec_exists hn.2
      rw [hv _ (k2 hn.1 hn.2 a ha)]
      constructor
      · constructor
        · intro h
          refine ⟨hn.1, hn.2, a, ha, ?_⟩
          unfold verdictOf at h
          split at h
          · cases h
          · split at h
            · exact ⟨not_le.1 ‹_›, ‹_›⟩
            · split at h <;> cases h
        · rintro ⟨-, -, a', ha', h1, h2⟩
          have : VectorHom.hom minDp ⟨none, some c⟩ q (.table t) = _ := k2 hn.1 hn.2 a' ha'
          have h3 : VectorHom.hom minDp ⟨none, some c⟩ q (.table t) = _ := k2 hn.1 hn.2 a ha
          rw [h3] at this
          injection this with this
          rw [this]
          unfold verdictOf
          rw [if_neg (not_le.2 h1), if_pos h2]
      · constructor
        · intro h
          unfold verdictOf at h
          split at h
          · exact absurd (Or.inl rfl) h
          · split at h
            · exact absurd (Or.inr rfl) h
            · rename_i g1 g2
              cases hl : c.splitLock
              · rw [hl] at h; exact absurd (Or.inl rfl) h
              · exact ⟨rfl, hn.1, hn.2, a, ha, not_le.1 g1, not_lt.1 g2⟩
        · rintro ⟨hl, -, -, a', ha', h1, h2⟩
          have : VectorHom.hom minDp ⟨none, some c⟩ q (.table t) = _ := k2 hn.1 hn.2 a' ha'
          have h3 : VectorHom.hom minDp ⟨none, some c⟩ q (.table t) = _ := k2 hn.1 hn.2 a ha
          rw [h3] at this
          injection this with this
          rw [this]
          unfold verdictOf
          rw [if_neg (not_le.2 h1), if_neg (not_lt.2 h2), hl]
          simp
    · rw [hv .clr (k1 (by
        by_cases h1 : complete ((rowsIn (.table t) q).map Row.val) = []
        · exact Or.inr h1
        · left
          by_contra h2
          exact hn ⟨by omega, h1⟩))]
      exact ⟨⟨fun h => (by cases h), fun h' => absurd ⟨h'.1, h'.2.1⟩ hn⟩, fun h => absurd (Or.inl rfl) h, fun h' => absurd ⟨h'.2.1, h'.2.2.1⟩ hn⟩

theorem wrap_inj {put : S → S'} {get : S' → Option S} {putC : C → C'} {getC : C' → Option C} (hg : ∀ d, get (put d) = some d)
    (hc : ∀ c, getC (putC c) = some c) {s t : Source S C} (h : s.wrap put get putC getC = t.wrap put get putC getC) : s = t := by
  have hput : ∀ {x y}, put x = put y → x = y := by
    intro x y h
    have := congrArg get h
    rw [hg, hg] at this
    exact Option.some.inj this
  have hputC : Function.Injective putC := by
    intro x y h
    have := congrArg getC h
    rw [hc, hc] at this
    exact Option.some.inj this
  have hl := congrArg Source.loader h
  obtain ⟨⟨i, n, tr, gv, hom⟩, cs, f, d⟩ := s
  obtain ⟨⟨i', n', tr', gv', hom'⟩, cs', f', d'⟩ := t
  have e1 : i = i' := congrArg Loader.id hl
  have e2 : n = n' := congrArg Loader.dataName hl
  have e3 : tr = tr' := by
    funext q x
    have := congrFun (congrFun (congrArg Loader.trim hl) q) (put x)
    simp only [Source.wrap, hg] at this
    exact hput this
  have e4 : gv = gv' := by
    funext q x
    have := congrFun (congrFun (congrArg Loader.getValue hl) q) (put x)
    simpa only [Source.wrap, hg] using this
  have e5 : hom = hom' := by
    funext q c x
    have := congrFun (congrFun (congrFun (congrArg Loader.homCond hl) q) (putC c)) (put x)
    simpa only [Source.wrap, hg, hc] using this
  have e6 : cs = cs' := List.map_injective_iff.2 hputC (congrArg Source.conds h)
  have e7 : f = f' := congrArg Source.fill h
  have e8 : d = d' := hput (congrArg Source.subset h)
  subst e1 e2 e3 e4 e5 e6 e7 e8
  rfl

theorem ofScalar_inj {s t} (h : Source.ofScalar s = Source.ofScalar t) : s = t := wrap_inj (by intro _; rfl) (by intro _; rfl) h
theorem ofVector_inj {s t} (h : Source.ofVector s = Source.ofVector t) : s = t := wrap_inj (by intro _; rfl) (by intro _; rfl) h
theorem ofLut_inj {s t} (h : Source.ofLut s = Source.ofLut t) : s = t := wrap_inj (by intro _; rfl) (by intro _; rfl) h

theorem Spec.Decided.distances {s : Source (Dataset Vec) VectorHom.Conds} (h : Decided (.ofVector s)) : ∀ c ∈ s.conds, ∃ d, c = ⟨none, some d⟩ := by
  generalize hS : Source.ofVector s = S at h
  cases h with
  | vector h => rw [ofVector_inj hS]; exact h
  | scalar => exact absurd (congrArg Source.subset hS) (by intro h; cases h)
  | lut => exact absurd (congrArg Source.subset hS) (by intro h; cases h)

/-- What finds a box inhomogeneous. -/
theorem any_uneven {b q : Boundary} {s : Source AnyData AnyCond} (h : PlainAny b s) (hd : Decided s) (hq : Inner b q) :
    (∃ c ∈ s.conds, ownVerdict s q c = .het) ↔ Uneven q s := by
  cases h with
  | @scalar s h =>
    obtain ⟨id, name, agg, minDp, e, -, -⟩ := h.loader
    have hw : ∀ c, ownVerdict (Source.ofScalar s) q (.scalar c) = ownVerdict s q c := ownVerdict_wrap (fun _ => rfl) (fun _ => rfl) s q
    constructor
    · rintro ⟨c', hc', hv⟩
      obtain ⟨c, hc, rfl⟩ := List.mem_map.1 hc'
      rw [hw] at hv
      obtain ⟨h1, h2, h3⟩ := (scalar_verdict h e hq hc).1.1 hv
      exact .scalar e hc h1 h2 h3
    · intro hu
      generalize hS : Source.ofScalar s = S at hu
      cases hu with
      | scalar e' hc h1 h2 h3 =>
        have := ofScalar_inj hS
        subst this
        exact ⟨_, List.mem_map.2 ⟨_, hc, rfl⟩, by rw [hw]; exact (scalar_verdict h e' hq hc).1.2 ⟨h1, h2, h3⟩⟩
      | vector => exact absurd (congrArg Source.subset hS) (by intro h; cases h)
      | lut => exact absurd (congrArg Source.subset hS) (by intro h; cases h)
  | @vector s h =>
    obtain ⟨id, name, agg, minDp, x, y, e, -⟩ := h.loader
    have hw : ∀ c, ownVerdict (Source.ofVector s) q (.vector c) = ownVerdict s q c := ownVerdict_wrap (fun _ => rfl) (fun _ => rfl) s q
    have hdist := hd.distances
    constructor
    · rintro ⟨c', hc', hv⟩
      obtain ⟨c, hc, rfl⟩ := List.mem_map.1 hc'
      rw [hw] at hv
      obtain ⟨d, rfl⟩ := hdist c hc
      obtain ⟨h1, h2, a, h3, h4, h5⟩ := (vector_verdict h e hq hc).1.1 hv
      exact .vector e hc h1 h2 h3 h4 h5
    · intro hu
      generalize hS : Source.ofVector s = S at hu
      cases hu with
      | vector e' hc h1 h2 h3 h4 h5 =>
        have := ofVector_inj hS
        subst this
        exact ⟨_, List.mem_map.2 ⟨_, hc, rfl⟩, by rw [hw]; exact (vector_verdict h e' hq hc).1.2 ⟨h1, h2, _, h3, h4, h5⟩⟩
      | scalar => exact absurd (congrArg Source.subset hS) (by intro h; cases h)
      | lut => exact absurd (congrArg Source.subset hS) (by intro h; cases h)
  | @lut s h =>
    have hw : ∀ c, ownVerdict (Source.ofLut s) q (.lut c) = ownVerdict s q c := ownVerdict_wrap (fun _ => rfl) (fun _ => rfl) s q
    constructor
    · rintro ⟨c', hc', hv⟩
      obtain ⟨c, hc, rfl⟩ := List.mem_map.1 hc'
      rw [hw] at hv
      obtain ⟨e, l, rfl⟩ := h.conds c hc
      obtain ⟨rfl, h1⟩ := (lut_verdict h hq e l).1.1 hv
      exact .lut hc h1
    · intro hu
      generalize hS : Source.ofLut s = S at hu
      cases hu with
      | lut hc h1 =>
        have := ofLut_inj hS
        subst this
        obtain ⟨e, l, hel⟩ := h.conds _ hc
        cases hel
        exact ⟨_, List.mem_map.2 ⟨_, hc, rfl⟩, by rw [hw]; exact (lut_verdict h hq true _).1.2 ⟨rfl, h1⟩⟩
      | scalar => exact absurd (congrArg Source.subset hS) (by intro h; cases h)
      | vector => exact absurd (congrArg Source.subset hS) (by intro h; cases h)

/-- What prevents splitting a box. -/
theorem any_locks {b q : Boundary} {s : Source AnyData AnyCond} (h : PlainAny b s) (hd : Decided s) (hq : Inner b q) :
    (∃ c ∈ s.conds, ¬ (ownVerdict s q c = .clr ∨ ownVerdict s q c = .het)) ↔ Locks q s := by
  cases h with
  | @scalar s h =>
    obtain ⟨id, name, agg, minDp, e, -, -⟩ := h.loader
    have hw : ∀ c, ownVerdict (Source.ofScalar s) q (.scalar c) = ownVerdict s q c := ownVerdict_wrap (fun _ => rfl) (fun _ => rfl) s q
    constructor
    · rintro ⟨c', hc', hv⟩
      obtain ⟨c, hc, rfl⟩ := List.mem_map.1 hc'
      rw [hw] at hv
      obtain ⟨h0, h1, h2, h3⟩ := (scalar_verdict h e hq hc).2.1 hv
      exact .scalar e hc h0 h1 h2 h3
    · intro hu
      generalize hS : Source.ofScalar s = S at hu
      cases hu with
      | scalar e' hc h0 h1 h2 h3 =>
        have := ofScalar_inj hS
        subst this
        exact ⟨_, List.mem_map.2 ⟨_, hc, rfl⟩, by rw [hw]; exact (scalar_verdict h e' hq hc).2.2 ⟨h0, h1, h2, h3⟩⟩
      | vector => exact absurd (congrArg Source.subset hS) (by intro h; cases h)
      | lut => exact absurd (congrArg Source.subset hS) (by intro h; cases h)
  | @vector s h =>
    obtain ⟨id, name, agg, minDp, x, y, e, -⟩ := h.loader
    have hw : ∀ c, ownVerdict (Source.ofVector s) q (.vector c) = ownVerdict s q c := ownVerdict_wrap (fun _ => rfl) (fun _ => rfl) s q
    have hdist := hd.distances
    constructor
    · rintro ⟨c', hc', hv⟩
      obtain ⟨c, hc, rfl⟩ := List.mem_map.1 hc'
      rw [hw] at hv
      obtain ⟨d, rfl⟩ := hdist c hc
      obtain ⟨h0, h1, h2, a, h3, h4, h5⟩ := (vector_verdict h e hq hc).2.1 hv
      exact .vector e hc h0 h1 h2 h3 h4 h5
    · intro hu
      generalize hS : Source.ofVector s = S at hu
      cases hu with
      | vector e' hc h0 h1 h2 h3 h4 h5 =>
        have := ofVector_inj hS
        subst this
        exact ⟨_, List.mem_map.2 ⟨_, hc, rfl⟩, by rw [hw]; exact (vector_verdict h e' hq hc).2.2 ⟨h0, h1, h2, _, h3, h4, h5⟩⟩
      | scalar => exact absurd (congrArg Source.subset hS) (by intro h; cases h)
      | lut => exact absurd (congrArg Source.subset hS) (by intro h; cases h)
  | @lut s h =>
    have hw : ∀ c, ownVerdict (Source.ofLut s) q (.lut c) = ownVerdict s q c := ownVerdict_wrap (fun _ => rfl) (fun _ => rfl) s q
    constructor
    · rintro ⟨c', hc', hv⟩
      obtain ⟨c, hc, rfl⟩ := List.mem_map.1 hc'
      rw [hw] at hv
      obtain ⟨e, l, rfl⟩ := h.conds c hc
      have hnm := (lut_verdict h hq e l).2.2
      have hh : ownVerdict s q ⟨some e, some l⟩ = .hom := by
        cases hvv : ownVerdict s q ⟨some e, some l⟩ <;> simp_all
      obtain ⟨rfl, h1⟩ := (lut_verdict h hq e l).2.1.1 hh
      exact .lut hc h1
    · intro hu
      generalize hS : Source.ofLut s = S at hu
      cases hu with
      | lut hc h1 =>
        have := ofLut_inj hS
        subst this
        obtain ⟨e, l, hel⟩ := h.conds _ hc
        cases hel
        refine ⟨_, List.mem_map.2 ⟨_, hc, rfl⟩, ?_⟩
        rw [hw, (lut_verdict h hq _ true).2.1.2 ⟨rfl, h1⟩]
        simp
      | scalar => exact absurd (congrArg Source.subset hS) (by intro h; cases h)
      | vector => exact absurd (congrArg Source.subset hS) (by intro h; cases h)

theorem Spec.Unlocked.decided {s : Source AnyData AnyCond} (h : Unlocked s) : Decided s := by
  cases h with
  | scalar _ => exact .scalar
  | vector h => exact .vector (fun c hc => by obtain ⟨d, e, -⟩ := h c hc; exact ⟨d, e⟩)
  | lut _ => exact .lut

theorem Spec.Unlocked.not_locks {s : Source AnyData AnyCond} (h : Unlocked s) {q : Boundary} : ¬ Locks q s := by
  intro hl
  cases h with
  | @scalar s h =>
    generalize hS : Source.ofScalar s = S at hl
    cases hl with
    | scalar _ hc h0 => rw [ofScalar_inj hS] at h; rw [h _ hc] at h0; cases h0
    | vector => exact absurd (congrArg Source.subset hS) (by intro h; cases h)
    | lut => exact absurd (congrArg Source.subset hS) (by intro h; cases h)
  | @vector s h =>
    generalize hS : Source.ofVector s = S at hl
    cases hl with
    | vector _ hc h0 =>
      rw [ofVector_inj hS] at h
      obtain ⟨d, e, hd⟩ := h _ hc
      cases e
      rw [hd] at h0
      cases h0
    | scalar => exact absurd (congrArg Source.subset hS) (by intro h; cases h)
    | lut => exact absurd (congrArg Source.subset hS) (by intro h; cases h)
  | @lut s h =>
    generalize hS : Source.ofLut s = S at hl
    cases hl with
    | lut hc => rw [ofLut_inj hS] at h; have := h _ hc; cases this
    | scalar => exact absurd (congrArg Source.subset hS) (by intro h; cases h)
    | vector => exact absurd (congrArg Source.subset hS) (by intro h; cases h)

/-- What unlocked sources decide. -/
theorem any_verdict {b q : Boundary} {s : Source AnyData AnyCond} (h : PlainAny b s) (hl : Unlocked s) (hq : Inner b q) :
    ((∃ c ∈ s.conds, ownVerdict s q c = .het) ↔ Uneven q s) ∧ ∀ c ∈ s.conds, ownVerdict s q c = .clr ∨ ownVerdict s q c = .het := by
  refine ⟨any_uneven h hl.decided hq, ?_⟩
  intro c hc
  by_contra hv
  exact hl.not_locks ((any_locks h hl.decided hq).1 ⟨c, hc, hv⟩)

theorem refined_congr {b : Boundary} {W H : ℚ} (hp : ProperGrid b W H) (hcr : b.longMin < b.longMax) {wants wants' : Boundary → Prop}
    (h : ∀ q, Inner b q → (wants q ↔ wants' q)) {sd k : ℕ} {q : Boundary} (hr : Refined wants (GridBox b W H) sd k q) :
    Refined wants' (GridBox b W H) sd k q ∧ Inner b q := by
  induction hr with
  | start hq => exact ⟨.start hq, gridBox_proper hp hcr hq⟩
  | quarter _ hk hw hq ih => exact ⟨.quarter ih.1 hk ((h _ ih.2).1 hw) hq, (inner_quarter ih.2 hq).trans ih.2⟩

theorem lineage_inner {b : Boundary} {W H : ℚ} (hp : ProperGrid b W H) (hcr : b.longMin < b.longMax) {l : List Boundary}
    (h : Lineage (GridBox b W H) l) : ∀ q ∈ l, Inner b q := by
  induction h with
  | root hq => intro q hm; rw [List.mem_singleton] at hm; subst hm; exact gridBox_proper hp hcr hq
  | @quarter q p t _ hq ih =>
    have hpi := ih p (by simp)
    intro r hr
    rcases List.mem_cons.1 hr with rfl | hr
    · exact (inner_quarter hpi hq).trans hpi
    · exact ih r hr

/-- **C110**: from sources of the three kinds in any number and order a mesh is built without raising.  The values of every cell: each
source gives the statistic of the data in the box of the cell; where there is none, the first one found going up through the boxes it was
split from, or the constant of the source; sources later in the list give a name only if it is missing, except that vector sources
replace it. -/
theorem C110_values {b : Boundary} {W H : ℚ} {full : List (Source AnyData AnyCond)} (hf : ∀ s ∈ full, PlainAny b s)
    (hid : (full.map (fun s => s.loader.id)).Nodup)
    (config : MeshConfig) (hp : ProperGrid b W H) (hcr : b.longMin < b.longMax) (hh : b.latMin < b.latMax)
    (hcol : b.longMin = -180 ∧ b.longMax = 180 → W ≤ 180) (hacc : MeshBuilder.validateBounds b W H = .ok ()) (depth : ℕ) :
    ∃ value : Source AnyData AnyCond → Boundary → String → Option ℚ, (∀ s ∈ full, ∀ q, Inner b q → Gives q s (value s q)) ∧
    ∃ m0, MeshBuilder.init b W H (fun q => trimSources q full) depth = .ok m0 ∧ ∃ N em, BuiltOK b W H depth em ∧ em.config = config ∧
      (∀ fuel, N ≤ fuel → MeshBuilder.buildEnvironmentalMesh (sourceOps AnyData AnyCond) aggregate fuel config m0 = .ok em) ∧
      ∀ c ∈ em.cells, ∃ anc, (∀ q ∈ c.bounds :: anc, Inner b q) ∧ Lineage (GridBox b W H) (c.bounds :: anc) ∧ ∃ w : Source AnyData AnyCond → String → Option ℚ,
        (∀ s ∈ full, ∀ n ∈ splitName s.loader.dataName, Filled (fun q => value s q n) s.fill c.bounds anc (w s n)) ∧ ∀ n,
        ((∀ s ∈ full, n ∉ splitName s.loader.dataName) → c.data.get? n = none) ∧
        ((∃ s ∈ full, n ∈ splitName s.loader.dataName) → ∃ v, c.data.get? n = some (.num v) ∧
          Merged (fun s : Source AnyData AnyCond => ',' ∈ s.loader.dataName.toList) (fun s => w s n)
            (full.filter (fun s => decide (n ∈ splitName s.loader.dataName))) v) := by
  have hex : ∀ s : Source AnyData AnyCond, ∃ value : Boundary → String → Option ℚ, s ∈ full →
      Valued b s value ∧ ∀ q, Inner b q → Gives q s (value q) := by
    intro s
    by_cases hs : s ∈ full
    · obtain ⟨v, hv⟩ := any_valued (hf s hs)
      exact ⟨v, fun _ => hv⟩
    · exact ⟨fun _ _ => none, fun h => absurd h hs⟩
  choose value hvalue using hex
  obtain ⟨m0, h0, N, em, h1, h2, h3, -, h4⟩ := faithful_plain (fun s hs => any_faithful (hf s hs)) (fun s hs => (hvalue s hs).1) hid config hp hcr
    hh hcol hacc depth
  refine ⟨value, fun s hs => (hvalue s hs).2, m0, h0, N, em, h1, h2, h3, fun c hc => ?_⟩
  obtain ⟨anc, ha, hrest⟩ := h4 c hc
  exact ⟨anc, lineage_inner hp hcr ha, ha, hrest⟩

/-- **C110**, the cells: without locks the boxes of the built mesh are those of refining the cells of the grid wherever some source is
uneven, down to the depth. -/
theorem C110_cells {b : Boundary} {W H : ℚ} {full : List (Source AnyData AnyCond)} (hf : ∀ s ∈ full, PlainAny b s)
    (hid : (full.map (fun s => s.loader.id)).Nodup) (hlock : ∀ s ∈ full, Unlocked s)
    (config : MeshConfig) (hp : ProperGrid b W H) (hcr : b.longMin < b.longMax) (hh : b.latMin < b.latMax)
    (hcol : b.longMin = -180 ∧ b.longMax = 180 → W ≤ 180) (hacc : MeshBuilder.validateBounds b W H = .ok ()) (depth : ℕ) :
    ∃ m0, MeshBuilder.init b W H (fun q => trimSources q full) depth = .ok m0 ∧ ∃ N em,
      (∀ fuel, N ≤ fuel → MeshBuilder.buildEnvironmentalMesh (sourceOps AnyData AnyCond) aggregate fuel config m0 = .ok em) ∧
      ∀ q, (∃ c ∈ em.cells, c.bounds = q) ↔
        ∃ k, Refined (fun q => ∃ s ∈ full, Uneven q s) (GridBox b W H) depth k q ∧ (k = depth ∨ ¬ ∃ s ∈ full, Uneven q s) := by
  have hex : ∀ s : Source AnyData AnyCond, ∃ value : Boundary → String → Option ℚ, s ∈ full → Valued b s value := by
    intro s
    by_cases hs : s ∈ full
    · obtain ⟨v, hv⟩ := any_valued (hf s hs)
      exact ⟨v, fun _ => hv.1⟩
    · exact ⟨fun _ _ => none, fun h => absurd h hs⟩
  choose value hvalue using hex
  obtain ⟨m0, h0, N, em, -, -, h3, h4, -⟩ := faithful_plain (fun s hs => any_faithful (hf s hs)) hvalue hid config hp hcr hh hcol hacc depth
  refine ⟨m0, h0, N, em, h3, fun q => ?_⟩
  have hw : ∀ q, Inner b q → (Wants ownVerdict full q ↔ ∃ s ∈ full, Uneven q s) := by
    intro q hq
    constructor
    · rintro ⟨s, hs, h⟩
      exact ⟨s, hs, (any_verdict (hf s hs) (hlock s hs) hq).1.1 h⟩
    · rintro ⟨s, hs, h⟩
      exact ⟨s, hs, (any_verdict (hf s hs) (hlock s hs) hq).1.2 h⟩
  rw [h4 (fun s hs c hc q hq => (any_verdict (hf s hs) (hlock s hs) hq).2 c hc) q]
  constructor
  · rintro ⟨k, h1, h2⟩
    obtain ⟨h1', hi⟩ := refined_congr hp hcr hw h1
    exact ⟨k, h1', h2.imp id (fun h h' => h ((hw q hi).2 h'))⟩
  · rintro ⟨k, h1, h2⟩
    obtain ⟨h1', hi⟩ := refined_congr hp hcr (fun q hq => (hw q hq).symm) h1
    exact ⟨k, h1', h2.imp id (fun h h' => h ((hw q hi).1 h'))⟩

/-- A look-up table, a scalar source and a vector source that share a name. -/
noncomputable def exMixed : List (Source AnyData AnyCond) :=
  [.ofLut ⟨lutLoader (fun _ _ => 1) 0 "u" .mean, [⟨some true, some false⟩], .const (.num (some 0)),
    ⟨false, [⟨none, rectGeom 2 4 (-59) (-57), some 8⟩]⟩⟩,
   .ofScalar ⟨scalarLoader 1 "a" .mean 1, [⟨3, 0, 1, false⟩], .parent, .table ⟨false, [⟨-59, 1, 0, some 5⟩, ⟨-58, 1, 0, some 1⟩]⟩⟩,
   .ofVector (vectorSource 2 "u,v" .mean 1 [{ dmag := some ⟨1, 0, 1, false⟩ }] .parent
    (.table ⟨false, [⟨-52, 12, 0, (some 1, some 2)⟩, ⟨-51, 13, 0, (some 4, none)⟩]⟩))]

theorem exMixed_plain : (∀ s ∈ exMixed, PlainAny exRegion s) ∧ (exMixed.map (fun s => s.loader.id)).Nodup ∧ ∀ s ∈ exMixed, Unlocked s := by
  refine ⟨?_, by decide, ?_⟩
  · intro s hs
    simp only [exMixed, List.mem_cons, List.not_mem_nil, or_false] at hs
    rcases hs with rfl | rfl | rfl
    · refine .lut ⟨⟨_, _, _, _, rfl, by decide, fun _ => ⟨?_, fun _ _ _ => one_ne_zero⟩⟩, Or.inr ⟨_, rfl⟩, ?_, by simp, ?_⟩
      · intro r hr; rw [List.mem_singleton] at hr; subst hr; simp
      · intro r hr x y h; rw [List.mem_singleton] at hr; subst hr; exact h.1
      · intro c hc; rw [List.mem_singleton] at hc; exact ⟨_, _, hc⟩
    · exact .scalar ⟨⟨_, _, _, _, rfl, by decide, by simp⟩, Or.inl rfl, trivial, _, rfl⟩
    · refine .vector ⟨⟨_, _, _, _, "u", "v", rfl, by decide +kernel, by decide, by simp, le_rfl⟩, rfl, trivial, ⟨_, rfl⟩, ?_⟩
      intro c hc
      simp only [vectorSource, List.mem_singleton] at hc
      subst hc
      simp [vectorSource]
  · intro s hs
    simp only [exMixed, List.mem_cons, List.not_mem_nil, or_false] at hs
    rcases hs with rfl | rfl | rfl
    · exact .lut (by intro c hc; rw [List.mem_singleton] at hc; subst hc; rfl)
    · exact .scalar (by intro c hc; rw [List.mem_singleton] at hc; subst hc; rfl)
    · exact .vector (by intro c hc; simp only [vectorSource, List.mem_singleton] at hc; subst hc; exact ⟨_, rfl, rfl⟩)

/-- The hypotheses of C110 hold for them: the mesh is built, and its first cell is split, since the edge of the polygon runs through it
and since its scalar values differ. -/
example : ∃ m0, MeshBuilder.init exRegion 10 5 (fun q => trimSources q exMixed) 1 = .ok m0 ∧ ∃ N em,
    (∀ fuel, N ≤ fuel → MeshBuilder.buildEnvironmentalMesh (sourceOps AnyData AnyCond) aggregate fuel exConfig m0 = .ok em) ∧
    ¬ (∃ c ∈ em.cells, c.bounds = ⟨-60, -55, 0, 10, []⟩) ∧ ∃ c ∈ em.cells, c.bounds = ⟨-60, -115 / 2, 0, 5, []⟩ := by
  obtain ⟨h1, h2, h3⟩ := exMixed_plain
  obtain ⟨m0, h0, N, em, hb, hcells⟩ := C110_cells (W := 10) (H := 5) h1 h2 h3 exConfig exRegion_proper (by norm_num [exRegion])
    (by norm_num [exRegion]) (by norm_num [exRegion]) (by decide +kernel) 1
  have hu : ∃ s ∈ exMixed, Uneven ⟨-60, -55, 0, 10, []⟩ s := by
    refine ⟨_, List.mem_cons_self, .lut (l := some false) (by simp) ⟨_, List.mem_singleton.2 rfl, Or.inl rfl, 2, -58, ?_, ?_⟩⟩ <;>
      norm_num [rectGeom, rectPoints, rectInside, boxPoints]
  have hg : GridBox exRegion 10 5 ⟨-60, -55, 0, 10, []⟩ := ⟨0, 0, by norm_num [exRegion], by norm_num [exRegion], by norm_num [exRegion]⟩
  refine ⟨m0, h0, N, em, hb, ?_, ?_⟩
  · rw [hcells]
    rintro ⟨k, hr, hk | hk⟩
    · subst hk
      cases hr with
      | quarter hr _ _ hq =>
        cases hr with
        | start hs =>
          obtain ⟨i, j, rfl, -, -⟩ := hs
          simp only [quarters, List.mem_cons, List.not_mem_nil, or_false, Boundary.mk.injEq] at hq
          rcases hq with hq | hq | hq | hq <;> linarith [hq.1, hq.2.1]
    · exact hk hu
  · rw [hcells]
    refine ⟨1, .quarter (.start hg) (by norm_num) hu ?_, Or.inl rfl⟩
    norm_num [quarters]

end Verif
