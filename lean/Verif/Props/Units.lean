import Verif.Proof.Related

/-!
# C119: units and the order of datapoints make no difference
-/

namespace Verif
open Spec

/-! ## Specification -/

/-- A number in another unit, given by a factor and an offset. -/
def Spec.inUnit (u : ℚ × ℚ) (x : ℚ) : ℚ := u.1 * x + u.2

/-- The same data, in another unit and perhaps with its datapoints in another order. -/
def Spec.ConvertedData {V : Type} (g : V → V) (d d' : Dataset V) : Prop :=
  d'.isGrid = d.isGrid ∧ d'.hasTime = d.hasTime ∧ (d.rows.map (fun r => { r with val := g r.val })).Perm d'.rows

/-- The source `s'` is `s` with the data under each name in another unit: its values, thresholds and constants for filling are converted,
with a positive factor, and its datapoints may be in another order.  The unit can change only for the least, greatest, mean and median values.  The
units of vectors do not change; their order may for means and numbers, since among vectors of the same length the first is taken. -/
inductive Spec.Converted (unit : String → ℚ × ℚ) : Source AnyData AnyCond → Source AnyData AnyCond → Prop
  | scalar {s s' : Source (Dataset (Option ℚ)) Cond} {id name agg minDp} : s.loader = scalarLoader id name agg minDp → s'.loader = s.loader →
      0 < (unit name).1 → agg ∈ [AggType.min, .max, .mean, .median] ∨ unit name = (1, 0) →
      s'.conds = s.conds.map (fun c => { c with threshold := inUnit (unit name) c.threshold }) → s'.fill = fillIn (inUnit (unit name)) s.fill →
      ConvertedData (Option.map (inUnit (unit name))) s.subset s'.subset → Converted unit (.ofScalar s) (.ofScalar s')
  | vector {s s' : Source (Dataset Vec) VectorHom.Conds} {id name agg minDp} :
      s.loader = vectorLoader id name agg (fun b c _ => VectorHom.hom minDp c b s.subset) →
      s'.loader = vectorLoader id name agg (fun b c _ => VectorHom.hom minDp c b s'.subset) →
      (∀ n ∈ splitName name, unit n = (1, 0)) → agg = .mean ∨ agg = .count → (∀ c ∈ s.conds, ∃ d, c = ⟨none, some d⟩) → s'.conds = s.conds →
      s'.fill = s.fill → ConvertedData (fun v => v) s.subset s'.subset → Converted unit (.ofVector s) (.ofVector s')
  | same {s : Source AnyData AnyCond} : (∀ n ∈ splitName s.loader.dataName, unit n = (1, 0)) → Converted unit s s

/-! ## Statistics -/

theorem inUnit_one (x : ℚ) : inUnit (1, 0) x = x := by simp [inUnit]

theorem inUnit_lt {u : ℚ × ℚ} (h : 0 < u.1) {x y : ℚ} : inUnit u x < inUnit u y ↔ x < y := by
  simp only [inUnit]
  constructor
  · intro k; exact lt_of_mul_lt_mul_left (by linarith) h.le
  · intro k; have := mul_lt_mul_of_pos_left k h; linarith

theorem inUnit_le {u : ℚ × ℚ} (h : 0 < u.1) {x y : ℚ} : inUnit u x ≤ inUnit u y ↔ x ≤ y := by
  rw [← not_lt, ← not_lt, inUnit_lt h]

theorem present_inUnit (g : ℚ → ℚ) (vals : List (Option ℚ)) : presentValues (vals.map (Option.map g)) = (presentValues vals).map g := by
  unfold presentValues
  rw [List.filterMap_map, List.map_filterMap]
  rfl

theorem sum_inUnit (u : ℚ × ℚ) (l : List ℚ) : (l.map (inUnit u)).sum = u.1 * l.sum + u.2 * l.length := by
  induction l with
  | nil => simp
  | cons x l ih => simp only [List.map_cons, List.sum_cons, ih, List.length_cons, inUnit]; push_cast; ring

theorem median_inUnit {u : ℚ × ℚ} (h : 0 < u.1) (l : List ℚ) (x : ℚ) : IsMedian (l.map (inUnit u)) (inUnit u x) ↔ IsMedian l x := by
  unfold IsMedian
  simp only [List.length_map, List.filter_map, Function.comp_def, inUnit_le h]

theorem middle_inUnit {u : ℚ × ℚ} (h : 0 < u.1) {l : List ℚ} {v : ℚ} (hm : IsMiddle l v) : IsMiddle (l.map (inUnit u)) (inUnit u v) := by
  obtain ⟨lo, h1, hi, h2, h3, h4, h5, h6⟩ := hm
  refine ⟨inUnit u lo, List.mem_map_of_mem h1, inUnit u hi, List.mem_map_of_mem h2, (median_inUnit h l lo).2 h3, (median_inUnit h l hi).2 h4, ?_, ?_⟩
  · intro y hy
    have e : y = inUnit u ((y - u.2) / u.1) := by
      unfold inUnit
      field_simp
      ring
    rw [e] at hy ⊢
    obtain ⟨k1, k2⟩ := h5 _ ((median_inUnit h l _).1 hy)
    exact ⟨(inUnit_le h).2 k1, (inUnit_le h).2 k2⟩
  · unfold inUnit
    linear_combination u.1 * h6

theorem value_inUnit (grid : Bool) {agg : AggType} {u : ℚ × ℚ} (h : 0 < u.1) (hagg : agg ∈ [AggType.min, .max, .mean, .median] ∨ u = (1, 0))
    (vals : List (Option ℚ)) : valueOf grid agg (vals.map (Option.map (inUnit u))) = (valueOf grid agg vals).map (Option.map (inUnit u)) := by
  by_cases hu : u = (1, 0)
  · subst hu
    have e : Option.map (inUnit (1, 0)) = id := by
      funext x; cases x with
      | none => rfl
      | some x => simp [inUnit_one]
    rw [e, List.map_id]
    cases valueOf grid agg vals <;> rfl
  have hagg := hagg.resolve_right hu
  obtain ⟨k1, kmin, kmax, kmean, kmed, -⟩ := C29_values grid vals
  obtain ⟨k1', kmin', kmax', kmean', kmed', -⟩ := C29_values grid (vals.map (Option.map (inUnit u)))
  obtain ⟨r, hr, hn⟩ := k1 agg hagg
  obtain ⟨r', hr', hn'⟩ := k1' agg hagg
  have hmap := present_inUnit (inUnit u) vals
  have key : ∀ v, valueOf grid agg vals = .ok (some v) → valueOf grid agg (vals.map (Option.map (inUnit u))) = .ok (some (inUnit u v)) := by
    intro v hv
    simp only [List.mem_cons, List.not_mem_nil, or_false] at hagg
    rcases hagg with rfl | rfl | rfl | rfl
    · rw [kmin', hmap]
      obtain ⟨a1, a2⟩ := (kmin v).1 hv
      refine ⟨List.mem_map_of_mem a1, fun y hy => ?_⟩
      obtain ⟨x, hx, rfl⟩ := List.mem_map.1 hy
      exact (inUnit_le h).2 (a2 x hx)
    · rw [kmax', hmap]
      obtain ⟨a1, a2⟩ := (kmax v).1 hv
      refine ⟨List.mem_map_of_mem a1, fun y hy => ?_⟩
      obtain ⟨x, hx, rfl⟩ := List.mem_map.1 hy
      exact (inUnit_le h).2 (a2 x hx)
    · rw [kmean', hmap]
      obtain ⟨a1, a2⟩ := (kmean v).1 hv
      refine ⟨by simpa using a1, ?_⟩
      rw [List.length_map, sum_inUnit]
      unfold inUnit
      linear_combination u.1 * a2
    · rw [kmed', hmap]
      exact middle_inUnit h ((kmed v).1 hv)
  rw [hr]
  cases r with
  | none =>
    rw [hr']
    have : r' = none := by rw [hn', hmap, List.map_eq_nil_iff]; exact hn.1 rfl
    rw [this]; rfl
  | some v =>
    rw [key v hr]; rfl

/-! ## Sources -/

theorem convertedData_rowsIn {V : Type} {g : V → V} {d d' : Dataset V} (h : ConvertedData g d d') (q : Boundary) :
    (((rowsIn d q).map Row.val).map g).Perm ((rowsIn d' q).map Row.val) := by
  obtain ⟨-, ht, hp⟩ := h
  have := (hp.filter (fun r => decide (q.latMin < r.lat ∧ r.lat ≤ q.latMax ∧ q.longMin < r.long ∧ r.long ≤ q.longMax) &&
    (!d'.hasTime || during q r.time))).map Row.val
  refine List.Perm.trans (List.Perm.of_eq ?_) this
  unfold rowsIn
  rw [List.filter_map, List.map_map, List.map_map, ht]
  rfl

theorem convertedData_rowsAround {V : Type} {g : V → V} {d d' : Dataset V} (h : ConvertedData g d d') (q : Boundary) :
    (((rowsAround d q).map Row.val).map g).Perm ((rowsAround d' q).map Row.val) := by
  obtain ⟨-, ht, hp⟩ := h
  have := (hp.filter (fun r => decide (q.latMin < r.lat ∧ r.lat ≤ q.latMax ∧
    (q.longMin < r.long ∧ r.long ≤ eastEdge q ∨ q.longMin < r.long + 360 ∧ r.long + 360 ≤ eastEdge q)) && (!d'.hasTime || during q r.time))).map Row.val
  refine List.Perm.trans (List.Perm.of_eq ?_) this
  unfold rowsAround
  rw [List.filter_map, List.map_map, List.map_map, ht]
  rfl

theorem plain_scalar_get {b q : Boundary} {s : Source (Dataset (Option ℚ)) Cond} {id name agg minDp} (e : s.loader = scalarLoader id name agg minDp)
    (h : PlainScalar b s) (hq : Inner b q) : s.loader.getValue q (s.loader.trim q s.subset) =
      (valueOf s.subset.isGrid agg ((rowsIn s.subset q).map Row.val) >>= fun v => pure [(name, Val.num v)]) := by
  obtain ⟨d0, h0⟩ := h.time
  obtain ⟨d', e1, e2⟩ := rowsIn_trim h.sorted hq.2.1 hq.2.2.2 h0
  have hr : TrimsRight s.subset q := ⟨hq.1, by cases s.subset with | table t => exact hq.2.1 | grid g => exact Or.inl hq.2.1⟩
  rw [e, scalarLoader_trims id name agg minDp q _ _ e1]
  show (scalarValue agg q d' >>= fun v => pure [(name, Val.num v)]) = _
  rw [scalarValue_trim agg h.sorted hr e1, scalarValue_eq agg h.sorted (by rw [timeLimits_congr hq.2.2.2]; exact trim_time h0)]
  unfold pointsIn
  rw [e1]
  simp only [e2]

/-- Two scalar sources whose datapoints in a box are the same in other units. -/
theorem scalar_mapped {unit : String → ℚ × ℚ} {q : Boundary} {s s' : Source (Dataset (Option ℚ)) Cond} {id name agg minDp} {grid : Bool}
    {vals vals' : List (Option ℚ)} (e : s.loader = scalarLoader id name agg minDp) (e1 : s'.loader = s.loader) (hn : ',' ∉ name.toList)
    (hpos : 0 < (unit name).1) (hagg : agg ∈ [AggType.min, .max, .mean, .median] ∨ unit name = (1, 0))
    (hc : s'.conds = s.conds.map (fun c => { c with threshold := inUnit (unit name) c.threshold })) (hf : s'.fill = fillIn (inUnit (unit name)) s.fill)
    (hp : (vals.map (Option.map (inUnit (unit name)))).Perm vals')
    (hv : s.loader.getValue q (s.loader.trim q s.subset) = (valueOf grid agg vals >>= fun v => pure [(name, Val.num v)]))
    (hv' : s'.loader.getValue q (s'.loader.trim q s'.subset) = (valueOf grid agg vals' >>= fun v => pure [(name, Val.num v)]))
    (ho : ∀ c ∈ s.conds, ownVerdict s q c = homCondition minDp c vals) (ho' : ∀ c ∈ s'.conds, ownVerdict s' q c = homCondition minDp c vals') :
    MappedAt (fun n => inUnit (unit n)) q s s' := by
  have hname : s.loader.dataName = name := by rw [e]; rfl
  have hver : ∀ c ∈ s.conds, ownVerdict s' q { c with threshold := inUnit (unit name) c.threshold } = ownVerdict s q c := by
    intro c hcm
    rw [ho c hcm, ho' _ (by rw [hc]; exact List.mem_map_of_mem hcm), ← C27_order minDp _ hp]
    exact C27_scale minDp c vals _ _ hpos
  refine ⟨by rw [e1], by rw [e1], ?_, ?_, ?_, ?_⟩
  · intro n hnm
    rw [hname, splitName_single hn, List.mem_singleton] at hnm
    rw [hnm]; exact hf
  · rw [hc]
    constructor
    · rintro ⟨c, hcm, h⟩
      obtain ⟨c0, hm, rfl⟩ := List.mem_map.1 hcm
      exact ⟨c0, hm, by rw [← hver c0 hm]; exact h⟩
    · rintro ⟨c, hcm, h⟩
      exact ⟨_, List.mem_map_of_mem hcm, by rw [hver c hcm]; exact h⟩
  · rw [hc]
    constructor
    · intro h c hcm
      have := h _ (List.mem_map_of_mem hcm)
      rwa [hver c hcm] at this
    · intro h c hcm
      obtain ⟨c0, hm, rfl⟩ := List.mem_map.1 hcm
      rw [hver c0 hm]
      exact h c0 hm
  · intro D D' hD hD' n hnm
    rw [hname, splitName_single hn, List.mem_singleton] at hnm
    subst hnm
    rw [hv] at hD
    rw [hv', ← C29_order grid agg hp, value_inUnit grid hpos hagg] at hD'
    cases hx : valueOf grid agg vals with
    | error _ => rw [hx] at hD; cases hD
    | ok v =>
      rw [hx] at hD hD'
      cases hD
      cases hD'
      simp [Dict.get?, valueIn]

theorem vectorDf_perm {agg : AggType} (hagg : agg = .mean ∨ agg = .count) {l l' : List Vec} (h : l.Perm l') : vectorValueDf agg l = vectorValueDf agg l' := by
  have h1 : l = [] ↔ l' = [] := ⟨by rintro rfl; exact h.symm.eq_nil, by rintro rfl; exact h.eq_nil⟩
  have hmean : ∀ {a a' : List ℚ}, a.Perm a' → listMean a = listMean a' := by
    intro a a' h
    unfold listMean
    simp only [nil_perm_iff h, h.sum_eq, h.length_eq]
  unfold vectorValueDf
  simp only [h1]
  rcases hagg with rfl | rfl
  · simp only [xsOf, ysOf, hmean (h.filterMap Prod.fst), hmean (h.filterMap Prod.snd)]
  · simp only [h.length_eq]

theorem valueIn_id (v : Val) : valueIn (inUnit (1, 0)) v = v := by
  cases v with
  | num v => cases v <;> simp [valueIn, inUnit_one]
  | str t => rfl

theorem fillIn_id (v : Fill) : fillIn (inUnit (1, 0)) v = v := by
  cases v with
  | parent => rfl
  | const v => simp [fillIn, valueIn_id]

variable {S C : Type}

/-- Sources that do the same. -/
theorem same_mapped {unit : String → ℚ × ℚ} {q : Boundary} {s s' : Source S C} (hid : s'.loader.id = s.loader.id)
    (h : AlikeAt q q s s') (hu : ∀ n ∈ splitName s.loader.dataName, unit n = (1, 0)) : MappedAt (fun n => inUnit (unit n)) q s s' := by
  refine ⟨hid, h.name, ?_, ?_, ?_, ?_⟩
  · intro n hn; rw [hu n hn, fillIn_id, h.fill]
  · rw [h.conds]
    exact exists_congr (fun c => and_congr_right (fun hc => by rw [h.hom c hc]))
  · rw [h.conds]
    exact forall₂_congr (fun c hc => by rw [h.hom c hc])
  · intro D D' hD hD' n hn
    rw [h.value, hD] at hD'
    cases hD'
    simp only [hu n hn]
    cases D.get? n with
    | none => rfl
    | some v => simp [valueIn_id]

theorem share_perm {α : Type} {P : α → Prop} {l l' : List α} (h : l.Perm l') : share P l = share P l' := by
  unfold share
  rw [h.length_eq, (h.filter _).length_eq]

theorem meanVec_perm {l l' : List Vec} (h : l.Perm l') (a : ℚ × ℚ) : IsMeanVec l a ↔ IsMeanVec l' a := by
  unfold IsMeanVec
  rw [(h.filterMap Prod.fst).length_eq, (h.filterMap Prod.fst).sum_eq, (h.filterMap Prod.snd).length_eq, (h.filterMap Prod.snd).sum_eq]

theorem plain_vector_get {b q : Boundary} {s : Source (Dataset Vec) VectorHom.Conds} {id name agg hom} (e : s.loader = vectorLoader id name agg hom)
    (h : PlainVector b s) (hq : Inner b q) : s.loader.getValue q (s.loader.trim q s.subset) =
      (vectorOf s.subset.isGrid agg ((rowsIn s.subset q).map Row.val) >>= fun v => match splitName name with
        | [x, y] => pure [(x, .num v.1), (y, .num v.2)]
        | _ => .error .valueError) := by
  obtain ⟨d0, h0⟩ := h.time
  obtain ⟨d', e1, e2⟩ := rowsIn_trim h.sorted hq.2.1 hq.2.2.2 h0
  rw [e, vectorLoader_trims id name agg _ q _ _ e1, ← e2]
  have hg := (trim_inv h.sorted e1).symm
  cases hd : s.subset with
  | table t => rw [hd] at hg; subst hg; rfl
  | grid g => rw [hd] at hg; subst hg; rfl

theorem vector_mapped {unit : String → ℚ × ℚ} {b q : Boundary} (hq : Inner b q) {s s' : Source (Dataset Vec) VectorHom.Conds} {id name agg minDp}
    (h : PlainVector b s) (h' : PlainVector b s') (e : s.loader = vectorLoader id name agg (fun b c _ => VectorHom.hom minDp c b s.subset))
    (e' : s'.loader = vectorLoader id name agg (fun b c _ => VectorHom.hom minDp c b s'.subset)) (hu : ∀ n ∈ splitName name, unit n = (1, 0))
    (hagg : agg = .mean ∨ agg = .count) (hdec : ∀ c ∈ s.conds, ∃ d, c = ⟨none, some d⟩) (hc : s'.conds = s.conds) (hf : s'.fill = s.fill)
    (hd : ConvertedData (fun v => v) s.subset s'.subset) : MappedAt (fun n => inUnit (unit n)) q s s' := by
  have hname : s.loader.dataName = name := by rw [e]; rfl
  have hp := convertedData_rowsIn hd q
  rw [List.map_id'] at hp
  have hlen : (rowsIn s.subset q).length = (rowsIn s'.subset q).length := by simpa using hp.length_eq
  have hcomp : (complete ((rowsIn s.subset q).map Row.val)).Perm (complete ((rowsIn s'.subset q).map Row.val)) := hp.filterMap _
  have hnil : complete ((rowsIn s.subset q).map Row.val) = [] ↔ complete ((rowsIn s'.subset q).map Row.val) = [] :=
    ⟨fun h => by rw [h] at hcomp; exact hcomp.symm.eq_nil, fun h => by rw [h] at hcomp; exact hcomp.eq_nil⟩
  have hhet : ∀ c ∈ s.conds, (ownVerdict s' q c = .het ↔ ownVerdict s q c = .het) ∧
      ((ownVerdict s' q c = .clr ∨ ownVerdict s' q c = .het) ↔ (ownVerdict s q c = .clr ∨ ownVerdict s q c = .het)) := by
    intro c hcm
    obtain ⟨d, rfl⟩ := hdec c hcm
    obtain ⟨k1, k2⟩ := vector_verdict h e hq hcm
    obtain ⟨k1', k2'⟩ := vector_verdict h' e' hq (by rw [hc]; exact hcm)
    constructor
    · rw [k1, k1', hlen]
      simp only [ne_eq, hnil, meanVec_perm hp, share_perm hcomp]
    · rw [← not_iff_not, k2, k2', hlen]
      simp only [ne_eq, hnil, meanVec_perm hp, share_perm hcomp]
  refine ⟨by rw [e, e']; rfl, by rw [e, e']; rfl, ?_, ?_, ?_, ?_⟩
  · intro n hn; rw [hu n (by rwa [hname] at hn), fillIn_id, hf]
  · rw [hc]
    exact exists_congr (fun c => and_congr_right (fun hcm => (hhet c hcm).1))
  · rw [hc]
    exact forall₂_congr (fun c hcm => (hhet c hcm).2)
  · intro D D' hD hD' n hn
    rw [plain_vector_get e h hq] at hD
    have hv : vectorOf s'.subset.isGrid agg ((rowsIn s'.subset q).map Row.val) = vectorOf s.subset.isGrid agg ((rowsIn s.subset q).map Row.val) := by
      rw [hd.1]
      unfold vectorOf
      rw [vectorXr_perm hagg hp, vectorDf_perm hagg hp]
    rw [plain_vector_get e' h' hq, hv, hD] at hD'
    cases hD'
    simp only [hu n (by rwa [hname] at hn)]
    cases D.get? n with
    | none => rfl
    | some v => simp [valueIn_id]

theorem Spec.AroundAny.scalarComma {b : Boundary} {s : Source (Dataset (Option ℚ)) Cond} (h : AroundAny b (.ofScalar s)) :
    (∃ id name agg minDp, s.loader = scalarLoader id name agg minDp ∧ ',' ∉ name.toList) ∧ GridAround b s.subset := by
  generalize hS : Source.ofScalar s = S at h
  cases h with
  | scalar e hn _ _ h => rw [ofScalar_inj hS]; exact ⟨⟨_, _, _, _, e, hn⟩, h⟩
  | vector => exact absurd (congrArg Source.subset hS) (by intro h; cases h)

theorem alikeAt_refl (q : Boundary) (s : Source S C) : AlikeAt q q s s := ⟨rfl, rfl, rfl, rfl, fun _ _ => rfl⟩

theorem converted_plain {unit : String → ℚ × ℚ} {b q : Boundary} (hq : Inner b q) {s s' : Source AnyData AnyCond} (h : PlainAny b s) (h' : PlainAny b s')
    (hs : Converted unit s s') : MappedAt (fun n => inUnit (unit n)) q s s' := by
  cases hs with
  | @scalar s s' id name agg minDp e e1 hpos hagg hc hf hd =>
    have h := h.ofScalar
    have h' := h'.ofScalar
    unfold Source.ofScalar
    refine mappedAt_wrap ?_ ?_ ?_; · intro _; rfl
    · intro _; rfl
    obtain ⟨id0, name0, agg0, minDp0, e0, hn, -⟩ := h.loader
    have hn : ',' ∉ name.toList := by
      have : (scalarLoader id name agg minDp).dataName = (scalarLoader id0 name0 agg0 minDp0).dataName := by rw [← e, ← e0]
      change name = name0 at this
      rw [this]; exact hn
    have e' : s'.loader = scalarLoader id name agg minDp := by rw [e1, e]
    refine scalar_mapped e e1 hn hpos hagg hc hf (convertedData_rowsIn hd q) (plain_scalar_get e h hq) (by rw [plain_scalar_get e' h' hq, hd.1]) ?_ ?_
    · intro c hcm
      unfold ownVerdict
      rw [(scalar_faithful h e).decides q hq c hcm]
    · intro c hcm
      unfold ownVerdict
      rw [(scalar_faithful h' e').decides q hq c hcm]
  | @vector s s' id name agg minDp e e' hu hagg hdec hc hf hd =>
    unfold Source.ofVector
    refine mappedAt_wrap ?_ ?_ ?_; · intro _; rfl
    · intro _; rfl
    exact vector_mapped hq h.ofVector h'.ofVector e e' hu hagg hdec hc hf hd
  | same hu => exact same_mapped rfl (alikeAt_refl q s) hu

theorem converted_around {unit : String → ℚ × ℚ} {b q : Boundary} (hq : Around b q) {s s' : Source AnyData AnyCond} (h : AroundAny b s)
    (h' : AroundAny b s') (hs : Converted unit s s') : MappedAt (fun n => inUnit (unit n)) q s s' := by
  cases hs with
  | @scalar s s' id name agg minDp e e1 hpos hagg hc hf hd =>
    obtain ⟨⟨id0, name0, agg0, minDp0, e0, hn⟩, hg⟩ := h.scalarComma
    obtain ⟨-, hg'⟩ := h'.scalarGrid
    unfold Source.ofScalar
    refine mappedAt_wrap ?_ ?_ ?_; · intro _; rfl
    · intro _; rfl
    have hn : ',' ∉ name.toList := by
      have : (scalarLoader id name agg minDp).dataName = (scalarLoader id0 name0 agg0 minDp0).dataName := by rw [← e, ← e0]
      change name = name0 at this
      rw [this]; exact hn
    have e' : s'.loader = scalarLoader id name agg minDp := by rw [e1, e]
    refine scalar_mapped e e1 hn hpos hagg hc hf (convertedData_rowsAround hd q) (around_scalar_get e hg hq) (around_scalar_get e' hg' hq) ?_ ?_
    · intro c hcm
      unfold ownVerdict
      rw [(around_scalar_faithful e hg).decides q hq c hcm]
    · intro c hcm
      unfold ownVerdict
      rw [(around_scalar_faithful e' hg').decides q hq c hcm]
  | @vector s s' id name agg minDp e e' hu hagg hdec hc hf hd =>
    obtain ⟨hc0, hg⟩ := h.vectorGrid
    obtain ⟨-, hg'⟩ := h'.vectorGrid
    have hp := convertedData_rowsAround hd q
    rw [List.map_id'] at hp
    refine same_mapped ?_ ?_ (by intro n hn; apply hu; rwa [show (Source.ofVector s).loader.dataName = name by simp only [Source.ofVector, Source.wrap, e, vectorLoader]] at hn)
    · simp only [Source.ofVector, Source.wrap, e, e', vectorLoader]
    · unfold Source.ofVector
      refine alikeAt_wrap ?_ ?_ ?_; · intro _; rfl
      · intro _; rfl
      refine ⟨by rw [e, e']; rfl, hf, hc, ?_, ?_⟩
      · rw [around_vector_get e hg hq, around_vector_get e' hg' hq, vectorXr_perm hagg hp]
      · intro c hcm
        rw [hc0] at hcm
        cases hcm
  | same hu => exact same_mapped rfl (alikeAt_refl q s) hu

/-- Sources paired with their conversions. -/
theorem converted_pairs {unit : String → ℚ × ℚ} {full full' : List (Source AnyData AnyCond)} (h : List.Forall₂ (Converted unit) full full') :
    ∃ zs : List (Source AnyData AnyCond × Source AnyData AnyCond), zs.map Prod.fst = full ∧ zs.map Prod.snd = full' ∧
      ∀ z ∈ zs, Converted unit z.1 z.2 :=
  ⟨full.zip full', List.map_fst_zip h.length_eq.le, List.map_snd_zip h.length_eq.ge, fun _ hz => (List.forall₂_iff_zip.1 h).2 hz⟩

theorem converted_id {unit : String → ℚ × ℚ} {s s' : Source AnyData AnyCond} (h : Converted unit s s') : s'.loader.id = s.loader.id := by
  cases h with
  | scalar e e1 => simp only [Source.ofScalar, Source.wrap, e1]
  | vector e e1 => simp only [Source.ofVector, Source.wrap, e, e1, vectorLoader]
  | same => rfl

theorem converted_ids {unit : String → ℚ × ℚ} {zs : List (Source AnyData AnyCond × Source AnyData AnyCond)} (h : ∀ z ∈ zs, Converted unit z.1 z.2)
    (hid : ((zs.map Prod.fst).map (fun s => s.loader.id)).Nodup) : ((zs.map Prod.snd).map (fun s => s.loader.id)).Nodup := by
  have : (zs.map Prod.snd).map (fun s => s.loader.id) = (zs.map Prod.fst).map (fun s => s.loader.id) := by
    rw [List.map_map, List.map_map]
    exact List.map_congr_left (fun z hz => converted_id (h z hz))
  rw [this]; exact hid

/-- **C119**, regions that do not cross the antimeridian: in other units, and with datapoints in another order, the same cells come out, and
their values are the same in the other units. -/
theorem C119_units {unit : String → ℚ × ℚ} {b : Boundary} {W H : ℚ} {full full' : List (Source AnyData AnyCond)}
    (hfull : List.Forall₂ (Converted unit) full full') (hf : ∀ s ∈ full, PlainAny b s) (hf' : ∀ s ∈ full', PlainAny b s)
    (hid : (full.map (fun s => s.loader.id)).Nodup) (config config' : MeshConfig) (hp : ProperGrid b W H) (hcr : b.longMin < b.longMax)
    (hh : b.latMin < b.latMax) (hcol : b.longMin = -180 ∧ b.longMax = 180 → W ≤ 180) (hacc : MeshBuilder.validateBounds b W H = .ok ()) (depth : ℕ) :
    ∃ m0 m0', MeshBuilder.init b W H (fun q => trimSources q full) depth = .ok m0 ∧
      MeshBuilder.init b W H (fun q => trimSources q full') depth = .ok m0' ∧ ∃ N em em',
      (∀ fuel, N ≤ fuel → MeshBuilder.buildEnvironmentalMesh (sourceOps AnyData AnyCond) aggregate fuel config m0 = .ok em ∧
        MeshBuilder.buildEnvironmentalMesh (sourceOps AnyData AnyCond) aggregate fuel config' m0' = .ok em') ∧
      (∀ q, (∃ c ∈ em'.cells, c.bounds = q) ↔ ∃ c ∈ em.cells, c.bounds = q) ∧
      ∀ c ∈ em.cells, ∀ c' ∈ em'.cells, c'.bounds = c.bounds → ∀ n, c'.data.get? n = (c.data.get? n).map (valueIn (inUnit (unit n))) := by
  obtain ⟨zs, rfl, rfl, hz⟩ := converted_pairs hfull
  obtain ⟨m0, h0, N, em, value, hb, hB⟩ := plain_from hf hid config hp hcr hh hcol hacc depth
  obtain ⟨m0', h0', N', em', value', hb', hB'⟩ := plain_from hf' (converted_ids hz hid) config' hp hcr hh hcol hacc depth
  have hS := inner_system hp hcr hacc
  obtain ⟨k1, k2⟩ := mapped_cells (f := fun n => inUnit (unit n)) hB hB' hS.first (fun p q h1 h2 => (hS.within p q h1 h2).1)
    (fun q t t' => lineage_unique hp.wpos hp.hpos)
    (fun q hq z hzm => converted_plain hq (hf _ (List.mem_map_of_mem hzm)) (hf' _ (List.mem_map_of_mem hzm)) (hz z hzm))
  exact ⟨m0, m0', h0, h0', max N N', em, em', fun fuel hfuel => ⟨hb fuel (by omega), hb' fuel (by omega)⟩, k1, k2⟩

/-- **C119**, gridded data, where the region may cross the antimeridian. -/
theorem C119_around {unit : String → ℚ × ℚ} {b : Boundary} {W H : ℚ} {full full' : List (Source AnyData AnyCond)}
    (hfull : List.Forall₂ (Converted unit) full full') (hf : ∀ s ∈ full, AroundAny b s) (hf' : ∀ s ∈ full', AroundAny b s)
    (hid : (full.map (fun s => s.loader.id)).Nodup) (config config' : MeshConfig) (hp : ProperGrid b W H)
    (hh : b.latMin < b.latMax) (hcol : b.width = 360 → W ≤ 180)
    (hacc : MeshBuilder.validateBounds b W H = .ok ()) (depth : ℕ) :
    ∃ m0 m0', MeshBuilder.init b W H (fun q => trimSources q full) depth = .ok m0 ∧
      MeshBuilder.init b W H (fun q => trimSources q full') depth = .ok m0' ∧ ∃ N em em',
      (∀ fuel, N ≤ fuel → MeshBuilder.buildEnvironmentalMesh (sourceOps AnyData AnyCond) aggregate fuel config m0 = .ok em ∧
        MeshBuilder.buildEnvironmentalMesh (sourceOps AnyData AnyCond) aggregate fuel config' m0' = .ok em') ∧
      (∀ q, (∃ c ∈ em'.cells, c.bounds = q) ↔ ∃ c ∈ em.cells, c.bounds = q) ∧
      ∀ c ∈ em.cells, ∀ c' ∈ em'.cells, c'.bounds = c.bounds → ∀ n, c'.data.get? n = (c.data.get? n).map (valueIn (inUnit (unit n))) := by
  obtain ⟨zs, rfl, rfl, hz⟩ := converted_pairs hfull
  obtain ⟨m0, h0, N, em, value, hb, hB⟩ := around_from hf hid config hp hh hcol hacc depth
  obtain ⟨m0', h0', N', em', value', hb', hB'⟩ := around_from hf' (converted_ids hz hid) config' hp hh hcol hacc depth
  have hS := around_system hp hcol hacc
  obtain ⟨k1, k2⟩ := mapped_cells (f := fun n => inUnit (unit n)) hB hB' hS.first (fun p q h1 h2 => (hS.within p q h1 h2).1)
    (fun q t t' => around_unique (unwraps_of hp) hp.wpos hp.hpos (cell_small hp hcol hacc))
    (fun q hq z hzm => converted_around hq (hf _ (List.mem_map_of_mem hzm)) (hf' _ (List.mem_map_of_mem hzm)) (hz z hzm))
  exact ⟨m0, m0', h0, h0', max N N', em, em', fun fuel hfuel => ⟨hb fuel (by omega), hb' fuel (by omega)⟩, k1, k2⟩

/-! ## Examples -/

/-- The unit of the name `a` is changed from Celsius to Fahrenheit. -/
def exUnit (n : String) : ℚ × ℚ := if n = "a" then (9 / 5, 32) else (1, 0)

/-- The sources of the example of C110, with `a` in Fahrenheit, and the datapoints in reverse. -/
noncomputable def exFahrenheit : List (Source AnyData AnyCond) :=
  [.ofLut ⟨lutLoader (fun _ _ => 1) 0 "u" .mean, [⟨some true, some false⟩], .const (.num (some 0)),
    ⟨false, [⟨none, rectGeom 2 4 (-59) (-57), some 8⟩]⟩⟩,
   .ofScalar ⟨scalarLoader 1 "a" .mean 1, [⟨187 / 5, 0, 1, false⟩], .parent, .table ⟨false, [⟨-58, 1, 0, some (169 / 5)⟩, ⟨-59, 1, 0, some 41⟩]⟩⟩,
   .ofVector (vectorSource 2 "u,v" .mean 1 [{ dmag := some ⟨1, 0, 1, false⟩ }] .parent
    (.table ⟨false, [⟨-51, 13, 0, (some 4, none)⟩, ⟨-52, 12, 0, (some 1, some 2)⟩]⟩))]

/-- The hypotheses of C119 hold for them. -/
example : ∃ m0 m0', MeshBuilder.init exRegion 10 5 (fun q => trimSources q exMixed) 1 = .ok m0 ∧
    MeshBuilder.init exRegion 10 5 (fun q => trimSources q exFahrenheit) 1 = .ok m0' ∧ ∃ N em em',
    (∀ fuel, N ≤ fuel → MeshBuilder.buildEnvironmentalMesh (sourceOps AnyData AnyCond) aggregate fuel exConfig m0 = .ok em ∧
      MeshBuilder.buildEnvironmentalMesh (sourceOps AnyData AnyCond) aggregate fuel exConfig m0' = .ok em') ∧
    (∀ q, (∃ c ∈ em'.cells, c.bounds = q) ↔ ∃ c ∈ em.cells, c.bounds = q) ∧
    ∀ c ∈ em.cells, ∀ c' ∈ em'.cells, c'.bounds = c.bounds → ∀ n, c'.data.get? n = (c.data.get? n).map (valueIn (inUnit (exUnit n))) := by
  have hu : splitName "u" = ["u"] ∧ splitName "u,v" = ["u", "v"] := by decide +kernel
  refine C119_units (unit := exUnit) ?_ exMixed_plain.1 ?_ exMixed_plain.2.1 exConfig exConfig exRegion_proper
    (by norm_num [exRegion]) (by norm_num [exRegion]) (by norm_num [exRegion]) (by decide +kernel) 1
  · refine .cons (.same ?_) (.cons (.scalar rfl rfl (by decide +kernel) (Or.inl (by simp)) ?_ rfl ⟨rfl, rfl, ?_⟩)
      (.cons (.vector rfl rfl ?_ (Or.inl rfl) ?_ rfl rfl ⟨rfl, rfl, ?_⟩) .nil))
    · intro n hn
      change n ∈ splitName "u" at hn
      rw [hu.1, List.mem_singleton] at hn
      subst hn; decide +kernel
    · decide +kernel
    · decide +kernel
    · intro n hn
      rw [hu.2] at hn
      simp only [List.mem_cons, List.not_mem_nil, or_false] at hn
      rcases hn with rfl | rfl <;> decide +kernel
    · intro c hc
      simp only [vectorSource, List.mem_singleton] at hc
      exact ⟨_, hc⟩
    · decide +kernel
  · intro s hs
    simp only [exFahrenheit, List.mem_cons, List.not_mem_nil, or_false] at hs
    rcases hs with rfl | rfl | rfl
    · exact exMixed_plain.1 _ (by simp [exMixed])
    · exact .scalar ⟨⟨_, _, _, _, rfl, by decide, by simp⟩, Or.inl rfl, trivial, _, rfl⟩
    · refine .vector ⟨⟨_, _, _, _, "u", "v", rfl, by decide +kernel, by decide, by simp, le_rfl⟩, rfl, trivial, ⟨_, rfl⟩, ?_⟩
      intro c hc
      simp only [vectorSource, List.mem_singleton] at hc
      subst hc
      simp [vectorSource]

/-- The sources of the example of C113, with `a` in Fahrenheit. -/
def exAroundFahrenheit : List (Source AnyData AnyCond) :=
  [.ofScalar ⟨scalarLoader 0 "a" .mean 1, [⟨32, 0, 1, false⟩], .parent,
    .grid { exGrid with val := fun y x t => (exGrid.val y x t).map (fun v => 9 / 5 * v + 32) }⟩,
   .ofVector (vectorSource 1 "u,v" .mean 1 [] .parent (.grid ⟨[5, 10], [-175, 180], none, fun y x _ => (some y, some x)⟩))]

/-- The hypotheses of C119 hold for them, over the antimeridian. -/
example : ∃ m0 m0', MeshBuilder.init exAroundRegion 10 10 (fun q => trimSources q exAround) 1 = .ok m0 ∧
    MeshBuilder.init exAroundRegion 10 10 (fun q => trimSources q exAroundFahrenheit) 1 = .ok m0' ∧ ∃ N em em',
    (∀ fuel, N ≤ fuel → MeshBuilder.buildEnvironmentalMesh (sourceOps AnyData AnyCond) aggregate fuel exConfig m0 = .ok em ∧
      MeshBuilder.buildEnvironmentalMesh (sourceOps AnyData AnyCond) aggregate fuel exConfig m0' = .ok em') ∧
    (∀ q, (∃ c ∈ em'.cells, c.bounds = q) ↔ ∃ c ∈ em.cells, c.bounds = q) ∧
    ∀ c ∈ em.cells, ∀ c' ∈ em'.cells, c'.bounds = c.bounds → ∀ n, c'.data.get? n = (c.data.get? n).map (valueIn (inUnit (exUnit n))) := by
  have hu : splitName "u,v" = ["u", "v"] := by decide +kernel
  have hw : exAroundRegion.width ≠ 360 := by decide +kernel
  refine C119_around (unit := exUnit) ?_ exAround_all.1 ?_ exAround_all.2.1 exConfig exConfig exAroundRegion_proper
    (by norm_num [exAroundRegion]) (fun h => absurd h hw) (by decide +kernel) 1
  · refine .cons (.scalar rfl rfl (by decide +kernel) (Or.inl (by simp)) ?_ rfl ⟨rfl, rfl, ?_⟩) (.cons (.same ?_) .nil)
    · decide +kernel
    · decide +kernel
    · intro n hn
      change n ∈ splitName "u,v" at hn
      rw [hu] at hn
      simp only [List.mem_cons, List.not_mem_nil, or_false] at hn
      rcases hn with rfl | rfl <;> decide +kernel
  · intro s hs
    simp only [exAroundFahrenheit, List.mem_cons, List.not_mem_nil, or_false] at hs
    rcases hs with rfl | rfl
    · refine .scalar rfl (by decide) (by simp) (Or.inl rfl) ⟨⟨_, rfl, exGrid_longs⟩, ?_, _, trim_eq ?_ (by intro h; cases h)⟩ <;>
        (unfold Dataset.Sorted; constructor <;> decide +kernel)
    · exact exAround_all.1 _ (by simp [exAround])

end Verif
