import Verif.Proof.Turning

/-!
# C118: where the antimeridian lies makes no difference to gridded data

Turning a region and its data about the axis of the Earth turns the mesh, whether or not either region crosses the antimeridian.
-/

namespace Verif
open Spec

/-! ## Specification -/

/-- A box is another one turned eastwards by `t` degrees. -/
def Spec.TurnedBox (t : ℚ) (q q' : Boundary) : Prop :=
  q'.latMin = q.latMin ∧ q'.latMax = q.latMax ∧ q'.time = q.time ∧ ∃ n : ℤ, q'.longMin = q.longMin + t + 360 * n ∧ eastEdge q' = eastEdge q + t + 360 * n

/-- A longitude turned eastwards by `t` degrees, above -180 and up to 180. -/
def Spec.turnLong (t x : ℚ) : ℚ := x + t - 360 * ⌈(x + t - 180) / 360⌉

/-- The datapoints of `d'` in the region `b'` are those of `d` in `b`, turned, in any order. -/
def Spec.TurnedData {V : Type} (t : ℚ) (b b' : Boundary) (d d' : Dataset V) : Prop :=
  ((rowsAround d b).map (fun r => { r with long := turnLong t r.long })).Perm (rowsAround d' b')

/-- The source `s'` has the same parameters as `s`, and its data in the region `b'` is that of `s` in `b`, turned.  Vectors are taken by their
mean or number, since among vectors of the same length the first is taken. -/
inductive Spec.TurnedSource (t : ℚ) (b b' : Boundary) : Source AnyData AnyCond → Source AnyData AnyCond → Prop
  | scalar {s s' : Source (Dataset (Option ℚ)) Cond} : s'.loader = s.loader → s'.conds = s.conds → s'.fill = s.fill →
      TurnedData t b b' s.subset s'.subset → TurnedSource t b b' (.ofScalar s) (.ofScalar s')
  | vector {s s' : Source (Dataset Vec) VectorHom.Conds} {id name agg hom hom'} : s.loader = vectorLoader id name agg hom → s'.loader = vectorLoader id name agg hom' →
      agg = .mean ∨ agg = .count → s'.conds = s.conds → s'.fill = s.fill → TurnedData t b b' s.subset s'.subset →
      TurnedSource t b b' (.ofVector s) (.ofVector s')

/-! ## Boxes -/

theorem turnLong_range (t x : ℚ) : -180 < turnLong t x ∧ turnLong t x ≤ 180 := by
  unfold turnLong
  have h1 := Int.le_ceil ((x + t - 180) / 360)
  have h2 := Int.ceil_lt_add_one ((x + t - 180) / 360)
  constructor <;> linarith

theorem turnedBox_shape {t : ℚ} {b b' : Boundary} (h : TurnedBox t b b') : SameShape b b' := by
  obtain ⟨h1, h2, h3, n, h4, h5⟩ := h
  exact ⟨h1, h2, h3, by rw [h4, h5]; ring⟩

theorem corresponds_turned {t : ℚ} {b b' : Boundary} {W H : ℚ} (hb : TurnedBox t b b') (hu : Unwraps b) (hu' : Unwraps b') (hW : 0 < W)
    (hH : 0 < H) (hs : W < 360) {q q' : Boundary} (h : Corresponds b b' W H q q') : TurnedBox t q q' := by
  have hsh := turnedBox_shape hb
  obtain ⟨-, -, -, n, h4, -⟩ := hb
  obtain ⟨q0, t0, h1, rfl, rfl⟩ := h
  have hfl := lineage_flat hW hH hs h1 q0 (by simp)
  have hfl' := flat_moved hsh hfl
  refine ⟨rfl, rfl, rfl, ?_⟩
  rw [turn_east hu hfl, turn_east hu' hfl']
  have e : b'.longMin - b.longMin = t + 360 * n := by rw [h4]; ring
  rw [e]
  have m1 : (movedBy (t + 360 * n) q0).longMin = q0.longMin + (t + 360 * n) := rfl
  have m2 : (movedBy (t + 360 * n) q0).longMax = q0.longMax + (t + 360 * n) := rfl
  by_cases a : q0.longMin ≤ 180 <;> by_cases a' : (movedBy (t + 360 * n) q0).longMin ≤ 180 <;> simp only [turnBox, turnBack, a, a', if_true, if_false]
  · exact ⟨n, by rw [m1]; ring, by rw [m2]; ring⟩
  · exact ⟨n - 1, by rw [m1]; push_cast; ring, by rw [m2]; push_cast; ring⟩
  · exact ⟨n + 1, by rw [m1]; push_cast; ring, by rw [m2]; push_cast; ring⟩
  · exact ⟨n, by rw [m1]; ring, by rw [m2]; ring⟩

theorem turns_iff {lo hi x : ℚ} (h1 : -180 ≤ lo) (h2 : hi ≤ 540) (h3 : -180 < x) (h4 : x ≤ 180) :
    (lo < x ∧ x ≤ hi ∨ lo < x + 360 ∧ x + 360 ≤ hi) ↔ ∃ n : ℤ, lo < x + 360 * n ∧ x + 360 * n ≤ hi := by
  constructor
  · rintro (⟨a, b⟩ | ⟨a, b⟩)
    · exact ⟨0, by push_cast; linarith, by push_cast; linarith⟩
    · exact ⟨1, by push_cast; linarith, by push_cast; linarith⟩
  · rintro ⟨n, a, b⟩
    have c1 : (-1 : ℚ) < n := by linarith
    have c2 : (n : ℚ) < 2 := by linarith
    have c1 : (-1 : ℤ) < n := by exact_mod_cast c1
    have c2 : n < (2 : ℤ) := by exact_mod_cast c2
    rcases (by omega : n = 0 ∨ n = 1) with rfl | rfl
    · left; constructor <;> push_cast at a b <;> linarith
    · right; constructor <;> push_cast at a b <;> linarith

/-- Which datapoints are in a box, by the flat box. -/
theorem flat_has {b q : Boundary} (hu : Unwraps b) (hq : Flat b q) {x : ℚ} (h3 : -180 < x) (h4 : x ≤ 180) :
    ((turnBox q).longMin < x ∧ x ≤ eastEdge (turnBox q) ∨ (turnBox q).longMin < x + 360 ∧ x + 360 ≤ eastEdge (turnBox q)) ↔
      ∃ n : ℤ, q.longMin < x + 360 * n ∧ x + 360 * n ≤ q.longMax := by
  rw [turn_east hu hq]
  obtain ⟨u1, u2, u3, u4⟩ := hu
  obtain ⟨f1, f2, f3, f4, -, -, -, -⟩ := hq
  by_cases h : q.longMin ≤ 180
  · simp only [turnBox, turnBack, if_pos h]
    exact turns_iff (by linarith) (by linarith) h3 h4
  · simp only [turnBox, turnBack, if_neg h]
    rw [turns_iff (by linarith) (by linarith) h3 h4]
    constructor
    · rintro ⟨n, a, b⟩; exact ⟨n + 1, by push_cast; linarith, by push_cast; linarith⟩
    · rintro ⟨n, a, b⟩; exact ⟨n - 1, by push_cast; linarith, by push_cast; linarith⟩

theorem dataset_longs {V : Type} {d : Dataset V} {g : Grid V} (e : d = .grid g) (hg : ∀ x ∈ g.longs, -180 < x ∧ x ≤ 180) {r : Row V} (hr : r ∈ d.rows) :
    -180 < r.long ∧ r.long ≤ 180 := by
  subst e
  apply hg
  simp only [Dataset.rows, Grid.rows, List.mem_flatMap] at hr
  obtain ⟨y, -, x, hx, hr⟩ := hr
  rcases hg : g.times with _ | ts
  · simp only [hg, List.mem_singleton] at hr; rw [hr]; exact hx
  · simp only [hg, List.mem_map] at hr; obtain ⟨t, _, rfl⟩ := hr; exact hx

open Classical in
/-- The datapoints in a box are those in the region that are in the box. -/
theorem rowsAround_region {V : Type} {b q : Boundary} (hu : Unwraps b) (hq : Flat b q) {d : Dataset V} (hd : GridAround b d) :
    rowsAround d (turnBox q) = (rowsAround d b).filter (fun r => decide (q.latMin < r.lat ∧ r.lat ≤ q.latMax ∧
      ∃ n : ℤ, q.longMin < r.long + 360 * n ∧ r.long + 360 * n ≤ q.longMax)) := by
  obtain ⟨⟨g, e, hg⟩, -, -⟩ := hd
  unfold rowsAround
  rw [List.filter_filter]
  apply List.filter_congr
  intro r hr
  obtain ⟨l1, l2⟩ := dataset_longs e hg hr
  have ht : during (turnBox q) r.time = during b r.time := by
    have : (turnBox q).time = b.time := hq.time
    unfold during
    rw [this]
  rw [ht, Bool.eq_iff_iff]
  simp only [Bool.and_eq_true, decide_eq_true_iff]
  rw [flat_has hu hq l1 l2, turns_iff hu.west hu.east l1 l2]
  show (q.latMin < r.lat ∧ r.lat ≤ q.latMax ∧ _) ∧ _ ↔ _
  obtain ⟨f1, f2, f3, f4, f5, f6, f7, f8⟩ := hq
  constructor
  · rintro ⟨⟨a1, a2, n, a3, a4⟩, a5⟩
    exact ⟨⟨a1, a2, n, a3, a4⟩, ⟨by linarith, by linarith, n, by linarith, by linarith⟩, a5⟩
  · rintro ⟨a, -, a5⟩
    exact ⟨a, a5⟩

open Classical in
theorem rowsAround_turned {V : Type} {t : ℚ} {b b' : Boundary} {W H : ℚ} (hb : TurnedBox t b b') (hu : Unwraps b) (hu' : Unwraps b') (hW : 0 < W)
    (hH : 0 < H) (hs : W < 360) {q q' : Boundary} (h : Corresponds b b' W H q q') {d d' : Dataset V} (hd : GridAround b d) (hd' : GridAround b' d')
    (hdd : TurnedData t b b' d d') : ((rowsAround d q).map Row.val).Perm ((rowsAround d' q').map Row.val) := by
  have hsh := turnedBox_shape hb
  obtain ⟨-, -, -, n0, h4, -⟩ := hb
  obtain ⟨q0, t0, h1, rfl, rfl⟩ := h
  have hfl := lineage_flat hW hH hs h1 q0 (by simp)
  have hfl' := flat_moved hsh hfl
  rw [rowsAround_region hu hfl hd, rowsAround_region hu' hfl' hd']
  have hp := (hdd.filter (fun r => decide ((movedBy (b'.longMin - b.longMin) q0).latMin < r.lat ∧ r.lat ≤ (movedBy (b'.longMin - b.longMin) q0).latMax ∧
      ∃ n : ℤ, (movedBy (b'.longMin - b.longMin) q0).longMin < r.long + 360 * n ∧ r.long + 360 * n ≤ (movedBy (b'.longMin - b.longMin) q0).longMax))).map Row.val
  rw [List.filter_map, List.map_map] at hp
  refine List.Perm.trans (.of_eq ?_) hp
  have e : ∀ r : Row V, (∃ n : ℤ, q0.longMin < r.long + 360 * n ∧ r.long + 360 * n ≤ q0.longMax) ↔
      ∃ n : ℤ, (movedBy (b'.longMin - b.longMin) q0).longMin < turnLong t r.long + 360 * n ∧
        turnLong t r.long + 360 * n ≤ (movedBy (b'.longMin - b.longMin) q0).longMax := by
    intro r
    simp only [movedBy, turnLong, h4]
    generalize ⌈(r.long + t - 180) / 360⌉ = c
    constructor
    · rintro ⟨n, a1, a2⟩; exact ⟨n + n0 + c, by push_cast; linarith, by push_cast; linarith⟩
    · rintro ⟨n, a1, a2⟩; exact ⟨n - n0 - c, by push_cast; linarith, by push_cast; linarith⟩
  congr 1
  apply List.filter_congr
  intro r _
  simp only [Function.comp_apply, e r]
  rfl

/-! ## Sources -/

variable {S C : Type}

/-- Two sources do the same on two boxes. -/
structure AlikeAt (q q' : Boundary) (s s' : Source S C) : Prop where
  name : s'.loader.dataName = s.loader.dataName
  fill : s'.fill = s.fill
  conds : s'.conds = s.conds
  value : s'.loader.getValue q' (s'.loader.trim q' s'.subset) = s.loader.getValue q (s.loader.trim q s.subset)
  hom : ∀ c ∈ s.conds, ownVerdict s' q' c = ownVerdict s q c

theorem alikeAt_wrap {S' C' : Type} {put : S → S'} {get : S' → Option S} {putC : C → C'} {getC : C' → Option C} (hg : ∀ d, get (put d) = some d)
    (hc : ∀ c, getC (putC c) = some c) {q q' : Boundary} {s s' : Source S C} (h : AlikeAt q q' s s') :
    AlikeAt q q' (s.wrap put get putC getC) (s'.wrap put get putC getC) := by
  refine ⟨h.name, h.fill, ?_, ?_, ?_⟩
  · show s'.conds.map putC = s.conds.map putC
    rw [h.conds]
  · simp only [Source.wrap, hg]
    exact h.value
  · intro c hcm
    obtain ⟨c0, hm, rfl⟩ := List.mem_map.1 hcm
    rw [ownVerdict_wrap hg hc, ownVerdict_wrap hg hc]
    exact h.hom c0 hm

theorem around_scalar_get {b q : Boundary} {s : Source (Dataset (Option ℚ)) Cond} {id name agg minDp} (e : s.loader = scalarLoader id name agg minDp)
    (h : GridAround b s.subset) (hq : Around b q) : s.loader.getValue q (s.loader.trim q s.subset) =
      (valueOf true agg ((rowsAround s.subset q).map Row.val) >>= fun v => pure [(name, Val.num v)]) := by
  obtain ⟨d', e1, e2⟩ := h.rows hq
  rw [e, scalarLoader_trims id name agg minDp q _ _ e1]
  show (scalarValue agg q d' >>= fun v => pure [(name, Val.num v)]) = _
  rw [scalarValue_trim agg h.2.1 (h.right hq) e1, scalarValue_eq agg h.2.1 (trim_time e1)]
  unfold pointsIn
  rw [e1, h.isGrid]
  simp only [e2]

theorem around_vector_get {b q : Boundary} {s : Source (Dataset Vec) VectorHom.Conds} {id name agg hom} (e : s.loader = vectorLoader id name agg hom)
    (h : GridAround b s.subset) (hq : Around b q) : s.loader.getValue q (s.loader.trim q s.subset) =
      (vectorValueXr agg ((rowsAround s.subset q).map Row.val) >>= fun v => match splitName name with
        | [x, y] => pure [(x, .num v.1), (y, .num v.2)]
        | _ => .error .valueError) := by
  obtain ⟨d', e1, e2⟩ := h.rows hq
  rw [e, vectorLoader_trims id name agg hom q _ _ e1]
  have hg := (trim_inv h.2.1 e1).symm
  obtain ⟨⟨g, hd, -⟩, -⟩ := h
  rw [hd] at hg
  subst hg
  rw [← e2]
  rfl

theorem vectorXr_perm {agg : AggType} (hagg : agg = .mean ∨ agg = .count) {l l' : List Vec} (h : l.Perm l') : vectorValueXr agg l = vectorValueXr agg l' := by
  have h1 : l = [] ↔ l' = [] := ⟨by rintro rfl; exact h.symm.eq_nil, by rintro rfl; exact h.eq_nil⟩
  have h2 : l.all (fun v => v.magSq.isNone) = l'.all (fun v => v.magSq.isNone) := by
    rw [Bool.eq_iff_iff, List.all_eq_true, List.all_eq_true]
    exact ⟨fun k x hx => k x (h.mem_iff.2 hx), fun k x hx => k x (h.mem_iff.1 hx)⟩
  have hmean : ∀ {a a' : List ℚ}, a.Perm a' → listMean a = listMean a' := by
    intro a a' h
    unfold listMean
    simp only [nil_perm_iff h, h.sum_eq, h.length_eq]
  unfold vectorValueXr
  simp only [h1, h2]
  rcases hagg with rfl | rfl
  · simp only [xsOf, ysOf, hmean (h.filterMap Prod.fst), hmean (h.filterMap Prod.snd)]
  · simp only [h.length_eq]

theorem Spec.AroundAny.scalarGrid {b : Boundary} {s : Source (Dataset (Option ℚ)) Cond} (h : AroundAny b (.ofScalar s)) :
    (∃ id name agg minDp, s.loader = scalarLoader id name agg minDp) ∧ GridAround b s.subset := by
  generalize hS : Source.ofScalar s = S at h
  cases h with
  | scalar e _ _ _ h => rw [ofScalar_inj hS]; exact ⟨⟨_, _, _, _, e⟩, h⟩
  | vector => exact absurd (congrArg Source.subset hS) (by intro h; cases h)

theorem Spec.AroundAny.vectorGrid {b : Boundary} {s : Source (Dataset Vec) VectorHom.Conds} (h : AroundAny b (.ofVector s)) :
    s.conds = [] ∧ GridAround b s.subset := by
  generalize hS : Source.ofVector s = S at h
  cases h with
  | vector _ _ _ _ _ hc h => rw [ofVector_inj hS]; exact ⟨hc, h⟩
  | scalar => exact absurd (congrArg Source.subset hS) (by intro h; cases h)

theorem turned_alike {t : ℚ} {b b' : Boundary} {W H : ℚ} (hb : TurnedBox t b b') (hu : Unwraps b) (hu' : Unwraps b') (hW : 0 < W)
    (hH : 0 < H) (hs : W < 360) {q q' : Boundary} (h : Corresponds b b' W H q q') (hq : Around b q) (hq' : Around b' q')
    {s s' : Source AnyData AnyCond} (ha : AroundAny b s) (ha' : AroundAny b' s') (hss : TurnedSource t b b' s s') : AlikeAt q q' s s' := by
  cases hss with
  | @scalar s s' e1 e2 e3 hd =>
    obtain ⟨⟨id, name, agg, minDp, e⟩, hg⟩ := ha.scalarGrid
    obtain ⟨-, hg'⟩ := ha'.scalarGrid
    have hp := rowsAround_turned hb hu hu' hW hH hs h hg hg' hd
    have e' : s'.loader = scalarLoader id name agg minDp := by rw [e1, e]
    unfold Source.ofScalar
    refine alikeAt_wrap ?_ ?_ ?_; · intro _; rfl
    · intro _; rfl
    refine ⟨by rw [e1], e3, e2, ?_, ?_⟩
    · rw [around_scalar_get e hg hq, around_scalar_get e' hg' hq', C29_order true agg hp]
    · intro c hc
      unfold ownVerdict
      rw [(around_scalar_faithful e hg).decides q hq c hc, (around_scalar_faithful e' hg').decides q' hq' c (by rw [e2]; exact hc)]
      simp only
      exact (C27_order minDp c hp).symm
  | @vector s s' id name agg hom hom' e e1 hagg e2 e3 hd =>
    obtain ⟨hc, hg⟩ := ha.vectorGrid
    obtain ⟨-, hg'⟩ := ha'.vectorGrid
    have hp := rowsAround_turned hb hu hu' hW hH hs h hg hg' hd
    unfold Source.ofVector
    refine alikeAt_wrap ?_ ?_ ?_; · intro _; rfl
    · intro _; rfl
    refine ⟨by rw [e, e1]; rfl, e3, e2, ?_, ?_⟩
    · rw [around_vector_get e hg hq, around_vector_get e1 hg' hq', vectorXr_perm hagg hp]
    · intro c hcm
      rw [hc] at hcm
      cases hcm

/-- What is needed of a region and its sources, and what comes out of building. -/
theorem around_built {b : Boundary} {W H : ℚ} {full : List (Source AnyData AnyCond)} (hf : ∀ s ∈ full, AroundAny b s)
    (hid : (full.map (fun s => s.loader.id)).Nodup) (config : MeshConfig) (hp : ProperGrid b W H) (hh : b.latMin < b.latMax)
    (hcol : b.width = 360 → W ≤ 180) (hacc : MeshBuilder.validateBounds b W H = .ok ())
    (depth : ℕ) :
    ∃ value : Source AnyData AnyCond → Boundary → String → Option ℚ, (∀ s ∈ full, ValuedOn (Around b) s (value s)) ∧
    ∃ m0, MeshBuilder.init b W H (fun q => trimSources q full) depth = .ok m0 ∧ ∃ N em,
      (∀ fuel, N ≤ fuel → MeshBuilder.buildEnvironmentalMesh (sourceOps AnyData AnyCond) aggregate fuel config m0 = .ok em) ∧
      (∀ q, (∃ c ∈ em.cells, c.bounds = q) ↔
        ∃ k, byTurns turnQuarters (Divides ownVerdict) depth [] full (fun k q => k = 0 ∧ TurnGridBox b W H q) k q) ∧
      ∀ c ∈ em.cells, ∃ anc, (∀ q ∈ c.bounds :: anc, Around b q) ∧ LineageBy turnQuarters (TurnGridBox b W H) (c.bounds :: anc) ∧
        DataAlong value full c anc := by
  have hex : ∀ s : Source AnyData AnyCond, ∃ value : Boundary → String → Option ℚ, s ∈ full → ValuedOn (Around b) s value := by
    intro s
    by_cases hs : s ∈ full
    · obtain ⟨v, hv, -⟩ := around_valued (hf s hs)
      exact ⟨v, fun _ => hv⟩
    · exact ⟨fun _ _ => none, fun h => absurd h hs⟩
  choose value hvalue using hex
  have hS := around_system hp hcol hacc
  have hfaith := fun s hs => around_faithful (hf s hs)
  obtain ⟨m0, h0, N, em, h3, -, h4⟩ := faithful_values hfaith hvalue hid config hS hp hh hcol hacc depth
  refine ⟨value, hvalue, m0, h0, N, em, h3, turns_built hfaith (fun q hq => hq.1) hS hp hh hcol hacc h0 h3, fun c hc => ?_⟩
  obtain ⟨anc, ha, hrest⟩ := h4 c hc
  refine ⟨anc, ?_, ha, hrest⟩
  clear hrest
  generalize c.bounds :: anc = l at ha
  induction ha with
  | root hq => intro q hm; rw [List.mem_singleton] at hm; subst hm; exact hS.first _ hq
  | @quarter q p t _ hq ih =>
    intro r hr
    rcases List.mem_cons.1 hr with rfl | hr
    · exact (hS.within _ _ (ih p (by simp)) hq).1
    · exact ih r hr

theorem alikeAt_divides {zs : List (Source S C × Source S C)} {q q' : Boundary} (h : ∀ z ∈ zs, AlikeAt q q' z.1 z.2) :
    Divides ownVerdict (zs.map Prod.fst) q ↔ Divides ownVerdict (zs.map Prod.snd) q' := by
  unfold Divides Wants
  constructor
  · rintro ⟨h1, s, hs, c, hc, hv⟩
    obtain ⟨z, hz, rfl⟩ := List.mem_map.1 hs
    refine ⟨?_, z.2, List.mem_map_of_mem hz, c, by rw [(h z hz).conds]; exact hc, by rw [(h z hz).hom c hc]; exact hv⟩
    intro s hs c hc
    obtain ⟨z, hz, rfl⟩ := List.mem_map.1 hs
    rw [(h z hz).conds] at hc
    rw [(h z hz).hom c hc]
    exact h1 z.1 (List.mem_map_of_mem hz) c hc
  · rintro ⟨h1, s, hs, c, hc, hv⟩
    obtain ⟨z, hz, rfl⟩ := List.mem_map.1 hs
    rw [(h z hz).conds] at hc
    refine ⟨?_, z.1, List.mem_map_of_mem hz, c, hc, by rw [← (h z hz).hom c hc]; exact hv⟩
    intro s hs c hc
    obtain ⟨z, hz, rfl⟩ := List.mem_map.1 hs
    rw [← (h z hz).hom c hc]
    exact h1 z.2 (List.mem_map_of_mem hz) c (by rw [(h z hz).conds]; exact hc)

theorem alike_value {In In' : Boundary → Prop} {s s' : Source S C} {value value' : Boundary → String → Option ℚ} (h : ValuedOn In s value)
    (h' : ValuedOn In' s' value') {q q' : Boundary} (hq : In q) (hq' : In' q') (ha : AlikeAt q q' s s') {n : String}
    (hn : n ∈ splitName s.loader.dataName) : value q n = value' q' n := by
  obtain ⟨D, h1, h2, -⟩ := h.gives q hq
  obtain ⟨D', h1', h2', -⟩ := h'.gives q' hq'
  rw [ha.value, h1] at h1'
  cases h1'
  have := (h2 n hn).symm.trans (h2' n (by rw [ha.name]; exact hn))
  simpa using this

/-- **C118**: turning a region and its gridded data about the axis of the Earth turns the mesh.  Both meshes are built, the cells of one are
those of the other, turned, and have the same values, whether or not either region lies over the antimeridian. -/
theorem C118_turned {t : ℚ} {b b' : Boundary} {W H : ℚ} {full full' : List (Source AnyData AnyCond)} (hb : TurnedBox t b b')
    (hfull : List.Forall₂ (TurnedSource t b b') full full') (hf : ∀ s ∈ full, AroundAny b s) (hf' : ∀ s ∈ full', AroundAny b' s)
    (hid : (full.map (fun s => s.loader.id)).Nodup) (config config' : MeshConfig) (hp : ProperGrid b W H) (hp' : ProperGrid b' W H)
    (hh : b.latMin < b.latMax) (hcol : b.width = 360 → W ≤ 180) (hcol' : b'.width = 360 → W ≤ 180)
    (hacc : MeshBuilder.validateBounds b W H = .ok ()) (hacc' : MeshBuilder.validateBounds b' W H = .ok ()) (depth : ℕ) :
    ∃ m0 m0', MeshBuilder.init b W H (fun q => trimSources q full) depth = .ok m0 ∧
      MeshBuilder.init b' W H (fun q => trimSources q full') depth = .ok m0' ∧ ∃ N em em',
      (∀ fuel, N ≤ fuel → MeshBuilder.buildEnvironmentalMesh (sourceOps AnyData AnyCond) aggregate fuel config m0 = .ok em ∧
        MeshBuilder.buildEnvironmentalMesh (sourceOps AnyData AnyCond) aggregate fuel config' m0' = .ok em') ∧
      (∀ c ∈ em.cells, ∃ c' ∈ em'.cells, TurnedBox t c.bounds c'.bounds ∧ ∀ n, c'.data.get? n = c.data.get? n) ∧
      ∀ c' ∈ em'.cells, ∃ c ∈ em.cells, TurnedBox t c.bounds c'.bounds ∧ ∀ n, c'.data.get? n = c.data.get? n := by
  have hlen := hfull.length_eq
  obtain ⟨zs, ez, ez', hzs⟩ : ∃ zs : List (Source AnyData AnyCond × Source AnyData AnyCond), zs.map Prod.fst = full ∧ zs.map Prod.snd = full' ∧
      ∀ z ∈ zs, TurnedSource t b b' z.1 z.2 :=
    ⟨full.zip full', List.map_fst_zip hlen.le, List.map_snd_zip hlen.ge, fun z hz => (List.forall₂_iff_zip.1 hfull).2 hz⟩
  subst ez ez'
  have hf1 : ∀ z ∈ zs, AroundAny b z.1 := fun z hz => hf _ (List.mem_map_of_mem hz)
  have hf2 : ∀ z ∈ zs, AroundAny b' z.2 := fun z hz => hf' _ (List.mem_map_of_mem hz)
  have hloader : ∀ z ∈ zs, z.2.loader.id = z.1.loader.id ∧ z.1.loader.dataName = z.2.loader.dataName ∧ z.1.fill = z.2.fill := by
    intro z hz
    have h := hzs z hz
    revert h
    generalize z.1 = s1
    generalize z.2 = s2
    intro h
    cases h with
    | scalar e1 e2 e3 _ => exact ⟨by simp only [Source.ofScalar, Source.wrap, e1], by simp only [Source.ofScalar, Source.wrap, e1], e3.symm⟩
    | vector e e1 _ e2 e3 _ =>
      exact ⟨by simp only [Source.ofVector, Source.wrap, e, e1, vectorLoader], by simp only [Source.ofVector, Source.wrap, e, e1, vectorLoader], e3.symm⟩
  have hid' : ((zs.map Prod.snd).map (fun s => s.loader.id)).Nodup := by
    have : (zs.map Prod.snd).map (fun s => s.loader.id) = (zs.map Prod.fst).map (fun s => s.loader.id) := by
      rw [List.map_map, List.map_map]
      exact List.map_congr_left (fun z hz => (hloader z hz).1)
    rw [this]; exact hid
  have hsh := turnedBox_shape hb
  have hu := unwraps_of hp
  have hu' := unwraps_of hp'
  have hs := cell_small hp hcol hacc
  obtain ⟨value, hv, m0, h0, N, em, hbu, hc, hd⟩ := around_built hf hid config hp hh hcol hacc depth
  obtain ⟨value', hv', m0', h0', N', em', hbu', hc', hd'⟩ := around_built hf' hid' config' hp' (by rw [hsh.south, hsh.north]; exact hh) hcol' hacc' depth
  have hS := around_system hp hcol hacc
  have hS' := around_system hp' hcol' hacc'
  have halike : ∀ q q', Corresponds b b' W H q q' → Around b q → Around b' q' → ∀ z ∈ zs, AlikeAt q q' z.1 z.2 :=
    fun q q' h hq hq' z hz => turned_alike hb hu hu' hp.wpos hp.hpos hs h hq hq' (hf1 z hz) (hf2 z hz) (hzs z hz)
  have hdata : ∀ c ∈ em.cells, ∀ c' ∈ em'.cells, Corresponds b b' W H c.bounds c'.bounds →
      TurnedBox t c.bounds c'.bounds ∧ ∀ n, c'.data.get? n = c.data.get? n := by
    intro c hcm c' hcm' hco
    refine ⟨corresponds_turned hb hu hu' hp.wpos hp.hpos hs hco, fun n => ?_⟩
    obtain ⟨anc, i1, i2, i3⟩ := hd c hcm
    obtain ⟨anc', i1', i2', i3'⟩ := hd' c' hcm'
    refine (DataAlong.related (fun z hz => (hloader z hz).2) ?_ i3 i3' n).symm
    intro z hz n hn
    have hl := corresponds_lineage hu hu' hsh hp.wpos hp.hpos hs hco i2 i2'
    generalize c.bounds :: anc = l at i1 hl
    generalize c'.bounds :: anc' = l' at i1' hl
    clear i2 i2' i3 i3'
    induction hl with
    | nil => exact .nil
    | @cons p p' l l' hpp _ ih =>
      have a1 := i1 p (by simp)
      have a2 := i1' p' (by simp)
      exact .cons (alike_value (hv _ (List.mem_map_of_mem hz)) (hv' _ (List.mem_map_of_mem hz)) a1 a2 (halike p p' hpp a1 a2 z hz) hn)
        (ih (fun q hq => i1 q (List.mem_cons_of_mem _ hq)) (fun q hq => i1' q (List.mem_cons_of_mem _ hq)))
  have e1 := byTurns_map (f := Prod.fst) (parts := turnQuarters) (wants := Divides (ownVerdict (S := AnyData) (C := AnyCond))) (sd := depth) zs []
    (fun k q => k = 0 ∧ TurnGridBox b W H q)
  have e2 := byTurns_map (f := Prod.snd) (parts := turnQuarters) (wants := Divides (ownVerdict (S := AnyData) (C := AnyCond))) (sd := depth) zs []
    (fun k q => k = 0 ∧ TurnGridBox b' W H q)
  rw [List.map_nil] at e1 e2
  rw [e1] at hc
  rw [e2] at hc'
  have hsub : ∀ l : List (Source AnyData AnyCond × Source AnyData AnyCond), (∀ z ∈ l, z ∈ [] ++ zs) → ∀ z ∈ l, z ∈ zs := by
    intro l hl z hz; simpa using hl z hz
  refine ⟨m0, m0', h0, h0', max N N', em, em', fun fuel hfuel => ⟨hbu fuel (by omega), hbu' fuel (by omega)⟩, ?_, ?_⟩
  · intro c hcm
    obtain ⟨k, hk⟩ := (hc _).1 ⟨c, hcm, rfl⟩
    obtain ⟨q', hk', hR, -, -⟩ := byTurns_related (R := fun q q' => Corresponds b b' W H q q' ∧ Around b q ∧ Around b' q') (parts' := turnQuarters)
      (wants' := fun l => Divides ownVerdict (l.map Prod.snd)) (fun q q' ⟨r1, r2, r3⟩ p hp1 => by
        obtain ⟨p', h1, h2⟩ := corresponds_parts hu hu' hsh hp.wpos hp.hpos hs r1 hp1
        exact ⟨p', h1, h2, (hS.within _ _ r2 hp1).1, (hS'.within _ _ r3 h1).1⟩) zs [] _ (fun k q => k = 0 ∧ TurnGridBox b' W H q)
      (fun l hl q q' ⟨r1, r2, r3⟩ => alikeAt_divides (fun z hz => halike q q' r1 r2 r3 z (hsub l hl z hz)))
      (fun k q ⟨hk0, hq⟩ => by
        obtain ⟨q', h1, h2⟩ := corresponds_start hsh hq
        exact ⟨q', ⟨hk0, h1⟩, h2, hS.first _ hq, hS'.first _ h1⟩) k _ hk
    obtain ⟨c', hcm', rfl⟩ := (hc' q').2 ⟨k, hk'⟩
    exact ⟨c', hcm', hdata c hcm c' hcm' hR⟩
  · intro c' hcm'
    obtain ⟨k, hk⟩ := (hc' _).1 ⟨c', hcm', rfl⟩
    obtain ⟨q, hk', hR, -, -⟩ := byTurns_related (R := fun q' q => Corresponds b b' W H q q' ∧ Around b q ∧ Around b' q') (parts' := turnQuarters)
      (wants' := fun l => Divides ownVerdict (l.map Prod.fst)) (fun q' q ⟨r1, r2, r3⟩ p' hp1 => by
        obtain ⟨p, h1, h2⟩ := corresponds_parts hu' hu hsh.symm hp.wpos hp.hpos hs (r1.symm hsh) hp1
        exact ⟨p, h1, h2.symm hsh.symm, (hS.within _ _ r2 h1).1, (hS'.within _ _ r3 hp1).1⟩) zs [] _ (fun k q => k = 0 ∧ TurnGridBox b W H q)
      (fun l hl q' q ⟨r1, r2, r3⟩ => (alikeAt_divides (fun z hz => halike q q' r1 r2 r3 z (hsub l hl z hz))).symm)
      (fun k q' ⟨hk0, hq⟩ => by
        obtain ⟨q, h1, h2⟩ := corresponds_start hsh.symm hq
        exact ⟨q, ⟨hk0, h1⟩, h2.symm hsh.symm, hS.first _ h1, hS'.first _ hq⟩) k _ hk
    obtain ⟨c, hcm, rfl⟩ := (hc q).2 ⟨k, hk'⟩
    exact ⟨c, hcm, hdata c hcm c' hcm' hR⟩

/-! ## Example -/

/-- The region of the example of C113 and its sources, turned west by 170 degrees, away from the antimeridian. -/
def exTurnedRegion : Boundary := ⟨0, 20, 5, 25, []⟩

def exTurnedSources : List (Source AnyData AnyCond) :=
  [.ofScalar ⟨scalarLoader 0 "a" .mean 1, [⟨0, 0, 1, false⟩], .parent,
     .grid ⟨[5, 10, 15], [0, 5, 10, 15, 20], none, fun y x _ => some (if x ≤ 10 then y + x + 170 else y + x - 190)⟩⟩,
   .ofVector (vectorSource 1 "u,v" .mean 1 [] .parent (.grid ⟨[5, 10], [10, 15], none, fun y x _ => (some y, some (if x ≤ 10 then x + 170 else x - 190))⟩))]

/-- The hypotheses of C118 hold for them: one region crosses the antimeridian and the other does not. -/
example : ∃ m0 m0', MeshBuilder.init exAroundRegion 10 10 (fun q => trimSources q exAround) 1 = .ok m0 ∧
    MeshBuilder.init exTurnedRegion 10 10 (fun q => trimSources q exTurnedSources) 1 = .ok m0' ∧ ∃ N em em',
    (∀ fuel, N ≤ fuel → MeshBuilder.buildEnvironmentalMesh (sourceOps AnyData AnyCond) aggregate fuel exConfig m0 = .ok em ∧
      MeshBuilder.buildEnvironmentalMesh (sourceOps AnyData AnyCond) aggregate fuel exConfig m0' = .ok em') ∧
    (∀ c ∈ em.cells, ∃ c' ∈ em'.cells, TurnedBox (-170) c.bounds c'.bounds ∧ ∀ n, c'.data.get? n = c.data.get? n) ∧
    ∀ c' ∈ em'.cells, ∃ c ∈ em.cells, TurnedBox (-170) c.bounds c'.bounds ∧ ∀ n, c'.data.get? n = c.data.get? n := by
  have hw : exAroundRegion.width ≠ 360 := by decide +kernel
  have hw' : exTurnedRegion.width ≠ 360 := by decide +kernel
  have hb : TurnedBox (-170) exAroundRegion exTurnedRegion :=
    ⟨rfl, rfl, rfl, 0, by norm_num [exAroundRegion, exTurnedRegion], by norm_num [exAroundRegion, exTurnedRegion, eastEdge]⟩
  have hp' : ProperGrid exTurnedRegion 10 10 := by
    refine ⟨by norm_num [Valid, exTurnedRegion], by norm_num [exTurnedRegion], by norm_num, by norm_num, ?_⟩
    intro h
    exact absurd h hw'
  refine C118_turned (t := -170) hb ?_ exAround_all.1 ?_ exAround_all.2.1 exConfig exConfig exAroundRegion_proper hp'
    (by norm_num [exAroundRegion]) (fun h => absurd h hw) (fun h => absurd h hw')
    (by decide +kernel) (by decide +kernel) 1
  · refine .cons (.scalar rfl rfl rfl ?_) (.cons (.vector rfl rfl (Or.inl rfl) rfl rfl ?_) .nil)
    · unfold TurnedData; decide +kernel
    · unfold TurnedData; decide +kernel
  · intro s hs
    simp only [exTurnedSources, List.mem_cons, List.not_mem_nil, or_false] at hs
    rcases hs with rfl | rfl
    · refine .scalar rfl (by decide) (by simp) (Or.inl rfl) ⟨⟨_, rfl, by decide +kernel⟩, ?_, _, trim_eq ?_ (by intro h; cases h)⟩ <;>
        (unfold Dataset.Sorted; constructor <;> decide +kernel)
    · refine .vector (x := "u") (y := "v") rfl (by decide +kernel) (by decide) (by simp) rfl rfl
        ⟨⟨_, rfl, by decide +kernel⟩, ?_, _, trim_eq ?_ (by intro h; cases h)⟩ <;>
        (unfold Dataset.Sorted; constructor <;> decide +kernel)

end Verif
