import Verif.Model.Vector
import Verif.Props.Aggregate
import Mathlib.Tactic.Ring
import Mathlib.Tactic.IntervalCases

/-!
# C33 examples, C53 (aggregation of vectors), C54 (curl)
-/

namespace Verif
open Spec

/-! ## C33 with the vector loader -/

theorem vectorLoader_isVector {C : Type} (id : ℕ) {name x y : String} (hn : splitName name = [x, y]) (hxy : x ≠ y) (agg : AggType)
    (hom : Boundary → C → Dataset Vec → Py Verdict) :
    IsVector (vectorLoader id name agg hom) [x, y] (fun _ d => do
      let v ← vectorValue agg d
      return fun n => if n = x then v.1 else v.2) := by
  refine ⟨?_, hn, ?_⟩
  · show ',' ∈ name.toList
    by_contra h
    have := splitName_scalar h
    rw [hn] at this
    simp at this
  · intro b d f h
    cases hv : vectorValue agg d with
    | error e => simp only [hv, bind, Except.bind] at h; cases h
    | ok v =>
      simp only [hv, bind, Except.bind, pure, Except.pure] at h
      injection h with h
      subst h
      refine ⟨[(x, .num v.1), (y, .num v.2)], ?_, ?_, ?_⟩
      · show (vectorValue agg d >>= fun v => _) = _
        rw [hv]
        simp only [bind, Except.bind, hn]
        rfl
      · intro n hm
        simp only [List.mem_cons, List.not_mem_nil, or_false] at hm
        rcases hm with rfl | rfl
        · simp [Dict.get?]
        · simp [Dict.get?, hxy, Ne.symm hxy]
      · intro n hm
        simp only [List.mem_cons, List.not_mem_nil, or_false, not_or] at hm
        simp [Dict.get?, Ne.symm hm.1, Ne.symm hm.2]

/-- A vector source of the examples: one component missing in the cell. -/
def exVec (fill : Fill) (id : ℕ) (rows : List (Row Vec)) : Source (Dataset Vec) Cond :=
  ⟨vectorLoader id "u,v" .mean (fun _ _ _ => .ok .clr), [], fill, .table ⟨false, rows⟩⟩

/-- The parent has both components, the cell only one: the other is filled from the parent. -/
example : (sourceValue ⟨0, 5, 0, 5, []⟩ [(⟨0, 10, 0, 10, []⟩, [exVec .parent 0 [⟨7, 7, 0, (some 1, some 2)⟩]])]
    (exVec .parent 0 [⟨3, 3, 0, (some 5, none)⟩]) : Py (Dict String Val)) = .ok [("u", .num (some 5)), ("v", .num (some 2))] := by
  decide +kernel

/-- The hypotheses of `C33_parent_partial` are met there. -/
example : IsVector (exVec .parent 0 []).loader ["u", "v"] (fun _ d => do
      let v ← vectorValue .mean d
      return fun n => if n = "u" then v.1 else v.2) ∧ ["u", "v"].Nodup :=
  ⟨vectorLoader_isVector 0 (by decide +kernel) (by decide) .mean _, by decide⟩

/-- A constant fill leaves the component NaN and writes to the joined name. -/
example : (sourceValue ⟨0, 5, 0, 5, []⟩ [] (exVec (.const (.num (some 0))) 0 [⟨3, 3, 0, (some 5, none)⟩]) : Py (Dict String Val)) =
    .ok [("u", .num (some 5)), ("v", .num none), ("u,v", .num (some 0))] := by decide +kernel

/-- The second source, without data, wipes out the values of the first. -/
theorem C33_false : ∃ c : CellBox (List (Source (Dataset Vec) Cond)), ∃ s1 s2, c.data = [s1, s2] ∧
    (sourceValue c.bounds c.anc s1 : Py (Dict String Val)) = .ok [("u", .num (some 1)), ("v", .num (some 2))] ∧
    (aggregate c : Py (Dict String Val)) = .ok [("u", .num none), ("v", .num none)] :=
  ⟨⟨⟨0, 5, 0, 5, []⟩, 3, 0, [exVec .parent 0 [⟨3, 3, 0, (some 1, some 2)⟩], exVec .parent 1 []], []⟩, _, _, rfl,
    by decide +kernel, by decide +kernel⟩

/-! ## C53: aggregation of vectors -/

/-- The datapoints with both components. -/
def Spec.complete (l : List Vec) : List (ℚ × ℚ) :=
  l.filterMap (fun v => match v with | (some x, some y) => some (x, y) | _ => none)

/-- Squared length. -/
def Spec.normSq (p : ℚ × ℚ) : ℚ := p.1 ^ 2 + p.2 ^ 2

theorem complete_nil_iff (l : List Vec) : complete l = [] ↔ ∀ v ∈ l, v.magSq = none := by
  unfold complete
  rw [List.filterMap_eq_nil_iff]
  apply forall₂_congr
  rintro ⟨x, y⟩ _
  cases x <;> cases y <;> simp [Vec.magSq]

theorem mem_complete {l : List Vec} {p : ℚ × ℚ} : p ∈ complete l ↔ (some p.1, some p.2) ∈ l := by
  unfold complete
  rw [List.mem_filterMap]
  constructor
  · rintro ⟨⟨x, y⟩, h1, h2⟩
    cases x <;> cases y <;> simp only [reduceCtorEq, Option.some.injEq] at h2
    subst h2; exact h1
  · intro h; exact ⟨_, h, rfl⟩

/-- What a good comparison is: replaced only by better ones. -/
theorem best_fold (better : ℚ → ℚ → Bool) (le : ℚ → ℚ → Prop) (hrefl : ∀ a, le a a) (htrans : ∀ a b c, le a b → le b c → le a c)
    (h1 : ∀ a b, better a b = true → le a b) (h2 : ∀ a b, better a b = false → le b a) (rest : List Vec) (v : Vec) (m : ℚ)
    (hm : v.magSq = some m) :
    ∃ w k, rest.foldl (pickStep better) (v, m) = (w, k) ∧ w ∈ v :: rest ∧ w.magSq = some k ∧ ∀ u ∈ v :: rest, ∀ j, u.magSq = some j → le k j := by
  induction rest generalizing v m with
  | nil =>
    refine ⟨v, m, rfl, by simp, hm, ?_⟩
    intro u hu j hj
    simp only [List.mem_singleton] at hu
    subst hu
    rw [hm] at hj
    cases hj
    exact hrefl m
  | cons x rest ih =>
    rw [List.foldl_cons]
    cases hx : x.magSq with
    | none =>
      simp only [pickStep, hx]
      obtain ⟨w, k, e1, e2, e3, e4⟩ := ih v m hm
      refine ⟨w, k, e1, ?_, e3, ?_⟩
      · rcases List.mem_cons.1 e2 with rfl | e2
        · simp
        · simp [e2]
      · intro u hu j hj
        rcases List.mem_cons.1 hu with rfl | hu
        · exact e4 u (by simp) j hj
        · rcases List.mem_cons.1 hu with rfl | hu
          · rw [hx] at hj; cases hj
          · exact e4 u (by simp [hu]) j hj
    | some kx =>
      simp only [pickStep, hx]
      cases hb : better kx m with
      | true =>
        simp only [if_true]
        obtain ⟨w, k, e1, e2, e3, e4⟩ := ih x kx hx
        refine ⟨w, k, e1, by simp only [List.mem_cons] at e2 ⊢; tauto, e3, ?_⟩
        intro u hu j hj
        rcases List.mem_cons.1 hu with rfl | hu
        · rw [hm] at hj; cases hj
          exact htrans _ _ _ (e4 x (by simp) kx hx) (h1 _ _ hb)
        · exact e4 u hu j hj
      | false =>
        simp only [Bool.false_eq_true, if_false]
        obtain ⟨w, k, e1, e2, e3, e4⟩ := ih v m hm
        refine ⟨w, k, e1, by simp only [List.mem_cons] at e2 ⊢; tauto, e3, ?_⟩
        intro u hu j hj
        rcases List.mem_cons.1 hu with rfl | hu
        · exact e4 u (by simp) j hj
        · rcases List.mem_cons.1 hu with rfl | hu
          · rw [hx] at hj; cases hj
            exact htrans _ _ _ (e4 v (by simp) m hm) (h2 _ _ hb)
          · exact e4 u (by simp [hu]) j hj

theorem pickVec_spec (better : ℚ → ℚ → Bool) (le : ℚ → ℚ → Prop) (hrefl : ∀ a, le a a) (htrans : ∀ a b c, le a b → le b c → le a c)
    (h1 : ∀ a b, better a b = true → le a b) (h2 : ∀ a b, better a b = false → le b a) (l : List Vec) :
    (complete l = [] ∧ pickVec better l = (none, none)) ∨
    ∃ p ∈ complete l, pickVec better l = (some p.1, some p.2) ∧ ∀ q ∈ complete l, le (normSq p) (normSq q) := by
  have key : (∀ v ∈ l, v.magSq = none) ∧ bestVec better l = none ∨
      ∃ w k, bestVec better l = some (w, k) ∧ w ∈ l ∧ w.magSq = some k ∧ ∀ u ∈ l, ∀ j, u.magSq = some j → le k j := by
    induction l with
    | nil => left; exact ⟨by simp, rfl⟩
    | cons v rest ih =>
      unfold bestVec
      cases hv : v.magSq with
      | none =>
        simp only
        rcases ih with ⟨a, b⟩ | ⟨w, k, a, b, c, d⟩
        · left; exact ⟨by simpa [hv] using a, b⟩
        · right
          refine ⟨w, k, a, by simp [b], c, ?_⟩
          intro u hu j hj
          rcases List.mem_cons.1 hu with rfl | hu
          · rw [hv] at hj; cases hj
          · exact d u hu j hj
      | some m =>
        right
        obtain ⟨w, k, a, b, c, d⟩ := best_fold better le hrefl htrans h1 h2 rest v m hv
        exact ⟨w, k, congrArg some a, b, c, d⟩
  rcases key with ⟨a, b⟩ | ⟨w, k, a, b, c, d⟩
  · left; exact ⟨(complete_nil_iff l).2 a, by unfold pickVec; rw [b]⟩
  · right
    obtain ⟨x, y⟩ := w
    cases x with
    | none => simp [Vec.magSq] at c
    | some x =>
      cases y with
      | none => simp [Vec.magSq] at c
      | some y =>
        refine ⟨(x, y), mem_complete.2 b, by unfold pickVec; rw [a], ?_⟩
        intro q hq
        simp only [Vec.magSq, Option.some.injEq] at c
        have := d _ (mem_complete.1 hq) (normSq q) rfl
        rw [← c] at this
        exact this

/-- The aggregated vector of a table (`grid = false`) or grid (`grid = true`) with the given datapoints. -/
def vectorOf (grid : Bool) (agg : AggType) (l : List Vec) : Py Vec := if grid then vectorValueXr agg l else vectorValueDf agg l

/-- **C53**, least and greatest vector: MIN (MAX) gives both components of one and the same datapoint, whose
length is least (greatest) among the complete datapoints; NaN exactly if no datapoint is complete. -/
theorem C53_extreme (grid : Bool) (l : List Vec) :
    ((complete l = [] ∧ vectorOf grid .min l = .ok (none, none)) ∨
      ∃ p ∈ complete l, vectorOf grid .min l = .ok (some p.1, some p.2) ∧ ∀ q ∈ complete l, normSq p ≤ normSq q) ∧
    ((complete l = [] ∧ vectorOf grid .max l = .ok (none, none)) ∨
      ∃ p ∈ complete l, vectorOf grid .max l = .ok (some p.1, some p.2) ∧ ∀ q ∈ complete l, normSq q ≤ normSq p) := by
  have hmin : vectorOf grid .min l = .ok (pickVec (fun a b => a < b) l) := by
    have hnil : complete l = [] → pickVec (fun a b => decide (a < b)) l = (none, none) := by
      intro h
      rcases pickVec_spec (fun a b => decide (a < b)) (· ≤ ·) (fun _ => le_refl _) (fun _ _ _ => le_trans)
        (fun a b h => le_of_lt (by simpa using h)) (fun a b h => by simpa using h) l with ⟨_, e⟩ | ⟨p, hp, -⟩
      · exact e
      · rw [h] at hp; cases hp
    cases grid
    · simp only [vectorOf, vectorValueDf, Bool.false_eq_true, if_false]
      split
      · rename_i e; subst e; rfl
      · rfl
    · simp only [vectorOf, vectorValueXr, if_true]
      split
      · rename_i e; subst e; rfl
      · split
        · rename_i e
          rw [hnil ((complete_nil_iff l).2 (by simpa using e))]
        · rfl
  have hmax : vectorOf grid .max l = .ok (pickVec (fun a b => a > b) l) := by
    have hnil : complete l = [] → pickVec (fun a b => decide (a > b)) l = (none, none) := by
      intro h
      rcases pickVec_spec (fun a b => decide (a > b)) (· ≥ ·) (fun _ => le_refl _) (fun _ _ _ => ge_trans)
        (fun a b h => le_of_lt (by simpa using h)) (fun a b h => by simpa using h) l with ⟨_, e⟩ | ⟨p, hp, -⟩
      · exact e
      · rw [h] at hp; cases hp
    cases grid
    · simp only [vectorOf, vectorValueDf, Bool.false_eq_true, if_false]
      split
      · rename_i e; subst e; rfl
      · rfl
    · simp only [vectorOf, vectorValueXr, if_true]
      split
      · rename_i e; subst e; rfl
      · split
        · rename_i e
          rw [hnil ((complete_nil_iff l).2 (by simpa using e))]
        · rfl
  rw [hmin, hmax]
  constructor
  · rcases pickVec_spec (fun a b => decide (a < b)) (· ≤ ·) (fun _ => le_refl _) (fun _ _ _ => le_trans)
        (fun a b h => le_of_lt (by simpa using h)) (fun a b h => by simpa using h) l with ⟨h, e⟩ | ⟨p, hp, e, h⟩
    · left; exact ⟨h, by rw [e]⟩
    · right; exact ⟨p, hp, by rw [e], h⟩
  · rcases pickVec_spec (fun a b => decide (a > b)) (· ≥ ·) (fun _ => le_refl _) (fun _ _ _ => ge_trans)
        (fun a b h => le_of_lt (by simpa using h)) (fun a b h => by simpa using h) l with ⟨h, e⟩ | ⟨p, hp, e, h⟩
    · left; exact ⟨h, by rw [e]⟩
    · right; exact ⟨p, hp, by rw [e], h⟩

example : vectorOf false .min [(some 3, some 4), (some 1, none), (some 1, some 1), (some (-1), some 1)] = .ok (some 1, some 1) ∧
    vectorOf true .max [(some 3, some 4), (some 9, none), (some 1, some 1)] = .ok (some 3, some 4) := by decide +kernel

/-- A mean of the present values, NaN if there are none. -/
def Spec.IsMeanOf (l : List ℚ) (v : Option ℚ) : Prop := (l = [] ∧ v = none) ∨ ∃ x, v = some x ∧ l ≠ [] ∧ x * l.length = l.sum

theorem listMean_isMeanOf (l : List ℚ) : IsMeanOf l (listMean l) := by
  unfold listMean
  by_cases h : l = []
  · left; simp [h]
  · right
    rw [if_neg h]
    exact ⟨_, rfl, h, div_mul_cancel₀ _ (length_pos_of_ne_nil h).ne'⟩

/-- **C53**, mean: MEAN is computed component by component from the present values; for grids without any
complete datapoint it is NaN in both components. -/
theorem C53_mean (grid : Bool) (l : List Vec) :
    ∃ v, vectorOf grid .mean l = .ok v ∧
      (if grid = true ∧ complete l = [] then v = (none, none)
        else IsMeanOf (l.filterMap Prod.fst) v.1 ∧ IsMeanOf (l.filterMap Prod.snd) v.2) := by
  cases grid
  · simp only [vectorOf, vectorValueDf, Bool.false_eq_true, if_false, false_and]
    by_cases h : l = []
    · subst h
      exact ⟨(none, none), by simp, Or.inl ⟨rfl, rfl⟩, Or.inl ⟨rfl, rfl⟩⟩
    · rw [if_neg h]
      exact ⟨_, rfl, listMean_isMeanOf _, listMean_isMeanOf _⟩
  · simp only [vectorOf, vectorValueXr, if_true, true_and]
    by_cases h : complete l = []
    · refine ⟨(none, none), ?_, by rw [if_pos h]⟩
      split
      · rfl
      · rw [if_pos (by simpa using (complete_nil_iff l).1 h)]
    · have hne : l ≠ [] := by rintro rfl; exact h rfl
      rw [if_neg hne, if_neg (by
        intro e; exact h ((complete_nil_iff l).2 (by simpa using e)))]
      exact ⟨_, rfl, by rw [if_neg h]; exact ⟨listMean_isMeanOf _, listMean_isMeanOf _⟩⟩

example : vectorOf false .mean [(some 3, none), (some 1, none)] = .ok (some 2, none) ∧
    vectorOf true .mean [(some 3, none), (some 1, none)] = .ok (none, none) := by decide +kernel

/-- **C53**: tables and grids differ on data with an incomplete datapoint. -/
theorem C53_incomplete_false : ¬ ∀ l : List Vec, vectorOf true .mean l = vectorOf false .mean l := fun h =>
  absurd (h [(some 3, none), (some 1, none)]) (by decide +kernel)

/-- **C53**, tables and grids agree on MIN, MAX, MEAN of data whose datapoints are all complete.  (Partial: missing
are incomplete datapoints, for which they differ, `C53_incomplete_false`.) -/
theorem C53_table_grid_agree_partial {l : List Vec} (h : ∀ v ∈ l, v.1.isSome ∧ v.2.isSome) (agg : AggType)
    (hagg : agg ∈ [AggType.min, .max, .mean, .count]) : vectorOf true agg l = vectorOf false agg l := by
  simp only [vectorOf, vectorValueXr, vectorValueDf, if_true, Bool.false_eq_true, if_false]
  by_cases hn : l = []
  · simp [hn]
  · rw [if_neg hn, if_neg hn, if_neg]
    · simp only [List.mem_cons, List.not_mem_nil, or_false] at hagg
      rcases hagg with rfl | rfl | rfl | rfl <;> rfl
    · intro e
      obtain ⟨v, hv⟩ := List.exists_mem_of_ne_nil l hn
      have h1 := h v hv
      have h2 := (List.all_eq_true.1 e) v hv
      obtain ⟨x, y⟩ := v
      cases x <;> cases y <;> simp [Vec.magSq] at h1 h2

/-- **C53**, errors: MEDIAN and unknown types raise `ValueError` exactly if there is data (for grids: a
complete datapoint); a cell without any datapoint gets NaN even for COUNT (for scalar data it is 0). -/
theorem C53_errors (grid : Bool) (l : List Vec) :
    (∀ agg, agg ∉ [AggType.min, .max, .mean, .std, .count] →
      vectorOf grid agg l = if (if grid then complete l = [] else l = []) then .ok (none, none) else .error .valueError) ∧
    (∀ agg, vectorOf grid agg [] = .ok (none, none)) ∧
    vectorOf grid .count l = if (if grid then complete l = [] else l = []) then .ok (none, none)
      else .ok (some (l.length : ℚ), some (l.length : ℚ)) := by
  have hall : l.all (fun v => v.magSq.isNone) = true ↔ complete l = [] := by
    rw [complete_nil_iff]; simp
  have hgen : ∀ agg, vectorOf true agg l = if complete l = [] then .ok (none, none) else
      (match agg with
        | .count => .ok (some (l.length : ℚ), some (l.length : ℚ))
        | .min => .ok (pickVec (fun a b => a < b) l)
        | .max => .ok (pickVec (fun a b => a > b) l)
        | .mean => .ok (listMean (xsOf l), listMean (ysOf l))
        | .std => .ok (listVarPop (xsOf l), listVarPop (ysOf l))
        | _ => .error .valueError) := by
    intro agg
    simp only [vectorOf, vectorValueXr, if_true]
    by_cases hn : complete l = []
    · rw [if_pos hn, if_pos (hall.2 hn)]; split <;> rfl
    · have hne : l ≠ [] := by rintro rfl; exact hn rfl
      rw [if_neg hn, if_neg hne, if_neg (fun e => hn (hall.1 e))]
      rfl
  refine ⟨?_, ?_, ?_⟩
  · intro agg hagg
    simp only [List.mem_cons, List.not_mem_nil, or_false, not_or] at hagg
    cases grid
    · simp only [vectorOf, vectorValueDf, Bool.false_eq_true, if_false]
      by_cases hn : l = []
      · simp [hn]
      · rw [if_neg hn, if_neg hn]
        cases agg <;> simp_all
    · rw [hgen]
      simp only [if_true]
      by_cases hn : complete l = []
      · simp [hn]
      · rw [if_neg hn, if_neg hn]
        cases agg <;> simp_all
  · intro agg
    cases grid <;> rfl
  · cases grid
    · rfl
    · rw [hgen]; rfl

example : vectorOf false .median [(some 1, some 2)] = .error .valueError ∧ vectorOf false .count [] = .ok (none, none) ∧
    vectorOf true .median [(some 1, none)] = .ok (none, none) := by decide +kernel

/-! ## C54: curl -/

theorem gradient1_linear {n : ℕ} {f : ℕ → ℚ} {p q : ℚ} (hf : ∀ i, i < n → f i = p + q * i) {i : ℕ} (hi : i < n) (hn : 2 ≤ n) :
    gradient1 n f i = q := by
  unfold gradient1
  by_cases h0 : i = 0
  · rw [if_pos h0, hf 1 (by omega), hf 0 (by omega)]; push_cast; ring
  · rw [if_neg h0]
    by_cases h1 : i + 1 = n
    · rw [if_pos h1, hf i hi, hf (i - 1) (by omega), Nat.cast_sub (by omega)]; push_cast; ring
    · rw [if_neg h1, hf (i + 1) (by omega), hf (i - 1) (by omega), Nat.cast_sub (by omega)]; push_cast; ring

/-- Equally spaced coordinates. -/
def Spec.Spaced (l : List ℚ) (start step : ℚ) : Prop := ∀ i, i < l.length → l.getD i 0 = start + step * i

/-- **C54**, tables: the curl of the linear field `(a x + b y, c x + d y)` on an equally spaced table with at
least two latitudes and longitudes is, at every point, the change of the second component along the
longitude minus the change of the first along the latitude, per step. -/
theorem C54_table_curl_partial {lats longs : List ℚ} {y0 hy x0 hx : ℚ} (hl : Spaced lats y0 hy) (hg : Spaced longs x0 hx)
    (h1 : 2 ≤ lats.length) (h2 : 2 ≤ longs.length) (a b c d : ℚ) :
    ∃ F, curlDf lats longs (fun y x => a * x + b * y) (fun y x => c * x + d * y) = some F ∧
      ∀ i < longs.length, ∀ j < lats.length, F.at_ i j = c * hx - b * hy := by
  unfold curlDf curlOf meshgridDf
  rw [if_neg (by simp only; omega)]
  refine ⟨_, rfl, ?_⟩
  intro i hi j hj
  simp only
  rw [gradient1_linear (p := c * x0 + d * lats.getD j 0) (q := c * hx) (fun k hk => by rw [hg k hk]; ring) hi h2,
    gradient1_linear (p := a * longs.getD i 0 + b * y0) (q := b * hy) (fun k hk => by rw [hl k hk]; ring) hj h1]

/-- **C54 is false for grids**: with dimensions in the order latitude, longitude, the axes are exchanged, and
the result is the change of the second component along the latitude minus that of the first along the
longitude. -/
theorem C54_grid_curl {lats longs : List ℚ} {y0 hy x0 hx : ℚ} (hl : Spaced lats y0 hy) (hg : Spaced longs x0 hx)
    (h1 : 2 ≤ lats.length) (h2 : 2 ≤ longs.length) (a b c d : ℚ) :
    ∃ F, curlXr lats longs (fun y x => a * x + b * y) (fun y x => c * x + d * y) = some F ∧
      ∀ i < lats.length, ∀ j < longs.length, F.at_ i j = d * hy - a * hx := by
  unfold curlXr curlOf meshgridXr
  rw [if_neg (by simp only; omega)]
  refine ⟨_, rfl, ?_⟩
  intro i hi j hj
  simp only
  rw [gradient1_linear (p := c * longs.getD j 0 + d * y0) (q := d * hy) (fun k hk => by rw [hl k hk]; ring) hi h1,
    gradient1_linear (p := a * x0 + b * lats.getD i 0) (q := a * hx) (fun k hk => by rw [hg k hk]; ring) hj h2]

theorem spaced_three : Spaced [0, 1, 2] 0 1 := by
  intro i hi
  simp only [List.length_cons, List.length_nil] at hi
  interval_cases i <;> norm_num

/-- A rotation has curl 2 as a table and 0 as a grid; a source has curl 0 as a table but not as a grid. -/
theorem C54_false : ∃ (lats longs : List ℚ) (fx fy : ℚ → ℚ → ℚ) (F G : Field), curlDf lats longs fx fy = some F ∧
    curlXr lats longs fx fy = some G ∧ F.at_ 1 1 = 2 ∧ G.at_ 1 1 = 0 := by
  obtain ⟨F, h1, h2⟩ := C54_table_curl_partial spaced_three spaced_three (by simp) (by simp) 0 (-1) 1 0
  obtain ⟨G, g1, g2⟩ := C54_grid_curl spaced_three spaced_three (by simp) (by simp) 0 (-1) 1 0
  exact ⟨_, _, _, _, F, G, h1, g1, by rw [h2 1 (by simp) 1 (by simp)]; norm_num, by rw [g2 1 (by simp) 1 (by simp)]; norm_num⟩

end Verif
