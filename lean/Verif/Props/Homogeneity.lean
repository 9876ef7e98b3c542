import Verif.Props.Trim
import Mathlib.Algebra.Order.Field.Basic

/-!
# C27, C28: homogeneity verdicts and the split decision
-/

namespace Verif
open Spec

variable {S C : Type}

/-! ## C27 -/

/-- The values that are not missing. -/
def Spec.presentValues (vals : List (Option ℚ)) : List ℚ := vals.filterMap id

/-- The fraction of the present values that are over the threshold (0 if there are none). -/
def Spec.fractionOver (th : ℚ) (vals : List (Option ℚ)) : ℚ :=
  (((presentValues vals).filter (fun x => th < x)).length : ℚ) / (presentValues vals).length

theorem numNonNan_eq (vals : List (Option ℚ)) : numNonNan vals = (presentValues vals).length := by
  unfold numNonNan presentValues
  induction vals with
  | nil => rfl
  | cons a l ih => cases a <;> simp [ih]

theorem numOver_eq (th : ℚ) (vals : List (Option ℚ)) : numOver th vals = ((presentValues vals).filter (fun x => th < x)).length := by
  unfold numOver presentValues
  induction vals with
  | nil => rfl
  | cons a l ih =>
    cases a with
    | none => simpa using ih
    | some x =>
      by_cases h : th < x
      · simpa [h] using ih
      · simpa [h] using ih

theorem fractionOver_range (th : ℚ) (vals : List (Option ℚ)) : 0 ≤ fractionOver th vals ∧ fractionOver th vals ≤ 1 := by
  unfold fractionOver
  constructor
  · positivity
  · apply div_le_one_of_le₀
    · exact_mod_cast List.length_filter_le _ _
    · positivity

theorem homCondition_eq (minDp : ℕ) (c : Cond) (vals : List (Option ℚ)) (h : minDp ≤ vals.length) :
    homCondition minDp c vals = if fractionOver c.threshold vals ≤ c.lower then .clr
      else if fractionOver c.threshold vals ≥ c.upper then (if c.splitLock = true then .hom else .clr) else .het := by
  unfold homCondition
  rw [if_neg (by omega)]
  have e : (if numNonNan vals > 0 then (numOver c.threshold vals : ℚ) / numNonNan vals else 0) = fractionOver c.threshold vals := by
    unfold fractionOver
    rw [numNonNan_eq, numOver_eq]
    split
    · rfl
    · rename_i h
      have : (presentValues vals).length = 0 := by omega
      rw [this]; simp
  rw [e]

/-- **C27**: the verdict as a decision table on the fraction of present values over the threshold; the
fraction is between 0 and 1; the verdict is never `MIN`. -/
theorem C27_decision (minDp : ℕ) (c : Cond) (vals : List (Option ℚ)) :
    (vals.length < minDp → homCondition minDp c vals = .clr) ∧
    (minDp ≤ vals.length → 0 ≤ fractionOver c.threshold vals ∧ fractionOver c.threshold vals ≤ 1 ∧
      (fractionOver c.threshold vals ≤ c.lower → homCondition minDp c vals = .clr) ∧
      (c.lower < fractionOver c.threshold vals → c.upper ≤ fractionOver c.threshold vals →
        homCondition minDp c vals = if c.splitLock = true then .hom else .clr) ∧
      (c.lower < fractionOver c.threshold vals → fractionOver c.threshold vals < c.upper → homCondition minDp c vals = .het)) ∧
    homCondition minDp c vals ≠ .min := by
  refine ⟨?_, ?_, ?_⟩
  · intro h; unfold homCondition; rw [if_pos h]
  · intro h
    obtain ⟨h0, h1⟩ := fractionOver_range c.threshold vals
    refine ⟨h0, h1, ?_, ?_, ?_⟩
    · intro h2; rw [homCondition_eq _ _ _ h, if_pos h2]
    · intro h2 h3; rw [homCondition_eq _ _ _ h, if_neg (not_le.2 h2), if_pos h3]
    · intro h2 h3; rw [homCondition_eq _ _ _ h, if_neg (not_le.2 h2), if_neg (not_le.2 h3)]
  · rcases Nat.lt_or_ge vals.length minDp with h | h
    · unfold homCondition; rw [if_pos h]; simp
    · rw [homCondition_eq _ _ _ h]
      split
      · simp
      · split
        · split <;> simp
        · simp

/-- **C27**: the verdict does not depend on the order of the datapoints. -/
theorem C27_order (minDp : ℕ) (c : Cond) {vals vals' : List (Option ℚ)} (h : vals.Perm vals') :
    homCondition minDp c vals = homCondition minDp c vals' := by
  unfold homCondition numOver numNonNan
  rw [h.length_eq, h.countP_eq, h.countP_eq]

/-- **C27**: scaling (by a positive factor) and shifting data and threshold together does not change the
verdict. -/
theorem C27_scale (minDp : ℕ) (c : Cond) (vals : List (Option ℚ)) (k s : ℚ) (hk : 0 < k) :
    homCondition minDp { c with threshold := k * c.threshold + s } (vals.map (Option.map (fun x => k * x + s))) =
      homCondition minDp c vals := by
  have h1 : ∀ l : List (Option ℚ), numNonNan (l.map (Option.map (fun x => k * x + s))) = numNonNan l := by
    intro l
    unfold numNonNan
    rw [List.countP_map]
    apply List.countP_congr
    intro v _
    cases v <;> simp
  have h2 : ∀ l : List (Option ℚ), numOver (k * c.threshold + s) (l.map (Option.map (fun x => k * x + s))) = numOver c.threshold l := by
    intro l
    unfold numOver
    rw [List.countP_map]
    apply List.countP_congr
    intro v _
    cases v with
    | none => simp
    | some x =>
      simp only [Function.comp, Option.map_some, gt_iff_lt, decide_eq_true_eq, add_lt_add_iff_right]
      exact mul_lt_mul_iff_right₀ hk
  unfold homCondition
  simp only [h1, h2, List.length_map]

example : homCondition 5 ⟨10, 1 / 10, 9 / 10, true⟩ [some 12, none, some 3, some 40, some 10] = .het ∧
    fractionOver 10 [some 12, none, some 3, some 40, some 10] = 1 / 2 := by
  constructor
  · decide +kernel
  · norm_num [fractionOver, presentValues, List.filterMap_cons, List.filter_cons]

/-! ## C28 -/

theorem decideSplit_iff (l : List Verdict) :
    decideSplit l = true ↔ (∀ v ∈ l, v ≠ .hom ∧ v ≠ .min) ∧ ∃ v ∈ l, v ≠ .clr := by
  unfold decideSplit
  split
  · rename_i h
    simp only [Bool.false_eq_true, false_iff, not_and]
    intro h'
    exact absurd rfl (h' _ h).1
  · rename_i h1
    split
    · rename_i h
      simp only [Bool.false_eq_true, false_iff, not_and]
      intro h'
      exact absurd rfl (h' _ h).2
    · rename_i h2
      split
      · rename_i h
        simp only [Bool.false_eq_true, false_iff]
        rintro ⟨-, v, hv, hne⟩
        exact hne (List.count_eq_length.1 h v hv).symm
      · rename_i h
        simp only [true_iff]
        refine ⟨fun v hv => ⟨fun e => h1 (e ▸ hv), fun e => h2 (e ▸ hv)⟩, ?_⟩
        by_contra hc
        push Not at hc
        exact h (List.count_eq_length.2 (fun v hv => (hc v hv).symm))

theorem mapM_ok {α β : Type} (f : α → Py β) : ∀ (l : List α) (r : List β), l.mapM f = .ok r → List.Forall₂ (fun a b => f a = .ok b) l r := by
  intro l
  induction l with
  | nil =>
    intro r h
    simp only [List.mapM_nil, pure, Except.pure, Except.ok.injEq] at h
    subst h
    exact .nil
  | cons a l ih =>
    intro r h
    simp only [List.mapM_cons, bind, Except.bind, pure, Except.pure] at h
    split at h
    · cases h
    · rename_i b hb
      split at h
      · cases h
      · rename_i r' hr
        cases h
        exact .cons hb (ih r' hr)

theorem verdictsOf_ok {b : Boundary} : ∀ {d : List (Source S C)} {l : List Verdict}, verdictsOf b d = .ok l →
    ∀ v, v ∈ l ↔ ∃ s ∈ d, ∃ c ∈ s.conds, s.loader.homCond b c s.subset = .ok v := by
  intro d
  induction d with
  | nil =>
    intro l h v
    cases h
    simp
  | cons s d ih =>
    intro l h v
    simp only [verdictsOf, bind, Except.bind, pure, Except.pure] at h
    split at h
    · cases h
    · rename_i l1 h1
      split at h
      · cases h
      · rename_i l2 h2
        cases h
        have hF := mapM_ok _ _ _ h1
        have key : v ∈ l1 ↔ ∃ c ∈ s.conds, s.loader.homCond b c s.subset = .ok v := by
          clear h1 h2 ih
          generalize s.conds = cs at hF
          induction hF with
          | nil => simp
          | cons hab _ ih' =>
            rw [List.mem_cons, ih']
            constructor
            · rintro (rfl | ⟨c, hc, e⟩)
              · exact ⟨_, List.mem_cons_self .., hab⟩
              · exact ⟨c, List.mem_cons_of_mem _ hc, e⟩
            · rintro ⟨c, hc, e⟩
              rcases List.mem_cons.1 hc with rfl | hc
              · left; rw [hab] at e; cases e; rfl
              · exact Or.inr ⟨c, hc, e⟩
        rw [List.mem_append, key, ih h2]
        constructor
        · rintro (⟨c, hc, e⟩ | ⟨s', hs', c, hc, e⟩)
          · exact ⟨s, List.mem_cons_self .., c, hc, e⟩
          · exact ⟨s', List.mem_cons_of_mem _ hs', c, hc, e⟩
        · rintro ⟨s', hs', c, hc, e⟩
          rcases List.mem_cons.1 hs' with rfl | hs'
          · exact Or.inl ⟨c, hc, e⟩
          · exact Or.inr ⟨s', hs', c, hc, e⟩

/-- **C28**: when the decision over the first `stop` sources does not raise, the cell is split exactly if
none of their conditions reports HOM or MIN and some condition reports something other than CLR. -/
theorem C28_split_iff {stop : ℕ} {b : Boundary} {d : List (Source S C)} {r : Bool} (h : shouldSplit stop b d = .ok r) :
    stop ≤ d.length ∧ (r = true ↔
      (¬ ∃ s ∈ d.take stop, ∃ c ∈ s.conds, s.loader.homCond b c s.subset = .ok .hom ∨ s.loader.homCond b c s.subset = .ok .min) ∧
      ∃ s ∈ d.take stop, ∃ c ∈ s.conds, ∃ v, s.loader.homCond b c s.subset = .ok v ∧ v ≠ .clr) := by
  unfold shouldSplit at h
  simp only [bind, Except.bind, pure, Except.pure] at h
  split at h
  · cases h
  · rename_i l hl
    split at h
    · cases h
    · rename_i hle
      cases h
      have hv := verdictsOf_ok hl
      refine ⟨by omega, ?_⟩
      rw [decideSplit_iff]
      constructor
      · rintro ⟨h1, v, hvl, hne⟩
        refine ⟨?_, ?_⟩
        · rintro ⟨s, hs, c, hc, e | e⟩
          · exact (h1 _ ((hv _).2 ⟨s, hs, c, hc, e⟩)).1 rfl
          · exact (h1 _ ((hv _).2 ⟨s, hs, c, hc, e⟩)).2 rfl
        · obtain ⟨s, hs, c, hc, e⟩ := (hv v).1 hvl
          exact ⟨s, hs, c, hc, v, e, hne⟩
      · rintro ⟨h1, s, hs, c, hc, v, e, hne⟩
        refine ⟨?_, v, (hv v).2 ⟨s, hs, c, hc, e⟩, hne⟩
        intro w hw
        obtain ⟨s, hs, c, hc, e⟩ := (hv w).1 hw
        constructor
        · rintro rfl; exact h1 ⟨s, hs, c, hc, Or.inl e⟩
        · rintro rfl; exact h1 ⟨s, hs, c, hc, Or.inr e⟩

/-- **C28**: a source that reports HOM for one of its conditions, wherever it stands among the sources
considered, prevents splitting. -/
theorem C28_locked {stop : ℕ} {b : Boundary} {d : List (Source S C)} {s : Source S C} (hs : s ∈ d.take stop) {c : C} (hc : c ∈ s.conds)
    (hom : s.loader.homCond b c s.subset = .ok .hom) : shouldSplit stop b d ≠ .ok true := by
  intro h
  exact ((C28_split_iff h).2.1 rfl).1 ⟨s, hs, c, hc, Or.inl hom⟩

/-- **C28**: the depth-first decision over all sources is the breadth-first decision. -/
theorem C28_breadth_first (b : Boundary) (d : List (Source S C)) : shouldSplit d.length b d = shouldSplitBreadthFirst b d := by
  unfold shouldSplit shouldSplitBreadthFirst
  rw [List.take_length]
  simp

/-- **C28**: the decision does not depend on the order of the sources. -/
theorem C28_order {b : Boundary} {d d' : List (Source S C)} (hp : d.Perm d') {r r' : Bool}
    (h : shouldSplitBreadthFirst b d = .ok r) (h' : shouldSplitBreadthFirst b d' = .ok r') : r = r' := by
  rw [← C28_breadth_first] at h h'
  have e := (C28_split_iff h).2
  have e' := (C28_split_iff h').2
  rw [List.take_length] at e e'
  have : r = true ↔ r' = true := by
    rw [e, e']
    simp only [hp.mem_iff]
  cases r <;> cases r' <;> simp_all

/-- **C28**, scalar sources: the decision never raises as long as there are enough sources. -/
theorem C28_scalar_total (stop : ℕ) (b : Boundary) (d : List (Source (Dataset (Option ℚ)) Cond)) (hle : stop ≤ d.length)
    (hd : ∀ s ∈ d, ∃ id name agg minDp, s.loader = scalarLoader id name agg minDp) : ∃ r, shouldSplit stop b d = .ok r := by
  have hv : ∀ d' : List (Source (Dataset (Option ℚ)) Cond), (∀ s ∈ d', ∃ id name agg minDp, s.loader = scalarLoader id name agg minDp) →
      ∃ l, verdictsOf b d' = .ok l := by
    intro d'
    induction d' with
    | nil => intro _; exact ⟨[], rfl⟩
    | cons s d' ih =>
      intro h
      obtain ⟨l, hl⟩ := ih (fun s hs => h s (List.mem_cons_of_mem _ hs))
      obtain ⟨id, name, agg, minDp, e⟩ := h s (List.mem_cons_self ..)
      have : ∀ cs : List Cond, ∃ l, cs.mapM (fun c => s.loader.homCond b c s.subset) = (.ok l : Py _) := by
        intro cs
        induction cs with
        | nil => exact ⟨[], rfl⟩
        | cons c cs ih =>
          obtain ⟨l, hl⟩ := ih
          rw [List.mapM_cons, hl, e]
          exact ⟨_, rfl⟩
      obtain ⟨l', hl'⟩ := this s.conds
      refine ⟨l' ++ l, ?_⟩
      simp only [verdictsOf, hl, Source.verdicts, hl', bind, Except.bind, pure, Except.pure]
  obtain ⟨l, hl⟩ := hv (d.take stop) (fun s hs => hd s (List.mem_of_mem_take hs))
  unfold shouldSplit
  rw [hl]
  simp only [bind, Except.bind, pure, Except.pure]
  rw [if_neg (by omega)]
  exact ⟨_, rfl⟩

/-- A locked homogeneous source beside a heterogeneous one. -/
def exLock : List (Source (Dataset (Option ℚ)) Cond) :=
  [⟨scalarLoader 0 "a" .mean 2, [⟨3, 0, 1, false⟩], .parent, exTable⟩, ⟨scalarLoader 1 "b" .max 2, [⟨0, 0, 1 / 2, true⟩], .parent, exTable⟩]

example : shouldSplit 1 exRegion exLock = .ok true ∧ shouldSplit 2 exRegion exLock = .ok false ∧
    shouldSplitBreadthFirst exRegion exLock = .ok false := by
  refine ⟨?_, ?_, ?_⟩ <;> decide +kernel

end Verif
