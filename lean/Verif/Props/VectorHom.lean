import Verif.Model.VectorHom
import Verif.Props.Vector
import Verif.Props.Homogeneity
import Verif.Props.Trim
import Mathlib.Tactic.Positivity

/-!
# C73, C74: homogeneity of vector data
-/

namespace Verif
open VectorHom Spec

/-! ## Specification -/

/-- The distance of two vectors. -/
noncomputable def Spec.distance (v w : ℚ × ℚ) : ℝ := Real.sqrt (((v.1 - w.1) ^ 2 + (v.2 - w.2) ^ 2 : ℚ) : ℝ)

open Classical in
/-- The share of the elements of `l` with the property `P`; 0 if there are none. -/
noncomputable def Spec.share {α : Type} (P : α → Prop) (l : List α) : ℚ := ((l.filter (fun x => decide (P x))).length : ℚ) / l.length

/-- The verdict from the share of the values over the threshold. -/
def Spec.verdictOf (c : Cond) (share : ℚ) : Verdict :=
  if share ≤ c.lower then .clr else if share < c.upper then .het else if c.splitLock = true then .hom else .clr

/-- The vector `a` is the mean of the present components. -/
def Spec.IsMeanVec (l : List Vec) (a : ℚ × ℚ) : Prop :=
  a.1 * (l.filterMap Prod.fst).length = (l.filterMap Prod.fst).sum ∧ a.2 * (l.filterMap Prod.snd).length = (l.filterMap Prod.snd).sum

/-! ## Lemmas -/

theorem verdict_share {α : Type} (c : Cond) (P : α → Prop) (f : Option α → Option Bool) (hn : f none = none)
    (hs : ∀ a, ∃ x, f (some a) = some x ∧ (x = true ↔ P a)) (l : List (Option α)) :
    verdict c (l.map f) = Spec.verdictOf c (share P (l.filterMap id)) := by
  have h1 : (l.map f).countP Option.isSome = (l.filterMap id).length := by
    induction l with
    | nil => rfl
    | cons a l ih =>
      rcases a with _ | a
      · simp only [List.map_cons, hn, List.countP_cons, ih]; simp
      · obtain ⟨x, hx, _⟩ := hs a
        simp only [List.map_cons, hx, List.countP_cons, ih]; simp
  classical
  have h2 : (l.map f).countP (fun o => o == some true) = ((l.filterMap id).filter (fun x => decide (P x))).length := by
    clear h1
    induction l with
    | nil => rfl
    | cons a l ih =>
      rcases a with _ | a
      · simp only [List.map_cons, hn, List.countP_cons, ih]; simp
      · obtain ⟨x, hx, hP⟩ := hs a
        rw [List.filterMap_cons_some (f := id) (b := a) rfl, List.filter_cons]
        simp only [List.map_cons, hx, List.countP_cons, ih]
        by_cases hp : P a
        · have : x = true := hP.2 hp
          simp [this, hp]
        · have : x = false := by
            rcases x with _ | _
            · rfl
            · exact absurd (hP.1 rfl) hp
          simp [this, hp]
  unfold verdict Spec.verdictOf
  simp only [h1, h2]
  have e : (if (l.filterMap id).length > 0 then (((l.filterMap id).filter (fun x => decide (P x))).length : ℚ) / (l.filterMap id).length else 0)
      = share P (l.filterMap id) := by
    unfold share
    split
    · congr!
    · rename_i h
      have : (l.filterMap id).length = 0 := by omega
      rw [this]; simp
  rw [e]
  by_cases a : share P (l.filterMap id) ≤ c.lower
  · rw [if_pos a, if_pos a]
  · rw [if_neg a, if_neg a]
    by_cases b : share P (l.filterMap id) < c.upper
    · rw [if_neg (not_le.2 b), if_pos b]
    · rw [if_pos (not_lt.1 b), if_neg b]

theorem deltaSq_filterMap (a : ℚ × ℚ) (l : List Vec) :
    (l.map (deltaSq (some a.1, some a.2))).filterMap id = (complete l).map (fun v => (v.1 - a.1) ^ 2 + (v.2 - a.2) ^ 2) := by
  unfold complete
  induction l with
  | nil => rfl
  | cons v l ih =>
    obtain ⟨x, y⟩ := v
    rcases x with _ | x <;> rcases y with _ | y
    · rw [List.map_cons, List.filterMap_cons_none (by rfl), List.filterMap_cons_none (by rfl)]; exact ih
    · rw [List.map_cons, List.filterMap_cons_none (by rfl), List.filterMap_cons_none (by rfl)]; exact ih
    · rw [List.map_cons, List.filterMap_cons_none (by rfl), List.filterMap_cons_none (by rfl)]; exact ih
    · rw [List.map_cons, List.filterMap_cons_some (f := id) (b := (x - a.1) ^ 2 + (y - a.2) ^ 2) (by rfl),
        List.filterMap_cons_some (b := (x, y)) (by rfl), List.map_cons, ih]

theorem share_map {α β : Type} (f : α → β) (P : β → Prop) (l : List α) : share P (l.map f) = share (fun x => P (f x)) l := by
  classical
  unfold share
  rw [List.filter_map, List.length_map, List.length_map]
  congr!

theorem overMag_iff (t s : ℚ) (hs : 0 ≤ s) : (t < 0 ∨ s > t ^ 2) ↔ (t : ℝ) < Real.sqrt (s : ℝ) := by
  have hs' : (0 : ℝ) ≤ s := by exact_mod_cast hs
  rcases lt_or_ge t 0 with h | h
  · have : (t : ℝ) < 0 := by exact_mod_cast h
    exact ⟨fun _ => lt_of_lt_of_le this (Real.sqrt_nonneg _), fun _ => Or.inl h⟩
  · have h' : (0 : ℝ) ≤ t := by exact_mod_cast h
    rw [Real.lt_sqrt h']
    constructor
    · rintro (h1 | h1)
      · exact absurd h (not_le.2 h1)
      · have : ((t ^ 2 : ℚ) : ℝ) < (s : ℝ) := by exact_mod_cast h1
        simpa using this
    · intro h1
      right
      have : ((t ^ 2 : ℚ) : ℝ) < (s : ℝ) := by simpa using h1
      exact_mod_cast this

theorem mean_of_complete {l : List Vec} (h : complete l ≠ []) {a : ℚ × ℚ} (ha : IsMeanVec l a) :
    vectorValueDf .mean l = .ok (some a.1, some a.2) := by
  obtain ⟨v, hv⟩ := List.exists_mem_of_ne_nil _ h
  have hv' := mem_complete.1 hv
  have hx : v.1 ∈ xsOf l := List.mem_filterMap.2 ⟨_, hv', rfl⟩
  have hy : v.2 ∈ ysOf l := List.mem_filterMap.2 ⟨_, hv', rfl⟩
  have hl : l ≠ [] := by rintro rfl; simp at hv'
  have hx0 : xsOf l ≠ [] := List.ne_nil_of_mem hx
  have hy0 : ysOf l ≠ [] := List.ne_nil_of_mem hy
  have hxl : ((xsOf l).length : ℚ) ≠ 0 := by
    have := List.length_pos_iff.2 hx0
    exact_mod_cast this.ne'
  have hyl : ((ysOf l).length : ℚ) ≠ 0 := by
    have := List.length_pos_iff.2 hy0
    exact_mod_cast this.ne'
  have e1 : (xsOf l).sum / (xsOf l).length = a.1 := by
    rw [div_eq_iff hxl]; exact ha.1.symm
  have e2 : (ysOf l).sum / (ysOf l).length = a.2 := by
    rw [div_eq_iff hyl]; exact ha.2.symm
  simp only [vectorValueDf, if_neg hl, listMean, if_neg hx0, if_neg hy0, e1, e2]

theorem deltaSq_all_none {l : List Vec} (h : complete l = []) (a : Vec) : (l.map (deltaSq a)).all Option.isNone = true := by
  rw [List.all_eq_true]
  intro s hs
  obtain ⟨v, hv, rfl⟩ := List.mem_map.1 hs
  have := (complete_nil_iff l).1 h v hv
  obtain ⟨x, y⟩ := v
  rcases x with _ | x <;> rcases y with _ | y <;> rcases a with ⟨_ | a, _ | b⟩ <;> simp_all [deltaSq, sub?, Vec.magSq]

/-! ## C73: distances from the mean -/

/-- **C73**, `dmag` on tables: with enough datapoints the verdict is decided by the share of the complete vectors
whose distance from the mean vector is over the threshold; without complete vectors, or with too few datapoints, it
is `CLR`. -/
theorem C73_dmag {minDp : ℕ} {c : Cond} {b : Boundary} {t t' : Table Vec} (ht : t.trim b = .ok t') :
    (t'.rows.length < minDp ∨ complete (t'.rows.map Row.val) = [] → hom minDp { dmag := some c } b (.table t) = .ok .clr) ∧
    (minDp ≤ t'.rows.length → complete (t'.rows.map Row.val) ≠ [] → ∀ a : ℚ × ℚ, IsMeanVec (t'.rows.map Row.val) a →
      hom minDp { dmag := some c } b (.table t)
        = .ok (Spec.verdictOf c (share (fun v => (c.threshold : ℝ) < distance v a) (complete (t'.rows.map Row.val))))) := by
  have e : hom minDp { dmag := some c } b (.table t) = homTrimmed minDp { dmag := some c } (.table t') := by
    simp only [hom, Dataset.trim, ht, bind, Except.bind, pure, Except.pure]
  rw [e]
  have hmap : ∀ a, t'.rows.map (fun r => deltaSq a r.val) = (t'.rows.map Row.val).map (deltaSq a) := by
    intro a; rw [List.map_map]; rfl
  constructor
  · intro h
    unfold homTrimmed
    by_cases hn : numDp (.table t') < minDp
    · rw [if_pos hn]
    · rw [if_neg hn]
      have h := h.resolve_left hn
      have : ∃ a, vectorValueDf .mean (t'.rows.map Row.val) = .ok a := by
        unfold vectorValueDf
        split
        · exact ⟨_, rfl⟩
        · exact ⟨_, rfl⟩
      obtain ⟨a, ha⟩ := this
      simp only [dmagField, ha, bind, Except.bind, pure, Except.pure, hmap, deltaSq_all_none h a, if_true]
      split
      · rename_i h'; split at h' <;> cases h'
      · rename_i h'; split at h' <;> (cases h'; rfl)
  · intro hn hc a ha
    unfold homTrimmed
    rw [if_neg (by simpa [numDp] using hn)]
    have hlen : ((t'.rows.map Row.val).map (deltaSq (some a.1, some a.2))).length ≠ 0 := by
      intro h0
      apply hc
      have : t'.rows.map Row.val = [] := by
        rw [List.length_map] at h0
        exact List.length_eq_zero_iff.1 h0
      rw [this]; rfl
    have hall : ¬ ((t'.rows.map Row.val).map (deltaSq (some a.1, some a.2))).all Option.isNone = true := by
      intro h0
      have h1 := deltaSq_filterMap a (t'.rows.map Row.val)
      have h2 : ((t'.rows.map Row.val).map (deltaSq (some a.1, some a.2))).filterMap id = [] := by
        rw [List.filterMap_eq_nil_iff]
        intro x hx
        have := List.all_eq_true.1 h0 x hx
        simpa using this
      rw [h2] at h1
      exact hc (List.map_eq_nil_iff.1 h1.symm)
    simp only [dmagField, mean_of_complete hc ha, bind, Except.bind, pure, Except.pure, hmap, if_neg hlen, if_neg hall]
    congr 1
    have hpos : ∀ s ∈ (complete (t'.rows.map Row.val)).map (fun v => (v.1 - a.1) ^ 2 + (v.2 - a.2) ^ 2), (0 : ℚ) ≤ s := by
      intro s hs
      obtain ⟨v, _, rfl⟩ := List.mem_map.1 hs
      positivity
    rw [verdict_share c (fun s : ℚ => c.threshold < 0 ∨ s > c.threshold ^ 2) (overMag c.threshold) rfl
      (fun s => ⟨_, rfl, by simp⟩), deltaSq_filterMap, share_map]
    congr 2
    funext v
    exact propext (overMag_iff _ _ (by positivity))

/-- **C73**, `dmag`: the verdict does not depend on the order of the rows. -/
theorem C73_order {minDp : ℕ} {c : Cond} {b : Boundary} {h : Bool} {l l' : List (Row Vec)} (hp : l.Perm l') :
    hom minDp { dmag := some c } b (.table ⟨h, l⟩) = hom minDp { dmag := some c } b (.table ⟨h, l'⟩) := by
  have main : ∀ r r' : List (Row Vec), r.Perm r' → homTrimmed minDp { dmag := some c } (.table ⟨h, r⟩)
      = homTrimmed minDp { dmag := some c } (.table ⟨h, r'⟩) := by
    intro r r' hr
    have hlen := hr.length_eq
    have hx : (xsOf (r.map Row.val)).Perm (xsOf (r'.map Row.val)) := (hr.map _).filterMap _
    have hy : (ysOf (r.map Row.val)).Perm (ysOf (r'.map Row.val)) := (hr.map _).filterMap _
    have hm : ∀ l l' : List ℚ, l.Perm l' → listMean l = listMean l' := by
      intro l l' h
      unfold listMean
      by_cases hn : l = []
      · subst hn; rw [List.nil_perm.1 h]
      · have hn' : l' ≠ [] := by rintro rfl; exact hn (List.perm_nil.1 h)
        rw [if_neg hn, if_neg hn', h.sum_eq, h.length_eq]
    have hv : vectorValueDf .mean (r.map Row.val) = vectorValueDf .mean (r'.map Row.val) := by
      unfold vectorValueDf
      simp only [hm _ _ hx, hm _ _ hy]
      have : r.map Row.val = [] ↔ r'.map Row.val = [] := by
        rw [List.map_eq_nil_iff, List.map_eq_nil_iff]
        constructor
        · rintro rfl; exact List.nil_perm.1 hr
        · rintro rfl; exact List.perm_nil.1 hr
      by_cases hh : r.map Row.val = []
      · rw [if_pos hh, if_pos (this.1 hh)]
      · rw [if_neg hh, if_neg (fun e => hh (this.2 e))]
    have hd : ∀ a, (r.map (fun x => deltaSq a x.val)).Perm (r'.map (fun x => deltaSq a x.val)) := fun a => hr.map _
    have hall : ∀ a, (r.map (fun x => deltaSq a x.val)).all Option.isNone = (r'.map (fun x => deltaSq a x.val)).all Option.isNone := by
      intro a
      rw [Bool.eq_iff_iff, List.all_eq_true, List.all_eq_true]
      exact ⟨fun h x hx => h x ((hd a).mem_iff.2 hx), fun h x hx => h x ((hd a).mem_iff.1 hx)⟩
    have hver : ∀ a, verdict c ((r.map (fun x => deltaSq a x.val)).map (overMag c.threshold))
        = verdict c ((r'.map (fun x => deltaSq a x.val)).map (overMag c.threshold)) := by
      intro a
      unfold verdict
      rw [((hd a).map _).countP_eq, ((hd a).map _).countP_eq]
    have hnd : numDp (.table ⟨h, r⟩) = numDp (.table ⟨h, r'⟩) := hlen
    have hfield : (dmagField .mean (.table ⟨h, r⟩)).map (fun o => o.map (fun l => verdict c (l.map (overMag c.threshold))))
        = (dmagField .mean (.table ⟨h, r'⟩)).map (fun o => o.map (fun l => verdict c (l.map (overMag c.threshold)))) := by
      simp only [dmagField, hv]
      rcases vectorValueDf .mean (r'.map Row.val) with e | a
      · rfl
      · simp only [bind, Except.bind, pure, Except.pure, List.length_map, hlen, hall a]
        by_cases h1 : r'.length = 0
        · rw [if_pos h1, if_pos h1]
        · rw [if_neg h1, if_neg h1]
          by_cases h2 : (r'.map (fun x => deltaSq a x.val)).all Option.isNone = true
          · rw [if_pos h2, if_pos h2]
          · rw [if_neg h2, if_neg h2]
            simp only [Except.map, Option.map_some, hver a]
    have hgo : ∀ d, homTrimmed minDp { dmag := some c } d = if numDp d < minDp then .ok .clr else
        ((dmagField .mean d).map (fun o => o.map (fun l => verdict c (l.map (overMag c.threshold))))).map (fun o => o.getD .clr) := by
      intro d
      unfold homTrimmed
      split
      · rfl
      · simp only [bind, Except.bind, pure, Except.pure]
        rcases dmagField .mean d with e | (_ | l) <;> rfl
    rw [hgo, hgo, hfield, hnd]
  unfold hom Dataset.trim Table.trim
  cases h
  · simp only [Bool.false_eq_true, if_false, bind, Except.bind, pure, Except.pure]
    exact main _ _ (hp.filter _)
  · simp only [if_true, bind, Except.bind, pure, Except.pure]
    rcases timeLimits b with e | p
    · rfl
    · exact main _ _ (hp.filter _)

example : hom 2 { dmag := some { threshold := 2, lower := 1 / 10, upper := 9 / 10 } } ⟨0, 10, 0, 10, []⟩
    (.table ⟨false, [⟨1, 1, 0, (some 0, some 0)⟩, ⟨1, 2, 0, (some 0, some 0)⟩, ⟨2, 1, 0, (some 0, some 6)⟩, ⟨2, 2, 0, (none, some 2)⟩]⟩) = .ok .het ∧
    IsMeanVec [(some 0, some 0), (some 0, some 0), (some 0, some 6), (none, some 2)] (0, 2) := by
  refine ⟨by decide +kernel, by decide +kernel, by decide +kernel⟩

/-! ## C73: curl -/

/-- The rows of a complete table. -/
def Spec.latticeRows (lats longs : List ℚ) (fx fy : ℚ → ℚ → ℚ) : List (Row Vec) :=
  lats.flatMap (fun y => longs.map (fun x => ⟨y, x, 0, (some (fx y x), some (fy y x))⟩))

theorem mem_latticeRows {lats longs : List ℚ} {fx fy : ℚ → ℚ → ℚ} {r : Row Vec} :
    r ∈ latticeRows lats longs fx fy ↔ ∃ y ∈ lats, ∃ x ∈ longs, r = ⟨y, x, 0, (some (fx y x), some (fy y x))⟩ := by
  unfold latticeRows
  simp only [List.mem_flatMap, List.mem_map]
  constructor
  · rintro ⟨y, hy, x, hx, rfl⟩; exact ⟨y, hy, x, hx, rfl⟩
  · rintro ⟨y, hy, x, hx, rfl⟩; exact ⟨y, hy, x, hx, rfl⟩

theorem lattice_keys (lats longs : List ℚ) (fx fy : ℚ → ℚ → ℚ) :
    (latticeRows lats longs fx fy).map (fun r => (r.lat, r.long)) = List.product lats longs := by
  unfold latticeRows
  rw [List.map_flatMap]
  simp only [List.map_map]
  rfl

theorem axis_eq {l l' : List ℚ} (hs : l'.Pairwise (· < ·)) (hm : ∀ x, x ∈ l ↔ x ∈ l') : axis l = l' := by
  unfold axis
  apply List.Perm.eq_of_pairwise (le := (· ≤ ·)) (fun a b _ _ => le_antisymm) (List.pairwise_insertionSort _ _)
    (hs.imp (fun h => le_of_lt h))
  refine (List.perm_insertionSort _ _).trans ?_
  rw [List.perm_ext_iff_of_nodup (List.nodup_dedup l) (hs.imp (fun h => ne_of_lt h))]
  intro x
  rw [List.mem_dedup]
  exact hm x

theorem lookup_lattice {lats longs : List ℚ} {fx fy : ℚ → ℚ → ℚ} {rows : List (Row Vec)}
    (hp : rows.Perm (latticeRows lats longs fx fy)) {y x : ℚ} (hy : y ∈ lats) (hx : x ∈ longs) :
    lookup rows y x = (some (fx y x), some (fy y x)) := by
  unfold lookup
  rcases h : rows.find? (fun r => r.lat = y ∧ r.long = x) with _ | r
  · have hm : (⟨y, x, 0, (some (fx y x), some (fy y x))⟩ : Row Vec) ∈ rows := hp.mem_iff.2 (mem_latticeRows.2 ⟨y, hy, x, hx, rfl⟩)
    have := List.find?_eq_none.1 h _ hm
    simp at this
  · have h1 := List.find?_some h
    have h2 := List.mem_of_find?_eq_some h
    obtain ⟨y', _, x', _, rfl⟩ := mem_latticeRows.1 (hp.mem_iff.1 h2)
    simp only [decide_eq_true_eq] at h1
    obtain ⟨rfl, rfl⟩ := h1
    rw [h]

theorem gradient?_some {n : ℕ} {f : ℕ → Option ℚ} {g : ℕ → ℚ} (h : ∀ k < n, f k = some (g k)) (hn : 2 ≤ n) {i : ℕ} (hi : i < n) :
    gradient? n f i = some (gradient1 n g i) := by
  unfold gradient? gradient1
  by_cases h0 : i = 0
  · rw [if_pos h0, if_pos h0, h 1 (by omega), h 0 (by omega)]; rfl
  · rw [if_neg h0, if_neg h0]
    by_cases h1 : i + 1 = n
    · rw [if_pos h1, if_pos h1, h i hi, h (i - 1) (by omega)]; rfl
    · rw [if_neg h1, if_neg h1, h (i + 1) (by omega), h (i - 1) (by omega)]; rfl

theorem getD_mem {l : List ℚ} {i : ℕ} (h : i < l.length) : l.getD i 0 ∈ l := by
  rw [List.getD_eq_getElem?_getD, List.getElem?_eq_getElem h]
  exact List.getElem_mem h

theorem entries_congr {V : Type} {n m : ℕ} {f g : ℕ → ℕ → V} (h : ∀ i < n, ∀ j < m, f i j = g i j) : entries n m f = entries n m g := by
  unfold entries
  apply List.flatMap_congr
  intro i hi
  apply List.map_congr_left
  intro j hj
  exact h i (List.mem_range.1 hi) j (List.mem_range.1 hj)

theorem entries_map {V W : Type} {n m : ℕ} (f : ℕ → ℕ → V) (g : V → W) : (entries n m f).map g = entries n m (fun i j => g (f i j)) := by
  unfold entries
  rw [List.map_flatMap]
  simp only [List.map_map]
  rfl

theorem mem_entries {V : Type} {n m : ℕ} {f : ℕ → ℕ → V} {x : V} : x ∈ entries n m f ↔ ∃ i < n, ∃ j < m, f i j = x := by
  unfold entries
  simp only [List.mem_flatMap, List.mem_map, List.mem_range]

theorem curlField_lattice {lats longs : List ℚ} {fx fy : ℚ → ℚ → ℚ} {rows : List (Row Vec)}
    (hp : rows.Perm (latticeRows lats longs fx fy)) (hy : lats.Pairwise (· < ·)) (hx : longs.Pairwise (· < ·))
    (h1 : 2 ≤ lats.length) (h2 : 2 ≤ longs.length) :
    ∃ f F, meshgridTable rows = .ok f ∧ curlDf lats longs fx fy = some F ∧
      curlField f = .ok (some ((entries longs.length lats.length F.at_).map some)) := by
  have hnd : (rows.map (fun r => (r.lat, r.long))).Nodup := by
    rw [(hp.map _).nodup_iff, lattice_keys]
    exact List.Nodup.product (hy.imp (fun h => ne_of_lt h)) (hx.imp (fun h => ne_of_lt h))
  obtain ⟨y0, hy0⟩ : ∃ y, y ∈ lats := ⟨_, getD_mem (i := 0) (by omega)⟩
  obtain ⟨x0, hx0⟩ : ∃ x, x ∈ longs := ⟨_, getD_mem (i := 0) (by omega)⟩
  have ea : axis (rows.map Row.lat) = lats := by
    apply axis_eq hy
    intro y
    rw [List.mem_map]
    constructor
    · rintro ⟨r, hr, rfl⟩
      obtain ⟨y', h', x', _, rfl⟩ := mem_latticeRows.1 (hp.mem_iff.1 hr)
      exact h'
    · intro h
      exact ⟨_, hp.mem_iff.2 (mem_latticeRows.2 ⟨y, h, x0, hx0, rfl⟩), rfl⟩
  have eo : axis (rows.map Row.long) = longs := by
    apply axis_eq hx
    intro x
    rw [List.mem_map]
    constructor
    · rintro ⟨r, hr, rfl⟩
      obtain ⟨y', _, x', h', rfl⟩ := mem_latticeRows.1 (hp.mem_iff.1 hr)
      exact h'
    · intro h
      exact ⟨_, hp.mem_iff.2 (mem_latticeRows.2 ⟨y0, hy0, x, h, rfl⟩), rfl⟩
  refine ⟨⟨longs.length, lats.length, fun i j => lookup rows (lats.getD j 0) (longs.getD i 0)⟩,
    ⟨longs.length, lats.length, fun i j => gradient1 longs.length (fun k => fy (lats.getD j 0) (longs.getD k 0)) i -
      gradient1 lats.length (fun k => fx (lats.getD k 0) (longs.getD i 0)) j⟩, ?_, ?_, ?_⟩
  · unfold meshgridTable
    rw [if_pos hnd]
    simp only [ea, eo]
  · unfold curlDf curlOf meshgridDf
    rw [if_neg (by simp only; omega)]
  · unfold curlField
    simp only
    rw [if_neg (by omega), if_neg (by omega)]
    have e : entries longs.length lats.length (fun i j =>
        sub? (gradient? longs.length (fun k => (lookup rows (lats.getD j 0) (longs.getD k 0)).2) i)
          (gradient? lats.length (fun k => (lookup rows (lats.getD k 0) (longs.getD i 0)).1) j))
        = (entries longs.length lats.length (fun i j => gradient1 longs.length (fun k => fy (lats.getD j 0) (longs.getD k 0)) i -
          gradient1 lats.length (fun k => fx (lats.getD k 0) (longs.getD i 0)) j)).map some := by
      rw [entries_map]
      apply entries_congr
      intro i hi j hj
      rw [gradient?_some (g := fun k => fy (lats.getD j 0) (longs.getD k 0)) ?_ h2 hi,
        gradient?_some (g := fun k => fx (lats.getD k 0) (longs.getD i 0)) ?_ h1 hj]
      · rfl
      · intro k hk
        rw [lookup_lattice hp (getD_mem hk) (getD_mem hi)]
      · intro k hk
        rw [lookup_lattice hp (getD_mem hj) (getD_mem hk)]
    rw [e, if_neg]
    intro hall
    have := List.all_eq_true.1 hall (some _) (List.mem_map_of_mem (mem_entries.2 ⟨0, by omega, 0, by omega, rfl⟩))
    simp at this

/-- **C73**, `curl` on tables: if the datapoints of the cell form a complete lattice with at least two latitudes and
longitudes, in any order, the verdict is decided by the share of the sites where the curl is over the threshold.
(Missing: incomplete tables; on grids the curl has its axes exchanged, `C54_grid_curl`.) -/
theorem C73_curl_partial {minDp : ℕ} {c : Cond} {o : Option Cond} {b : Boundary} {t t' : Table Vec} {lats longs : List ℚ} {fx fy : ℚ → ℚ → ℚ}
    (ht : t.trim b = .ok t') (hp : t'.rows.Perm (latticeRows lats longs fx fy)) (hy : lats.Pairwise (· < ·)) (hx : longs.Pairwise (· < ·))
    (h1 : 2 ≤ lats.length) (h2 : 2 ≤ longs.length) (hn : minDp ≤ lats.length * longs.length) :
    ∃ F, curlDf lats longs fx fy = some F ∧ hom minDp ⟨some c, o⟩ b (.table t)
      = .ok (Spec.verdictOf c (share (fun s : ℕ × ℕ => c.threshold < F.at_ s.1 s.2)
          (List.product (List.range longs.length) (List.range lats.length)))) := by
  obtain ⟨f, F, e1, e2, e3⟩ := curlField_lattice hp hy hx h1 h2
  refine ⟨F, e2, ?_⟩
  have e : hom minDp ⟨some c, o⟩ b (.table t) = homTrimmed minDp ⟨some c, o⟩ (.table t') := by
    simp only [hom, Dataset.trim, ht, bind, Except.bind, pure, Except.pure]
  have hlen : t'.rows.length = lats.length * longs.length := by
    rw [hp.length_eq, ← List.length_map (f := fun r : Row Vec => (r.lat, r.long)), lattice_keys]
    exact List.length_product ..
  rw [e]
  unfold homTrimmed
  rw [if_neg (by simp only [numDp, hlen]; omega)]
  simp only [meshgrid, e1, e3, bind, Except.bind, pure, Except.pure]
  congr 1
  rw [verdict_share c (fun x : ℚ => c.threshold < x) (overCurl c.threshold) rfl (fun x => ⟨_, rfl, by simp⟩)]
  congr 1
  have ef : ((entries longs.length lats.length F.at_).map some).filterMap id
      = (List.product (List.range longs.length) (List.range lats.length)).map (fun s => F.at_ s.1 s.2) := by
    rw [List.filterMap_map]
    have : ∀ l : List ℚ, l.filterMap (id ∘ some) = l := fun l => by induction l <;> simp_all
    rw [this]
    unfold entries List.product
    rw [List.map_flatMap]
    simp only [List.map_map]
    rfl
  rw [ef, share_map]

theorem share_all {α : Type} {P : α → Prop} {l : List α} (h : ∀ x ∈ l, P x) (hl : l ≠ []) : share P l = 1 := by
  classical
  unfold share
  rw [List.filter_eq_self.2 (fun x hx => by simpa using h x hx)]
  have := List.length_pos_iff.2 hl
  exact div_self (by exact_mod_cast this.ne')

theorem share_none {α : Type} {P : α → Prop} {l : List α} (h : ∀ x ∈ l, ¬ P x) : share P l = 0 := by
  classical
  unfold share
  rw [List.filter_eq_nil_iff.2 (fun x hx => by simpa using h x hx)]
  simp

/-- **C73**: a linear field `(a x + b' y, c' x + d y)` on an equally spaced table is over the threshold everywhere or nowhere,
according to the signed value of its curl. -/
theorem C73_linear_partial {minDp : ℕ} {c : Cond} {o : Option Cond} {b : Boundary} {t t' : Table Vec} {lats longs : List ℚ}
    {y0 hy x0 hx : ℚ} (hl : Spaced lats y0 hy) (hg : Spaced longs x0 hx) (a b' c' d : ℚ)
    (ht : t.trim b = .ok t') (hp : t'.rows.Perm (latticeRows lats longs (fun y x => a * x + b' * y) (fun y x => c' * x + d * y)))
    (hy' : lats.Pairwise (· < ·)) (hx' : longs.Pairwise (· < ·))
    (h1 : 2 ≤ lats.length) (h2 : 2 ≤ longs.length) (hn : minDp ≤ lats.length * longs.length) :
    hom minDp ⟨some c, o⟩ b (.table t) = .ok (Spec.verdictOf c (if c.threshold < c' * hx - b' * hy then 1 else 0)) := by
  obtain ⟨F, e1, e2⟩ := C73_curl_partial (minDp := minDp) (c := c) (o := o) ht hp hy' hx' h1 h2 hn
  obtain ⟨G, g1, g2⟩ := C54_table_curl_partial hl hg h1 h2 a b' c' d
  have : F = G := Option.some.inj (e1.symm.trans g1)
  subst this
  rw [e2]
  congr 2
  have hv : ∀ s ∈ List.product (List.range longs.length) (List.range lats.length), F.at_ s.1 s.2 = c' * hx - b' * hy := by
    intro s hs
    have := List.pair_mem_product.1 (show (s.1, s.2) ∈ _ from hs)
    exact g2 _ (List.mem_range.1 this.1) _ (List.mem_range.1 this.2)
  split
  · rename_i h
    apply share_all
    · intro s hs; rw [hv s hs]; exact h
    · apply List.ne_nil_of_length_pos
      have := List.length_product (List.range longs.length) (List.range lats.length)
      rw [List.length_range, List.length_range] at this
      exact this ▸ Nat.mul_pos (by omega) (by omega)
  · rename_i h
    apply share_none
    intro s hs; rw [hv s hs]; exact h

/-- **C73 is false for clockwise flow**: the curl is compared with its sign, so a field that turns clockwise is
never over a threshold that is not negative, however strong it is: the cell stays `CLR`. -/
theorem C73_sign_false {minDp : ℕ} {c : Cond} {o : Option Cond} {b : Boundary} {t t' : Table Vec} {lats longs : List ℚ}
    {y0 hy x0 hx : ℚ} (hl : Spaced lats y0 hy) (hg : Spaced longs x0 hx) (a b' c' d : ℚ)
    (ht : t.trim b = .ok t') (hp : t'.rows.Perm (latticeRows lats longs (fun y x => a * x + b' * y) (fun y x => c' * x + d * y)))
    (hy' : lats.Pairwise (· < ·)) (hx' : longs.Pairwise (· < ·))
    (h1 : 2 ≤ lats.length) (h2 : 2 ≤ longs.length) (hn : minDp ≤ lats.length * longs.length)
    (hth : 0 ≤ c.threshold) (hlo : 0 ≤ c.lower) (_hstrong : c.threshold < |c' * hx - b' * hy|) (hneg : c' * hx - b' * hy < 0) :
    hom minDp ⟨some c, o⟩ b (.table t) = .ok .clr := by
  rw [C73_linear_partial hl hg a b' c' d ht hp hy' hx' h1 h2 hn, if_neg (by linarith)]
  simp [Spec.verdictOf, hlo]

/-! ## C73: what raises -/

/-- **C73**: with neither `curl` nor `dmag` a cell with enough data raises `UnboundLocalError`. -/
theorem C73_no_condition_raises {minDp : ℕ} {b : Boundary} {d d' : Dataset Vec} (ht : d.trim b = .ok d') (hn : minDp ≤ numDp d') :
    hom minDp ⟨none, none⟩ b d = .error .unboundLocal := by
  simp only [hom, ht, bind, Except.bind, homTrimmed, if_neg (not_lt.2 hn)]

/-- **C73**: the distances from the mean cannot be computed on grids. -/
theorem C73_grid_dmag_raises {minDp : ℕ} {c : Cond} {b : Boundary} {g g' : Grid Vec} (ht : g.trim b = .ok g')
    (hn : minDp ≤ numDp (.grid g')) : hom minDp { dmag := some c } b (.grid g) = .error .attributeError := by
  simp only [hom, Dataset.trim, ht, bind, Except.bind, pure, Except.pure, homTrimmed, if_neg (not_lt.2 hn), dmagField]

/-- **C73**: two datapoints at one position, as with several times, make the curl raise. -/
theorem C73_two_times_raises {minDp : ℕ} {c : Cond} {o : Option Cond} {b : Boundary} {t t' : Table Vec} (ht : t.trim b = .ok t')
    (hn : minDp ≤ t'.rows.length) {l1 l2 l3 : List (Row Vec)} {r r' : Row Vec} (hr : t'.rows = l1 ++ r :: l2 ++ r' :: l3)
    (h1 : r.lat = r'.lat) (h2 : r.long = r'.long) : hom minDp ⟨some c, o⟩ b (.table t) = .error .valueError := by
  have hnd : ¬ (t'.rows.map (fun r => (r.lat, r.long))).Nodup := by
    rw [hr]
    simp only [List.map_append, List.map_cons]
    intro h
    have := (List.nodup_append.1 h).2.2 (r.lat, r.long) (by simp) (r'.lat, r'.long) (by simp)
    exact this (by rw [h1, h2])
  simp only [hom, Dataset.trim, ht, bind, Except.bind, pure, Except.pure, homTrimmed, numDp, if_neg (not_lt.2 hn), meshgrid, meshgridTable,
    if_neg hnd]

/-- **C73**: trimming the data to an enclosing cell first changes nothing. -/
theorem C73_cached_partial {minDp : ℕ} {c : Conds} (d : Dataset Vec) (hs : d.Sorted) {p q : Boundary} (hp : TrimsRight d p)
    (hq : TrimsRight d q) (hw : Within q p) {d1 : Dataset Vec} (h : d.trim p = .ok d1) :
    hom minDp c q d1 = hom minDp c q d := by
  unfold hom
  rw [(C25_composes_partial d hs hp hq hw h).1]

/-- A table of a clockwise flow on nine positions. -/
def exClockwise : Table Vec := ⟨false, latticeRows [1, 2, 3] [1, 2, 3] (fun y x => 0 * x + 5 * y) (fun y x => -5 * x + 0 * y)⟩

theorem exClockwise_trim : exClockwise.trim ⟨0, 10, 0, 10, []⟩ = .ok exClockwise := by decide +kernel

theorem spaced_one : Spaced [1, 2, 3] 1 1 := by
  intro i hi
  simp only [List.length_cons, List.length_nil] at hi
  interval_cases i <;> norm_num

/-- The hypotheses of the theorems on the curl are met, and the two orientations differ. -/
example : hom 5 { curl := some ⟨1, 0, 1 / 2, true⟩ } ⟨0, 10, 0, 10, []⟩ (.table exClockwise) = .ok .clr ∧
    hom 5 { curl := some ⟨1, 0, 1 / 2, true⟩ } ⟨0, 10, 0, 10, []⟩
      (.table ⟨false, latticeRows [1, 2, 3] [1, 2, 3] (fun y x => 0 * x + (-5) * y) (fun y x => 5 * x + 0 * y)⟩) = .ok .hom := by
  refine ⟨C73_sign_false (y0 := 1) (hy := 1) (x0 := 1) (hx := 1) spaced_one spaced_one 0 5 (-5) 0 exClockwise_trim (List.Perm.refl _)
      (by decide +kernel) (by decide +kernel) (by simp) (by simp) (by simp) (by norm_num) (by norm_num) (by norm_num) (by norm_num), ?_⟩
  rw [C73_linear_partial (y0 := 1) (hy := 1) (x0 := 1) (hx := 1) spaced_one spaced_one 0 (-5) 5 0
      (t' := ⟨false, latticeRows [1, 2, 3] [1, 2, 3] (fun y x => 0 * x + (-5) * y) (fun y x => 5 * x + 0 * y)⟩) (by decide +kernel) (List.Perm.refl _)
      (by decide +kernel) (by decide +kernel) (by simp) (by simp) (by simp)]
  norm_num [Spec.verdictOf]

/-- The cases that raise happen. -/
example : hom 2 {} ⟨0, 10, 0, 10, []⟩ (.table exClockwise) = .error .unboundLocal ∧
    hom 2 { dmag := some ⟨1, 0, 1, false⟩ } ⟨0, 10, 0, 10, []⟩ (.grid ⟨[1, 2], [1, 2], none, fun _ _ _ => (some 1, some 2)⟩)
      = .error .attributeError ∧
    hom 2 { curl := some ⟨1, 0, 1, false⟩ } ⟨0, 10, 0, 10, [1, 2]⟩
      (.table ⟨true, [⟨1, 1, 1, (some 1, some 1)⟩, ⟨1, 1, 2, (some 1, some 1)⟩]⟩) = .error .valueError := by
  refine ⟨by decide +kernel, by decide +kernel, by decide +kernel⟩

/-! ## C74: collapsed values -/

theorem present_eq_filterMap (l : List (Option ℚ)) : present l = l.filterMap id := rfl

/-- **C74**, MEAN (partial: missing is MAX, for which it is false, `C74_max_false`): the mean distance of the complete vectors from
the mean vector. -/
theorem C74_mean_partial {l : List Vec} (hc : complete l ≠ []) {a : ℚ × ℚ} (ha : IsMeanVec l a) :
    ∃ x : ℝ, calcDmag .mean l = .ok (some x) ∧ x * (complete l).length = ((complete l).map (fun v => distance v a)).sum ∧ 0 ≤ x := by
  have hlen : (l.map (deltaSq (some a.1, some a.2))).length ≠ 0 := by
    intro h0
    apply hc
    rw [List.length_map] at h0
    rw [List.length_eq_zero_iff.1 h0]; rfl
  have hall : ¬ (l.map (deltaSq (some a.1, some a.2))).all Option.isNone = true := by
    intro h0
    have h1 := deltaSq_filterMap a l
    have h2 : (l.map (deltaSq (some a.1, some a.2))).filterMap id = [] := by
      rw [List.filterMap_eq_nil_iff]
      intro x hx
      have := List.all_eq_true.1 h0 x hx
      simpa using this
    rw [h2] at h1
    exact hc (List.map_eq_nil_iff.1 h1.symm)
  have hpos : (0 : ℝ) < (complete l).length := by
    have := List.length_pos_iff.2 hc
    exact_mod_cast this
  have hm : (present (l.map (deltaSq (some a.1, some a.2)))).map (fun s : ℚ => Real.sqrt (s : ℝ)) = (complete l).map (fun v => distance v a) := by
    rw [present_eq_filterMap, deltaSq_filterMap, List.map_map]
    rfl
  refine ⟨((complete l).map (fun v => distance v a)).sum / (complete l).length, ?_, ?_, ?_⟩
  · unfold calcDmag
    simp only [mean_of_complete hc ha, bind, Except.bind, pure, Except.pure, hm]
    rw [if_neg hlen, if_neg hall, List.length_map]
  · exact div_mul_cancel₀ _ hpos.ne'
  · apply div_nonneg _ hpos.le
    apply List.sum_nonneg
    intro x hx
    obtain ⟨v, _, rfl⟩ := List.mem_map.1 hx
    exact Real.sqrt_nonneg _

/-- **C74**: on complete data the mean distance is zero exactly if all vectors are equal. -/
theorem C74_zero {l : List (ℚ × ℚ)} (hl : l ≠ []) :
    calcDmag .mean (l.map (fun v => (some v.1, some v.2))) = .ok (some 0) ↔ ∀ v ∈ l, ∀ w ∈ l, v = w := by
  have hc : complete (l.map (fun v => (some v.1, some v.2))) = l := by
    unfold complete
    rw [List.filterMap_map]
    induction l with
    | nil => rfl
    | cons v l ih =>
      by_cases h : l = []
      · subst h; rfl
      · rw [List.filterMap_cons_some (b := v) (by rfl), ih h]
  have hf1 : (l.map (fun v => ((some v.1, some v.2) : Vec))).filterMap Prod.fst = l.map Prod.fst := by
    rw [List.filterMap_map]
    clear hc hl
    induction l with
    | nil => rfl
    | cons v l ih => rw [List.filterMap_cons_some (b := v.1) (by rfl), ih]; rfl
  have hf2 : (l.map (fun v => ((some v.1, some v.2) : Vec))).filterMap Prod.snd = l.map Prod.snd := by
    rw [List.filterMap_map]
    clear hc hl hf1
    induction l with
    | nil => rfl
    | cons v l ih => rw [List.filterMap_cons_some (b := v.2) (by rfl), ih]; rfl
  have hlen : (l.length : ℚ) ≠ 0 := by
    have := List.length_pos_iff.2 hl
    exact_mod_cast this.ne'
  set a : ℚ × ℚ := ((l.map Prod.fst).sum / l.length, (l.map Prod.snd).sum / l.length) with hadef
  have ha : IsMeanVec (l.map (fun v => (some v.1, some v.2))) a := by
    unfold IsMeanVec
    rw [hf1, hf2, List.length_map, List.length_map]
    exact ⟨div_mul_cancel₀ _ hlen, div_mul_cancel₀ _ hlen⟩
  obtain ⟨x, h1, h2, _⟩ := C74_mean_partial (by rw [hc]; exact hl) ha
  rw [hc] at h2
  have hlenR : (l.length : ℝ) ≠ 0 := by exact_mod_cast hlen
  have hdist : ∀ v : ℚ × ℚ, distance v a = 0 ↔ v = a := by
    intro v
    unfold distance
    rw [Real.sqrt_eq_zero (by positivity)]
    constructor
    · intro h
      have h' : (v.1 - a.1) ^ 2 + (v.2 - a.2) ^ 2 = 0 := by exact_mod_cast h
      have e1 : v.1 - a.1 = 0 := by nlinarith [sq_nonneg (v.1 - a.1), sq_nonneg (v.2 - a.2)]
      have e2 : v.2 - a.2 = 0 := by nlinarith [sq_nonneg (v.1 - a.1), sq_nonneg (v.2 - a.2)]
      exact Prod.ext (by linarith) (by linarith)
    · rintro rfl; simp
  rw [h1]
  constructor
  · intro h
    have hx : x = 0 := by simpa using h
    rw [hx, zero_mul] at h2
    have hz : ∀ x ∈ l.map (fun v => distance v a), x = 0 := fun x hx => (List.all_zero_of_le_zero_le_of_sum_eq_zero (l := l.map (fun v => distance v a)) (by
      intro y hy
      obtain ⟨v, _, rfl⟩ := List.mem_map.1 hy
      exact Real.sqrt_nonneg _) h2.symm) hx
    have hall : ∀ v ∈ l, v = a := fun v hv => (hdist v).1 (hz _ (List.mem_map_of_mem hv))
    intro v hv w hw
    rw [hall v hv, hall w hw]
  · intro h
    obtain ⟨w, hw⟩ := List.exists_mem_of_ne_nil l hl
    have hrep : l = List.replicate l.length w := List.eq_replicate_iff.2 ⟨rfl, fun v hv => h v hv w hw⟩
    have haw : a = w := by
      rw [hadef]
      have e1 : (l.map Prod.fst).sum = l.length * w.1 := by
        conv_lhs => rw [hrep]
        simp
      have e2 : (l.map Prod.snd).sum = l.length * w.2 := by
        conv_lhs => rw [hrep]
        simp
      rw [e1, e2]
      exact Prod.ext (by simp only []; field_simp) (by simp only []; field_simp)
    have hsum : (l.map (fun v => distance v a)).sum = 0 := by
      apply List.sum_eq_zero
      intro y hy
      obtain ⟨v, hv, rfl⟩ := List.mem_map.1 hy
      rw [hdist, haw]
      exact h v hv w hw
    rw [hsum] at h2
    have : x = 0 := by
      rcases mul_eq_zero.1 h2 with h | h
      · exact h
      · exact absurd h hlenR
    rw [this]

/-- **C74 is false for MAX**: the vectors are then compared with the longest vector instead of the mean vector: of
the two vectors (3, 0) and (1, 0), both at distance 1 from their mean, the result is 2. -/
theorem C74_max_false : ∃ (l : List Vec) (a : ℚ × ℚ), IsMeanVec l a ∧ complete l = [(3, 0), (1, 0)] ∧
    (∀ v ∈ complete l, distance v a = 1) ∧ calcDmag .max l = .ok (some 2) := by
  refine ⟨[(some 3, some 0), (some 1, some 0)], (2, 0), by unfold IsMeanVec; decide +kernel, rfl, ?_, ?_⟩
  · intro v hv
    have hv : v ∈ [((3 : ℚ), (0 : ℚ)), (1, 0)] := hv
    simp only [List.mem_cons, List.not_mem_nil, or_false] at hv
    rcases hv with rfl | rfl <;> norm_num [distance]
  · have e : vectorValueDf .max [(some 3, some 0), (some 1, some 0)] = .ok (some 3, some 0) := by decide +kernel
    have e2 : [((some 3, some 0) : Vec), (some 1, some 0)].map (deltaSq (some 3, some 0)) = [some 0, some 4] := by decide +kernel
    unfold calcDmag
    rw [e]
    simp only [bind, Except.bind, pure, Except.pure, e2]
    have e3 : (present [some (0 : ℚ), some 4]).map (fun s : ℚ => Real.sqrt (s : ℝ)) = [0, 2] := by
      have : Real.sqrt 4 = 2 := by rw [show (4 : ℝ) = 2 ^ 2 by norm_num, Real.sqrt_sq (by norm_num)]
      simp [present, this]
    rw [e3]
    norm_num [List.max?]

example : ∃ x : ℝ, calcDmag .mean [(some 3, some 0), (some 1, some 0), (none, some 0)] = .ok (some x) ∧ x * 2 = 2 := by
  obtain ⟨x, h1, h2, _⟩ := C74_mean_partial (l := [(some 3, some 0), (some 1, some 0), (none, some 0)]) (a := (2, 0)) (by decide +kernel) (by unfold IsMeanVec; decide +kernel)
  refine ⟨x, h1, ?_⟩
  have e : complete [(some 3, some 0), (some 1, some 0), (none, some 0)] = [(3, 0), (1, 0)] := rfl
  rw [e] at h2
  norm_num [distance] at h2
  rw [h2]; norm_num

/-- **C74**, curl: MAX is a value of the field of greatest absolute value, MEAN is the mean of the values. -/
theorem C74_curl {f : VField} {l : List (Option ℚ)} (hf : curlField f = .ok (some l)) :
    (∃ x, calcCurl .max f = .ok (some x) ∧ some x ∈ l ∧ ∀ y, some y ∈ l → |y| ≤ |x|) ∧
    (∃ x, calcCurl .mean f = .ok (some x) ∧ x * (present l).length = (present l).sum) := by
  have hmem : ∀ y, some y ∈ l ↔ y ∈ present l := by
    intro y
    simp [present]
  have hne : present l ≠ [] := by
    unfold curlField at hf
    split at hf
    · cases hf
    · split at hf
      · cases hf
      · simp only at hf
        split at hf
        · cases hf
        · rename_i h
          have e := Option.some.inj (Except.ok.inj hf)
          rw [e] at h
          intro h0
          apply h
          rw [List.all_eq_true]
          intro x hx
          rcases x with _ | x
          · rfl
          · have := (hmem x).1 hx
            rw [h0] at this
            simp at this
  rcases h1 : listMax (present l) with _ | a
  · exact absurd ((listMax_spec _).1.1 h1) hne
  rcases h2 : listMin (present l) with _ | b
  · exact absurd ((listMin_spec _).1.1 h2) hne
  obtain ⟨ha, ha'⟩ := ((listMax_spec _).2 a).1 h1
  obtain ⟨hb, hb'⟩ := ((listMin_spec _).2 b).1 h2
  constructor
  · refine ⟨if |b| > |a| then b else a, ?_, ?_, ?_⟩
    · simp only [calcCurl, hf, bind, Except.bind, pure, Except.pure, h1, h2]
    · rw [hmem]; split <;> assumption
    · intro y hy
      have y1 := ha' y ((hmem y).1 hy)
      have y2 := hb' y ((hmem y).1 hy)
      have hmax : |y| ≤ max |b| |a| := by
        rcases le_total 0 y with h | h
        · rw [abs_of_nonneg h]
          exact (y1.trans (le_abs_self a)).trans (le_max_right _ _)
        · rw [abs_of_nonpos h]
          exact ((neg_le_neg y2).trans (neg_le_abs b)).trans (le_max_left _ _)
      split
      · rename_i h; rwa [max_eq_left h.le] at hmax
      · rename_i h; rwa [max_eq_right (not_lt.1 h)] at hmax
  · have hlen : ((present l).length : ℚ) ≠ 0 := by
      have := List.length_pos_iff.2 hne
      exact_mod_cast this.ne'
    refine ⟨(present l).sum / (present l).length, ?_, div_mul_cancel₀ _ hlen⟩
    simp only [calcCurl, hf, bind, Except.bind, pure, Except.pure, listMean, if_neg hne]

example : (do calcCurl .max (← meshgridTable exClockwise.rows)) = .ok (some (-10)) ∧
    (do calcCurl .mean (← meshgridTable exClockwise.rows)) = .ok (some (-10)) := by
  refine ⟨by decide +kernel, by decide +kernel⟩

end Verif
