import Verif.Model.LutStats
import Verif.Props.Lut

/-!
# C109: median and standard deviation of look-up tables
-/

namespace Verif
open Verif.Lut Classical

/-- The mean of a list of numbers. -/
def Spec.plainMean (l : List ℚ) : ℚ := l.sum / l.length

/-- The mean square deviation from the mean. -/
def Spec.plainVariance (l : List ℚ) : ℚ := Spec.plainMean (l.map (fun x => (x - Spec.plainMean l) ^ 2))

/-- The rows of a cell, without those that miss a value if asked for. -/
noncomputable def Spec.lutUsed (cell : ℚ → ℚ → Prop) (time : ℤ × ℤ) (skipna : Bool) (data : List Row) : List Row :=
  if skipna then (Spec.lutRows cell time data).filter (fun r => r.value.isSome) else Spec.lutRows cell time data

theorem weightedMean_const (l : List (Option ℚ)) (w : ℚ) (vs : List ℚ) (hl : l = vs.map some) (hw : w ≠ 0) (hn : vs ≠ []) :
    weightedMean (l.map (fun v => (v, w))) = .ok (some (Spec.plainMean vs)) := by
  have hlen : (vs.length : ℚ) ≠ 0 := by simpa using hn
  have hsum : ∀ l : List ℚ, (l.map (fun x => x * w)).sum = l.sum * w := fun l => by simpa using List.sum_map_mul_right l id w
  have hc : (vs.map (fun _ => w)).sum = vs.length * w := by simp
  unfold weightedMean
  subst hl
  simp only [List.map_map]
  rw [show (List.map (Prod.snd ∘ (fun v => (v, w)) ∘ some) vs) = vs.map (fun _ => w) from rfl,
    show (List.map ((fun r => r.1.getD 0 * r.2) ∘ (fun v => (v, w)) ∘ some) vs) = vs.map (fun x => x * w) from rfl, hc, hsum,
    if_neg (mul_ne_zero hlen hw), if_neg (by simp)]
  rw [mul_div_mul_right _ _ hw]
  rfl

theorem weightedMean_zero (l : List (Option ℚ)) (w : ℚ) (h : w = 0 ∨ l = []) :
    weightedMean (l.map (fun v => (v, w))) = .error .zeroDivision := by
  unfold weightedMean
  rw [if_pos]
  rcases h with rfl | rfl <;> simp [Function.comp_def]

theorem weightedMean_missing (l : List (Option ℚ)) (w : ℚ) (hw : w ≠ 0) (h : none ∈ l) :
    weightedMean (l.map (fun v => (v, w))) = .ok none := by
  have hlen : (l.length : ℚ) ≠ 0 := by
    have := List.ne_nil_of_mem h
    simpa using this
  unfold weightedMean
  have hc : (l.map (fun _ => w)).sum = l.length * w := by simp
  simp only [List.map_map]
  rw [show (List.map (Prod.snd ∘ (fun v => (v, w))) l) = l.map (fun _ => w) from rfl, hc, if_neg (mul_ne_zero hlen hw), if_pos]
  exact List.mem_map.2 ⟨none, h, rfl⟩

theorem values_split (rows : List Row) : (∃ vs : List ℚ, rows.map (·.value) = vs.map some) ∨ none ∈ rows.map (·.value) := by
  induction rows with
  | nil => exact .inl ⟨[], rfl⟩
  | cons r rows ih =>
    cases hv : r.value with
    | none => exact .inr (by simp [hv])
    | some v =>
      rcases ih with ⟨vs, ih⟩ | ih
      · exact .inl ⟨v :: vs, by simp [hv, ih]⟩
      · exact .inr (by simp only [List.map_cons]; exact List.mem_cons_of_mem _ ih)

/-- What `STD` computes from the polygons that are left. -/
theorem stdSq_cases (coverage : List Geom → ℚ) (skipna : Bool) (found : List Row) :
    let rows := if skipna then found.filter (fun r => r.value.isSome) else found
    (rows = [] ∨ coverage (rows.map (·.geom)) = 0 → stdSq coverage skipna found = .error .zeroDivision) ∧
    (coverage (rows.map (·.geom)) ≠ 0 → none ∈ rows.map (·.value) → stdSq coverage skipna found = .ok none) ∧
    (∀ vs : List ℚ, rows ≠ [] → coverage (rows.map (·.geom)) ≠ 0 → rows.map (·.value) = vs.map some →
      stdSq coverage skipna found = .ok (some (Spec.plainVariance vs))) := by
  intro rows
  have hk : kept skipna found = rows := rfl
  clear_value rows
  have h1 : ∀ w : ℚ, rows.map (fun r => (r.value, w)) = (rows.map (·.value)).map (fun v => (v, w)) := by simp
  have h2 : ∀ (w : ℚ) (a : Option ℚ), rows.map (fun r => ((do let x ← r.value; let y ← a; return (x - y) ^ 2 : Option ℚ), w)) =
      ((rows.map (·.value)).map (fun v => (do let x ← v; let y ← a; return (x - y) ^ 2 : Option ℚ))).map (fun v => (v, w)) := by
    simp
  unfold stdSq
  simp only [hk, h1, h2]
  refine ⟨?_, ?_, ?_⟩
  · intro h
    rw [weightedMean_zero _ _ (h.symm.imp id (fun h => by simp [h]))]
    rfl
  · intro hw hm
    rw [weightedMean_missing _ _ hw hm]
    simp only [bind, Except.bind]
    rw [weightedMean_missing _ _ hw]
    exact List.mem_map.2 ⟨none, hm, rfl⟩
  · intro vs hn hw hv
    have hvs : vs ≠ [] := by
      rintro rfl
      simp at hv
      exact hn hv
    rw [weightedMean_const _ _ vs hv hw hvs]
    simp only [bind, Except.bind]
    rw [weightedMean_const _ _ (vs.map (fun x => (x - Spec.plainMean vs) ^ 2)) _ hw (by simpa using hvs)]
    · rfl
    · rw [hv]
      simp [Function.comp_def, pure]

theorem cumulate_const {α : Type} (l : List α) (w acc : ℚ) :
    cumulate acc (l.map (fun _ => w)) = (List.range l.length).map (fun i => acc + (i + 1 : ℕ) * w) := by
  induction l generalizing acc with
  | nil => rfl
  | cons a l ih =>
    simp only [List.map_cons, cumulate, List.length_cons, List.range_succ_eq_map, ih]
    simp [Function.comp_def]
    intros
    ring

/-- Which row `MEDIAN` takes: the one in the middle position, or the first if the weights vanish. -/
theorem medianRow_eq (coverage : List Geom → ℚ) (skipna : Bool) (found : List Row) :
    let rows := if skipna then found.filter (fun r => r.value.isSome) else found
    let w := coverage (rows.map (·.geom))
    (rows = [] → medianRow coverage skipna found = .error .indexError) ∧
    (∀ hn : rows ≠ [], w = 0 → medianRow coverage skipna found = .ok (rows.head hn)) ∧
    (∀ r, 0 < w → rows[(rows.length - 1) / 2]? = some r → medianRow coverage skipna found = .ok r) := by
  intro rows w
  have hk : kept skipna found = rows := rfl
  unfold medianRow
  simp only [hk]
  rw [show coverage (rows.map (·.geom)) = w from rfl]
  clear_value w
  clear_value rows
  refine ⟨?_, ?_, ?_⟩
  · rintro rfl
    rfl
  · rintro hn rfl
    cases rows with
    | nil => exact absurd rfl hn
    | cons r rows => simp [cumulate]
  · intro r hw hr
    obtain ⟨hlt, hr⟩ := List.getElem?_eq_some_iff.1 hr
    have hfind : (rows.zip (cumulate 0 (rows.map (fun _ => w)))).find? (fun p => p.2 ≥ (rows.map (fun _ => w)).sum / 2) =
        some (r, ((rows.length - 1) / 2 + 1 : ℕ) * w) := by
      rw [List.find?_eq_some_iff_getElem]
      rw [cumulate_const]
      have hs : (rows.map (fun _ => w)).sum / 2 = (rows.length : ℚ) / 2 * w := by simp; ring
      refine ⟨?_, (rows.length - 1) / 2, ?_, ?_, ?_⟩
      · rw [hs]
        have : ((rows.length : ℚ)) / 2 ≤ (((rows.length - 1) / 2 + 1 : ℕ) : ℚ) := by
          have : rows.length ≤ 2 * ((rows.length - 1) / 2 + 1) := by omega
          have : (rows.length : ℚ) ≤ ((2 * ((rows.length - 1) / 2 + 1) : ℕ) : ℚ) := by exact_mod_cast this
          push_cast at this ⊢
          linarith
        simpa using mul_le_mul_of_nonneg_right this hw.le
      · simpa using hlt
      · simp [hr]
      · intro j hj
        have hlt2 : ((j + 1 : ℕ) : ℚ) < (rows.length : ℚ) / 2 := by
          have : 2 * (j + 1) < rows.length := by omega
          have : ((2 * (j + 1) : ℕ) : ℚ) < (rows.length : ℚ) := by exact_mod_cast this
          push_cast at this ⊢
          linarith
        rw [hs]
        simpa using mul_lt_mul_of_pos_right hlt2 hw
    rw [hfind]

theorem plainMean_perm {l l' : List ℚ} (h : l.Perm l') : Spec.plainMean l = Spec.plainMean l' := by
  unfold Spec.plainMean
  rw [h.sum_eq, h.length_eq]

theorem plainVariance_perm {l l' : List ℚ} (h : l.Perm l') : Spec.plainVariance l = Spec.plainVariance l' := by
  unfold Spec.plainVariance
  rw [plainMean_perm h]
  exact plainMean_perm (h.map _)

theorem used_perm (order : List Row → List Row) (ho : ∀ l, (order l).Perm l) (cell : ℚ → ℚ → Prop) (time : ℤ × ℤ)
    (skipna : Bool) (data : List Row) :
    (if skipna then (order (Spec.lutRows cell time data)).filter (fun r => r.value.isSome)
      else order (Spec.lutRows cell time data)).Perm (Spec.lutUsed cell time skipna data) := by
  unfold Spec.lutUsed
  split
  · exact (ho _).filter _
  · exact ho _

/-- **C109** `STD` of a cell is the plain standard deviation (here: its square) of the values of the polygons with a point in the
cell, whatever their areas.  A missing value makes it missing; if the polygons cover nothing of the cell, or none is left,
it raises `ZeroDivisionError`; with no polygon in the cell it is missing. -/
theorem C109_std (coverage : List Geom → ℚ) (hc : ∀ l l', l.Perm l' → coverage l = coverage l') (order : List Row → List Row)
    (ho : ∀ l, (order l).Perm l) (cell : ℚ → ℚ → Prop) (time : ℤ × ℤ) (skipna : Bool) (data : List Row) :
    let used := Spec.lutUsed cell time skipna data
    let result := getSpread coverage order cell time false skipna data
    (Spec.lutRows cell time data = [] → result = .ok (.num none)) ∧
    (Spec.lutRows cell time data ≠ [] → used = [] ∨ coverage (used.map (·.geom)) = 0 → result = .error .zeroDivision) ∧
    (coverage (used.map (·.geom)) ≠ 0 → (∃ r ∈ used, r.value = none) → result = .ok (.num none)) ∧
    (∀ val : Row → ℚ, used ≠ [] → coverage (used.map (·.geom)) ≠ 0 → (∀ r ∈ used, r.value = some (val r)) →
      result = .ok (.num (some (Spec.plainVariance (used.map val))))) := by
  intro used result
  have hp := used_perm order ho cell time skipna data
  have hres : result = spread coverage false skipna (order (Spec.lutRows cell time data)) := by
    simp only [result, getSpread, lut_trim_eq]
  obtain ⟨h1, h2, h3⟩ := stdSq_cases coverage skipna (order (Spec.lutRows cell time data))
  have hcov := hc _ _ (hp.map (·.geom))
  have hlen := (ho (Spec.lutRows cell time data)).length_eq
  have hne : used ≠ [] → Spec.lutRows cell time data ≠ [] := by
    intro h h'
    apply h
    simp [used, Spec.lutUsed, h']
  have hsp : Spec.lutRows cell time data ≠ [] → result = (do
      let x ← stdSq coverage skipna (order (Spec.lutRows cell time data))
      return .num x) := by
    intro h
    rw [hres, spread, if_neg (by rw [hlen]; simpa using h), if_neg (by simp)]
  refine ⟨?_, ?_, ?_, ?_⟩
  · intro h
    rw [hres, spread, if_pos (by rw [hlen, h]; rfl)]
  · intro hr h
    rw [hsp hr, h1]
    · rfl
    · rw [hcov]
      refine h.imp (fun h => ?_) id
      rw [show Spec.lutUsed cell time skipna data = [] from h] at hp
      exact List.perm_nil.1 hp
  · rintro hw ⟨r, hr, hv⟩
    rw [hsp (hne (List.ne_nil_of_mem hr)), h2 (by rw [hcov]; exact hw) (List.mem_map.2 ⟨r, hp.mem_iff.2 hr, hv⟩)]
    rfl
  · intro val hn hw hv
    rw [hsp (hne hn), h3 _ (fun h => by rw [h] at hp; exact hn (List.nil_perm.1 hp)) (by rw [hcov]; exact hw) _]
    · rw [plainVariance_perm (hp.map val)]
      rfl
    · rw [List.map_map]
      exact List.map_congr_left fun r hr => hv r (hp.mem_iff.1 hr)

/-- **C109** The areas are not taken into account: in the cell of C59, covered to three quarters by a polygon of value 10 and to
one quarter by one of value 20, a polygon of value 90 that only touches the cell raises the variance from 75/4 to 3800/3. -/
theorem C109_std_false (coverage : List Geom → ℚ) (hc : ∀ l l', l.Perm l' → coverage l = coverage l')
    (hn : coverage (exLut.map (·.geom)) ≠ 0) (order : List Row → List Row) (ho : ∀ l, (order l).Perm l) :
    getSpread coverage order (Spec.rectPoints 0 4 0 4) (0, 9) false false exLut = .ok (.num (some (3800 / 3))) ∧
      Spec.weighted (([(10, 12), (20, 4), (90, 0)] : List (ℚ × ℚ)).map
        (fun r => ((r.1 - Spec.weighted [(10, 12), (20, 4), (90, 0)]) ^ 2, r.2))) = 75 / 4 := by
  have hu : Spec.lutUsed (Spec.rectPoints 0 4 0 4) (0, 9) false exLut = exLut := exLut_rows
  constructor
  · have := (C109_std coverage hc order ho (Spec.rectPoints 0 4 0 4) (0, 9) false exLut).2.2.2 (fun r => r.value.getD 0)
    rw [hu] at this
    rw [this (by simp [exLut]) hn]
    · norm_num [exLut, Spec.plainVariance, Spec.plainMean]
    · intro r hr
      simp only [exLut, List.mem_cons, List.not_mem_nil, or_false] at hr
      rcases hr with rfl | rfl | rfl <;> rfl
  · norm_num [Spec.weighted]

/-- The coverage may be any number that does not depend on the order, the search tree any permutation. -/
example : getSpread (fun l => l.length) List.reverse (Spec.rectPoints 0 4 0 4) (0, 9) false false exLut = .ok (.num (some (3800 / 3))) :=
  (C109_std_false _ (fun _ _ h => by simp [h.length_eq]) (by simp [exLut]) _ List.reverse_perm).1

/-- **C109** `MEDIAN` of a cell with polygons is not a number but a row of the table, so the test for missing values raises in
every such cell: aggregating it is impossible.  If missing values are left out and none is left it raises already before. -/
theorem C109_median_raises (coverage : List Geom → ℚ) (h0 : ∀ l, 0 ≤ coverage l) (order : List Row → List Row)
    (ho : ∀ l, (order l).Perm l) (cell : ℚ → ℚ → Prop) (time : ℤ × ℤ) (skipna : Bool) (data : List Row) :
    (getSpread coverage order cell time true skipna data >>= Result.isNan) =
      if Spec.lutRows cell time data = [] then .ok true
      else if Spec.lutUsed cell time skipna data = [] then .error .indexError else .error .typeError := by
  have hp := used_perm order ho cell time skipna data
  have hlen := (ho (Spec.lutRows cell time data)).length_eq
  obtain ⟨h1, h2, h3⟩ := medianRow_eq coverage skipna (order (Spec.lutRows cell time data))
  unfold getSpread
  rw [lut_trim_eq, spread]
  by_cases hr : Spec.lutRows cell time data = []
  · rw [if_pos (by rw [hlen, hr]; rfl), if_pos hr]
    rfl
  rw [if_neg (by rw [hlen]; simpa using hr), if_neg hr, if_pos rfl]
  split
  · rename_i hu
    rw [hu] at hp
    rw [h1 (List.perm_nil.1 hp)]
    rfl
  · rename_i hu
    generalize hk : (if skipna then (order (Spec.lutRows cell time data)).filter (fun r => r.value.isSome)
      else order (Spec.lutRows cell time data)) = rows at *
    have hn : rows ≠ [] := by
      rintro rfl
      exact hu (List.nil_perm.1 hp)
    have hpos := List.length_pos_iff.2 hn
    rcases (h0 (rows.map (·.geom))).eq_or_lt with hw | hw
    · rw [h2 hn hw.symm]
      rfl
    · rw [h3 _ hw (List.getElem?_eq_getElem (by omega))]
      rfl

/-- **C109** Which row `MEDIAN` gives has nothing to do with its value: it is the one in the middle of the order of the search tree,
so that every polygon of the cell is the result for some order. -/
theorem C109_median_any (coverage : List Geom → ℚ) (h0 : ∀ l, 0 < coverage l) (cell : ℚ → ℚ → Prop) (time : ℤ × ℤ) (data : List Row) :
    (∀ order : List Row → List Row, (∀ l, (order l).Perm l) → Spec.lutRows cell time data ≠ [] →
      ∃ r, getSpread coverage order cell time true false data = .ok (.row r) ∧
        (order (Spec.lutRows cell time data))[((Spec.lutRows cell time data).length - 1) / 2]? = some r) ∧
    ∀ r ∈ Spec.lutRows cell time data, ∃ order : List Row → List Row, (∀ l, (order l).Perm l) ∧
      getSpread coverage order cell time true false data = .ok (.row r) := by
  have key : ∀ order : List Row → List Row, (∀ l, (order l).Perm l) → ∀ r,
      (order (Spec.lutRows cell time data))[((Spec.lutRows cell time data).length - 1) / 2]? = some r →
      getSpread coverage order cell time true false data = .ok (.row r) := by
    intro order ho r hr
    have hlen := (ho (Spec.lutRows cell time data)).length_eq
    have hl := (List.getElem?_eq_some_iff.1 hr).1
    unfold getSpread
    rw [lut_trim_eq, spread, if_neg (by omega), if_pos rfl, (medianRow_eq coverage false _).2.2 r (h0 _)]
    · rfl
    · rw [if_neg (by simp), hlen]
      exact hr
  refine ⟨?_, ?_⟩
  · intro order ho hn
    have hlen := (ho (Spec.lutRows cell time data)).length_eq
    have hpos := List.length_pos_iff.2 hn
    have hr := List.getElem?_eq_getElem (l := order (Spec.lutRows cell time data))
      (i := ((Spec.lutRows cell time data).length - 1) / 2) (by omega)
    exact ⟨_, key order ho _ hr, hr⟩
  · intro r hr
    generalize hL : Spec.lutRows cell time data = L at *
    have hk : (L.length - 1) / 2 ≤ (L.erase r).length := by
      rw [List.length_erase_of_mem hr]
      omega
    refine ⟨fun l => if l = L then (L.erase r).insertIdx ((L.length - 1) / 2) r else l, ?_, ?_⟩
    · intro l
      dsimp only
      split
      · rename_i h
        subst h
        exact (List.perm_insertIdx r _ hk).trans (List.perm_cons_erase hr).symm
      · exact .refl _
    · apply key
      · intro l
        split
        · rename_i h
          subst h
          exact (List.perm_insertIdx r _ hk).trans (List.perm_cons_erase hr).symm
        · exact .refl _
      · rw [if_pos rfl, List.getElem?_insertIdx_self, if_pos hk]

/-- In the cell of C59 the result may be the polygon of the greatest value. -/
example : ∃ order : List Row → List Row, (∀ l, (order l).Perm l) ∧
    getSpread (fun _ => 1) order (Spec.rectPoints 0 4 0 4) (0, 9) true false exLut = .ok (.row ⟨none, Spec.rectGeom 4 8 0 4, some 90⟩) :=
  (C109_median_any (fun _ => 1) (fun _ => one_pos) _ _ _).2 _ (by rw [exLut_rows]; simp [exLut])

/-- Aggregating the cell of C59 by the median raises. -/
example : (getSpread (fun _ => 1) id (Spec.rectPoints 0 4 0 4) (0, 9) true false exLut >>= Result.isNan) = .error .typeError := by
  rw [C109_median_raises _ (fun _ => zero_le_one) id (fun _ => .refl _), exLut_rows, if_neg (by simp [exLut]), if_neg]
  rw [show Spec.lutUsed (Spec.rectPoints 0 4 0 4) (0, 9) false exLut = exLut from exLut_rows]
  simp [exLut]

end Verif
