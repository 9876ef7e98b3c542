import Verif.Model.Compare
import Verif.Props.Numeric

/-!
# C75, C76: comparison of the values and attributes of two meshes
-/

namespace Verif
open Compare Utils

/-! ## Specification -/

/-- The cell of a mesh with a given geometry. -/
def Spec.CellWith (m : List JCell) (g : Boundary.Poly) (c : JCell) : Prop := c ∈ m ∧ c.geometry = g

/-- Some cell of the mesh has the attribute. -/
def Spec.HasColumn (m : List JCell) (k : String) : Prop := ∃ c ∈ m, ∃ e, c.entries.get? k = some e

/-- The attribute is a string in some cell, or a whole number in all cells: it is then compared as it is. -/
def Spec.PlainColumn (m : List JCell) (k : String) : Prop :=
  (∃ c ∈ m, ∃ s, c.entries.get? k = some (.str s)) ∨ ∀ c ∈ m, ∃ n, c.entries.get? k = some (.int n)

/-- The attribute is a number or missing in every cell, and in some cell missing or no `int`. -/
def Spec.NumberColumn (m : List JCell) (k : String) : Prop :=
  (∀ c ∈ m, ∀ s, c.entries.get? k ≠ some (.str s)) ∧ ∃ c ∈ m, ∀ n, c.entries.get? k ≠ some (.int n)

/-- The number stored under an attribute; none for NaN and for cells without it. -/
def Spec.number (c : JCell) (k : String) : Option ℚ :=
  match c.entries.get? k with
  | some (.int n) => some n
  | some (.flt x) => x
  | _ => none

/-- The string stored under an attribute. -/
def Spec.text (c : JCell) (k : String) : Option String :=
  match c.entries.get? k with
  | some (.str s) => some s
  | _ => none

/-- Two numbers, or missing ones, agree to four significant figures. -/
def Spec.Agree (a b : Option ℚ) : Prop := a.map (roundSigfig 4) = b.map (roundSigfig 4)

open Spec

/-! ## Lemmas -/

theorem mem_columns (m : List JCell) (k : String) : k ∈ columns m ↔ HasColumn m k := by
  unfold columns HasColumn
  rw [List.mem_dedup, List.mem_flatMap]
  constructor
  · rintro ⟨c, hc, hk⟩
    rw [Dict.mem_keys_iff, Option.isSome_iff_exists] at hk
    exact ⟨c, hc, hk⟩
  · rintro ⟨c, hc, e, he⟩
    exact ⟨c, hc, by rw [Dict.mem_keys_iff, he]; rfl⟩

theorem rowAt_eq {m : List JCell} (hn : (m.map JCell.geometry).Nodup) (g : Boundary.Poly) (c : JCell) :
    rowAt m g = some c ↔ CellWith m g c := by
  unfold rowAt CellWith
  induction m with
  | nil => simp
  | cons d m ih =>
    rw [List.map_cons, List.nodup_cons] at hn
    rw [List.find?_cons]
    by_cases h : d.geometry = g
    · simp only [h, decide_true, Option.some.injEq, List.mem_cons]
      constructor
      · rintro rfl; exact ⟨Or.inl rfl, h⟩
      · rintro ⟨rfl | h1, h2⟩
        · rfl
        · exact absurd (List.mem_map_of_mem (f := JCell.geometry) h1) (by rw [h2, ← h]; exact hn.1)
    · simp only [h, decide_false, ih hn.2, List.mem_cons]
      constructor
      · rintro ⟨h1, h2⟩; exact ⟨Or.inr h1, h2⟩
      · rintro ⟨rfl | h1, h2⟩
        · exact absurd h2 h
        · exact ⟨h1, h2⟩

theorem floatColumn_iff (m : List JCell) (k : String) : floatColumn m k = true ↔ NumberColumn m k := by
  unfold floatColumn NumberColumn
  rw [Bool.and_eq_true, List.all_eq_true, List.any_eq_true]
  apply and_congr
  · refine forall₂_congr fun c _ => ?_
    unfold entry
    rcases c.entries.get? k with _ | e
    · simp [Entry.isStr]
    · cases e <;> simp [Entry.isStr]
  · refine exists_congr fun c => and_congr_right fun _ => ?_
    unfold entry
    rcases c.entries.get? k with _ | e
    · simp [Entry.isInt]
    · cases e <;> simp [Entry.isInt]

theorem plain_iff_not {m : List JCell} {k : String} : PlainColumn m k ↔ ¬ NumberColumn m k := by
  unfold PlainColumn NumberColumn
  rw [not_and_or]
  push Not
  exact Iff.rfl

theorem shown_number {m : List JCell} {k : String} (h : NumberColumn m k) {c : JCell} (hc : c ∈ m) :
    shown m k c = .flt ((number c k).map (roundSigfig 4)) := by
  unfold shown
  rw [if_pos ((floatColumn_iff m k).2 h)]
  unfold entry number
  have := h.1 c hc
  rcases hk : c.entries.get? k with _ | e
  · rfl
  · cases e with
    | int n => rfl
    | flt x => rfl
    | str s => exact absurd hk (this s)

theorem shown_plain {m : List JCell} {k : String} (h : PlainColumn m k) (c : JCell) : shown m k c = entry c k := by
  unfold shown
  rw [if_neg (by rw [floatColumn_iff]; exact plain_iff_not.1 h)]

theorem same_entry (c1 c2 : JCell) (k : String) :
    (entry c1 k).same (entry c2 k) = true ↔ number c1 k = number c2 k ∧ text c1 k = text c2 k := by
  unfold entry number text
  rcases c1.entries.get? k with _ | e1 <;> rcases c2.entries.get? k with _ | e2
  · simp [Entry.same, Entry.num]
  · cases e2 <;> simp [Entry.same, Entry.num]
    exact decide_eq_true_iff
  · cases e1 <;> simp [Entry.same, Entry.num]
    exact decide_eq_true_iff
  · cases e1 <;> cases e2 <;> simp [Entry.same, Entry.num] <;> exact decide_eq_true_iff

theorem same_flt (x y : Option ℚ) : (Entry.flt x).same (.flt y) = true ↔ x = y := by
  simp only [Entry.same, Entry.num]
  exact decide_eq_true_iff

theorem same_comm (a b : Entry) : a.same b = b.same a := by
  cases a <;> cases b <;> simp [Entry.same, Entry.num, eq_comm] <;> exact decide_eq_decide.2 Iff.rfl

theorem same_self (a : Entry) : a.same a = true := by
  cases a <;> simp [Entry.same]

theorem mem_compareValues {m1 m2 : List JCell} (h1 : m1 ≠ []) (h2 : m2 ≠ []) (n1 : (m1.map JCell.geometry).Nodup)
    (n2 : (m2.map JCell.geometry).Nodup) : ∃ l, compareValues m1 m2 = .ok l ∧ (l.map JCell.geometry).Nodup ∧
      ∀ g, g ∈ l.map JCell.geometry ↔ ∃ c1 c2, CellWith m1 g c1 ∧ CellWith m2 g c2 ∧ ∃ k, HasColumn m1 k ∧ HasColumn m2 k ∧
        (shown m1 k c1).same (shown m2 k c2) = false := by
  unfold compareValues
  rw [if_neg (by simp [h1, h2])]
  refine ⟨_, rfl, ?_, ?_⟩
  · have hs : ∀ (f : Boundary.Poly → Option JCell), (∀ g c, f g = some c → c.geometry = g) → ∀ l : List Boundary.Poly,
        ((l.filterMap f).map JCell.geometry).Sublist l := by
      intro f hf l
      induction l with
      | nil => simp
      | cons g l ih =>
        rw [List.filterMap_cons]
        rcases hg : f g with _ | c
        · exact ih.cons g
        · rw [List.map_cons, hf g c hg]; exact ih.cons_cons g
    refine List.Nodup.sublist (hs _ ?_ _) (n1.filter _)
    intro g c hc
    split at hc
    · split at hc
      · rw [← Option.some.inj hc]
      · cases hc
    · cases hc
  · intro g
    simp only [List.mem_map, List.mem_filterMap, List.mem_filter, decide_eq_true_eq]
    constructor
    · rintro ⟨c, ⟨g', hg', hc⟩, rfl⟩
      rcases hr1 : rowAt m1 g' with _ | c1
      · simp [hr1] at hc
      rcases hr2 : rowAt m2 g' with _ | c2
      · simp [hr1, hr2] at hc
      simp only [hr1, hr2] at hc
      split at hc
      · rename_i hk
        rw [← Option.some.inj hc]
        rw [List.any_eq_true] at hk
        obtain ⟨k, hk1, hk2⟩ := hk
        rw [List.mem_filter, decide_eq_true_eq, mem_columns, mem_columns] at hk1
        exact ⟨c1, c2, (rowAt_eq n1 _ _).1 hr1, (rowAt_eq n2 _ _).1 hr2, k, hk1.1, hk1.2, by simpa using hk2⟩
      · cases hc
    · rintro ⟨c1, c2, hc1, hc2, k, hk1, hk2, hk3⟩
      refine ⟨⟨g, ((columns m1).filter (fun k => k ∈ columns m2)).map (fun k => (k, shown m2 k c2))⟩,
        ⟨g, ⟨⟨c1, hc1.1, hc1.2⟩, ⟨c2, hc2.1, hc2.2⟩⟩, ?_⟩, ?_⟩
      · simp only [(rowAt_eq n1 _ _).2 hc1, (rowAt_eq n2 _ _).2 hc2]
        rw [if_pos]
        rw [List.any_eq_true]
        exact ⟨k, by rw [List.mem_filter, decide_eq_true_eq, mem_columns, mem_columns]; exact ⟨hk1, hk2⟩, by simp [hk3]⟩
      · rfl

/-! ## C75 -/

/-- **C75** (partial): if every common attribute is numeric in both meshes or compared as it is in both, exactly the
common cells are reported (once each) that differ in a common attribute: numbers to four significant figures,
other attributes in any way.  Missing: attributes that are numeric in one mesh only (`C75_mixed_false`). -/
theorem C75_reports_partial {m1 m2 : List JCell} (h1 : m1 ≠ []) (h2 : m2 ≠ []) (n1 : (m1.map JCell.geometry).Nodup)
    (n2 : (m2.map JCell.geometry).Nodup) (hk : ∀ k, HasColumn m1 k → HasColumn m2 k → (NumberColumn m1 k ↔ NumberColumn m2 k)) :
    ∃ l, compareValues m1 m2 = .ok l ∧ (l.map JCell.geometry).Nodup ∧
      ∀ g, g ∈ l.map JCell.geometry ↔ ∃ c1 c2, CellWith m1 g c1 ∧ CellWith m2 g c2 ∧ ∃ k, HasColumn m1 k ∧ HasColumn m2 k ∧
        (NumberColumn m1 k ∧ ¬ Agree (number c1 k) (number c2 k) ∨
          PlainColumn m1 k ∧ ¬ (number c1 k = number c2 k ∧ text c1 k = text c2 k)) := by
  obtain ⟨l, e1, e2, e3⟩ := mem_compareValues h1 h2 n1 n2
  refine ⟨l, e1, e2, fun g => (e3 g).trans ?_⟩
  refine exists_congr fun c1 => exists_congr fun c2 => and_congr_right fun hc1 => and_congr_right fun hc2 => exists_congr fun k =>
    and_congr_right fun k1 => and_congr_right fun k2 => ?_
  rw [← Bool.not_eq_true]
  by_cases hn : NumberColumn m1 k
  · rw [shown_number hn hc1.1, shown_number ((hk k k1 k2).1 hn) hc2.1, same_flt]
    have : ¬ PlainColumn m1 k := fun h => plain_iff_not.1 h hn
    simp [hn, this, Agree]
  · have p1 := plain_iff_not.2 hn
    have p2 := plain_iff_not.2 (fun h => hn ((hk k k1 k2).2 h))
    rw [shown_plain p1, shown_plain p2, same_entry]
    simp [hn, p1]

/-- **C75**: numbers whose difference exceeds a thousandth of their mean size are always told apart, equal ones
never. -/
theorem C75_tolerance (x y : ℚ) : (Agree (some x) (some y) → |x - y| ≤ (|x| + |y|) / 2 / 1000) ∧ Agree (some x) (some x) := by
  refine ⟨fun h => ?_, rfl⟩
  have h' : roundSigfig 4 x = roundSigfig 4 y := by
    unfold Agree at h
    simpa using h
  have hx := (C55_accuracy 4 (by norm_num) x).1
  have hy := (C55_accuracy 4 (by norm_num) y).1
  rw [h'] at hx
  have e : (10 : ℚ) ^ (1 - (4 : ℕ) : ℤ) = 1 / 1000 := by norm_num [zpow_neg]
  rw [e] at hx hy
  have : |x - y| ≤ |roundSigfig 4 y - x| + |roundSigfig 4 y - y| := by
    have e2 : x - y = -(roundSigfig 4 y - x) + (roundSigfig 4 y - y) := by ring
    rw [e2]
    refine (abs_add_le _ _).trans ?_
    rw [abs_neg]
  linarith

/-- **C75**: a mesh does not differ from itself. -/
theorem C75_self {m : List JCell} (h : m ≠ []) (n : (m.map JCell.geometry).Nodup) : compareValues m m = .ok [] := by
  obtain ⟨l, e1, -, e3⟩ := mem_compareValues h h n n
  rw [e1]
  congr 1
  rw [← List.map_eq_nil_iff (f := JCell.geometry), List.eq_nil_iff_forall_not_mem]
  intro g hg
  obtain ⟨c1, c2, hc1, hc2, k, -, -, hk⟩ := (e3 g).1 hg
  have : some c1 = some c2 := by rw [← (rowAt_eq n g c1).2 hc1, ← (rowAt_eq n g c2).2 hc2]
  rw [Option.some.inj this, same_self] at hk
  cases hk

/-- **C75**: exchanging the meshes reports the same geometries. -/
theorem C75_symmetric {m1 m2 : List JCell} (h1 : m1 ≠ []) (h2 : m2 ≠ []) (n1 : (m1.map JCell.geometry).Nodup)
    (n2 : (m2.map JCell.geometry).Nodup) : ∃ l l', compareValues m1 m2 = .ok l ∧ compareValues m2 m1 = .ok l' ∧
      (l.map JCell.geometry).Perm (l'.map JCell.geometry) := by
  obtain ⟨l, e1, e2, e3⟩ := mem_compareValues h1 h2 n1 n2
  obtain ⟨l', f1, f2, f3⟩ := mem_compareValues h2 h1 n2 n1
  refine ⟨l, l', e1, f1, (List.perm_ext_iff_of_nodup e2 f2).2 fun g => ?_⟩
  rw [e3, f3]
  constructor
  · rintro ⟨c1, c2, hc1, hc2, k, k1, k2, hk⟩
    exact ⟨c2, c1, hc2, hc1, k, k2, k1, by rw [same_comm]; exact hk⟩
  · rintro ⟨c1, c2, hc1, hc2, k, k1, k2, hk⟩
    exact ⟨c2, c1, hc2, hc1, k, k2, k1, by rw [same_comm]; exact hk⟩

/-- **C75 is false** for ids: they are compared as values, so cells with the same bounds and data are reported. -/
theorem C75_id_false : ∃ (b : Boundary) (d : Dict String Val) (l : List JCell),
    compareValues [ofCell ⟨b, d, 3⟩] [ofCell ⟨b, d, 7⟩] = .ok l ∧ l.map JCell.geometry = [b.toPolygon] := by
  refine ⟨⟨0, 5, 0, 5, []⟩, [("SIC", .num (some 1))], _, rfl, ?_⟩
  decide +kernel

/-- **C75 is false** for attributes that one mesh does not have: any values are then passed over. -/
theorem C75_column_false (g : Boundary.Poly) (x : ℚ) : compareValues [⟨g, [("SIC", .flt (some x)), ("id", .str "0")]⟩]
    [⟨g, [("id", .str "0")]⟩] = .ok [] := by
  obtain ⟨l, e1, -, e3⟩ := mem_compareValues (m1 := [⟨g, [("SIC", .flt (some x)), ("id", .str "0")]⟩])
    (m2 := [⟨g, [("id", .str "0")]⟩]) (by simp) (by simp) (by simp) (by simp)
  rw [e1]
  congr 1
  rw [← List.map_eq_nil_iff (f := JCell.geometry), List.eq_nil_iff_forall_not_mem]
  intro g' hg
  obtain ⟨c1, c2, ⟨hc1, -⟩, ⟨hc2, -⟩, k, -, ⟨c, hc, e, he⟩, hk⟩ := (e3 g').1 hg
  simp only [List.mem_singleton] at hc1 hc2 hc
  subst hc1 hc2 hc
  have hid : k = "id" := by
    by_contra hne
    simp [Dict.get?, Ne.symm hne] at he
  subst hid
  revert hk
  simp [shown, floatColumn, entry, Dict.get?, Entry.isStr, Entry.same]

/-- **C75 is false** for attributes that are numeric in one mesh only: the same number is rounded in one mesh and not
in the other. -/
theorem C75_mixed_false : ∃ (m1 m2 : List JCell) (c1 c2 : JCell) (l : List JCell), c1 ∈ m1 ∧ c2 ∈ m2 ∧ c1 = c2 ∧
    compareValues m1 m2 = .ok l ∧ c1.geometry ∈ l.map JCell.geometry := by
  let a : JCell := ⟨Boundary.toPolygon ⟨0, 5, 0, 5, []⟩, [("SIC", .flt (some (123456 / 100000)))]⟩
  refine ⟨[a, ⟨Boundary.toPolygon ⟨0, 5, 5, 10, []⟩, [("SIC", .str "none")]⟩],
    [a, ⟨Boundary.toPolygon ⟨0, 5, 5, 10, []⟩, [("SIC", .flt (some 2))]⟩], a, a, _, by simp, by simp, rfl, rfl, ?_⟩
  decide +kernel

/-- The hypotheses of `C75_reports_partial` are met by meshes with numbers, strings and missing values. -/
def exComp1 : List JCell := [
  ⟨Boundary.toPolygon ⟨0, 5, 0, 5, []⟩, [("SIC", .flt (some (12341 / 10000))), ("id", .str "0")]⟩,
  ⟨Boundary.toPolygon ⟨0, 5, 5, 10, []⟩, [("SIC", .flt (some 5)), ("id", .str "1")]⟩,
  ⟨Boundary.toPolygon ⟨0, 5, 10, 15, []⟩, [("SIC", .flt none), ("id", .str "2")]⟩]
def exComp2 : List JCell := [
  ⟨Boundary.toPolygon ⟨0, 5, 0, 5, []⟩, [("SIC", .flt (some (12342 / 10000))), ("id", .str "0")]⟩,
  ⟨Boundary.toPolygon ⟨0, 5, 5, 10, []⟩, [("SIC", .flt (some (501 / 100))), ("id", .str "1")]⟩,
  ⟨Boundary.toPolygon ⟨0, 5, 10, 15, []⟩, [("id", .str "2")]⟩]

example : exComp1 ≠ [] ∧ exComp2 ≠ [] ∧ (exComp1.map JCell.geometry).Nodup ∧ (exComp2.map JCell.geometry).Nodup ∧
    (∀ k ∈ columns exComp1, floatColumn exComp1 k = floatColumn exComp2 k) ∧
    (∃ l, compareValues exComp1 exComp2 = .ok l ∧ l.map JCell.geometry = [Boundary.toPolygon ⟨0, 5, 5, 10, []⟩]) := by
  refine ⟨by decide, by decide, by decide +kernel, by decide +kernel, by decide +kernel, _, rfl, by decide +kernel⟩

/-! ## C76 -/

/-- **C76** (partial): the common cells are reported whose attributes differ in number, name or order.  Missing: the order
should not matter (`C76_order_false`). -/
theorem C76_attributes_partial {m1 m2 : List JCell} (n2 : (m2.map JCell.geometry).Nodup) (c2 : JCell) :
    c2 ∈ compareAttributes m1 m2 ↔ c2 ∈ m2 ∧ ∃ c1, CellWith m1 c2.geometry c1 ∧ c1.entries.keys ≠ c2.entries.keys := by
  unfold compareAttributes
  rw [List.mem_filterMap]
  constructor
  · rintro ⟨c1, hc1, h⟩
    rcases hr : rowAt m2 c1.geometry with _ | d
    · simp [hr] at h
    · simp only [hr] at h
      obtain ⟨d1, d2⟩ := (rowAt_eq n2 _ _).1 hr
      split at h
      · cases h
      · rename_i hne
        rw [← Option.some.inj h]
        exact ⟨d1, c1, ⟨hc1, d2.symm⟩, hne⟩
  · rintro ⟨h2, c1, ⟨hc1, hg⟩, hne⟩
    refine ⟨c1, hc1, ?_⟩
    rw [(rowAt_eq n2 c1.geometry c2).2 ⟨h2, hg.symm⟩]
    simp [hne]

/-- **C76 is false** for the order: cells with equal contents are reported if the contents are in another order. -/
theorem C76_order_false : ∃ c1 c2 : JCell, c1.geometry = c2.geometry ∧ (∀ k, c1.entries.get? k = c2.entries.get? k) ∧
    compareAttributes [c1] [c2] = [c2] ∧ compareValues [c1] [c2] = .ok [] := by
  refine ⟨⟨Boundary.toPolygon ⟨0, 5, 0, 5, []⟩, [("SIC", .flt (some 1)), ("depth", .flt (some 2))]⟩,
    ⟨Boundary.toPolygon ⟨0, 5, 0, 5, []⟩, [("depth", .flt (some 2)), ("SIC", .flt (some 1))]⟩, rfl, ?_, by decide +kernel, by decide +kernel⟩
  intro k
  simp only [Dict.get?]
  by_cases h1 : "SIC" = k
  · subst h1; decide +kernel
  · by_cases h2 : "depth" = k <;> simp [h1, h2]

/-- **C76**: cells written by the code with data of the same names in the same order are not reported. -/
theorem C76_written {m1 m2 : List AggCell} (n2 : (m2.map (fun c => c.bounds.toPolygon)).Nodup)
    (h : ∀ c1 ∈ m1, ∀ c2 ∈ m2, c1.bounds.toPolygon = c2.bounds.toPolygon → c1.data.keys = c2.data.keys) :
    compareAttributes (m1.map ofCell) (m2.map ofCell) = [] := by
  have keys_set : ∀ (d d' : Dict String Entry) (k : String) (v v' : Entry), d.keys = d'.keys → (d.set k v).keys = (d'.set k v').keys := by
    intro d
    induction d with
    | nil =>
      intro d' k v v' hk
      cases d' with
      | nil => rfl
      | cons => simp [Dict.keys] at hk
    | cons p d ih =>
      intro d' k v v' hk
      cases d' with
      | nil => simp [Dict.keys] at hk
      | cons q d' =>
        obtain ⟨pk, pv⟩ := p
        obtain ⟨qk, qv⟩ := q
        simp only [Dict.keys, List.map_cons, List.cons.injEq] at hk
        obtain ⟨rfl, hk⟩ := hk
        simp only [Dict.set]
        split
        · simp only [Dict.keys, List.map_cons, hk]
        · have := ih d' k v v' hk
          simp only [Dict.keys] at this
          simp only [Dict.keys, List.map_cons, this]
  have keys_update : ∀ (e e' : List (String × Val)) (d d' : Dict String Entry), Dict.keys e = Dict.keys e' → d.keys = d'.keys →
      (d.update (e.map (fun p => (p.1, ofVal p.2)))).keys = (d'.update (e'.map (fun p => (p.1, ofVal p.2)))).keys := by
    intro e
    induction e with
    | nil =>
      intro e' d d' he hd
      cases e' with
      | nil => exact hd
      | cons => simp [Dict.keys] at he
    | cons p e ih =>
      intro e' d d' he hd
      cases e' with
      | nil => simp [Dict.keys] at he
      | cons q e' =>
        obtain ⟨pk, pv⟩ := p
        obtain ⟨qk, qv⟩ := q
        simp only [Dict.keys, List.map_cons, List.cons.injEq] at he
        obtain ⟨rfl, he⟩ := he
        simp only [Dict.update, List.map_cons, List.foldl_cons]
        exact ih e' _ _ he (keys_set d d' pk _ _ hd)
  rw [List.eq_nil_iff_forall_not_mem]
  intro c2 hc
  have n2' : ((m2.map ofCell).map JCell.geometry).Nodup := by
    rw [List.map_map]; exact n2
  obtain ⟨h2, c1, ⟨h1, hg⟩, hne⟩ := (C76_attributes_partial n2' c2).1 hc
  obtain ⟨a1, ha1, rfl⟩ := List.mem_map.1 h1
  obtain ⟨a2, ha2, rfl⟩ := List.mem_map.1 h2
  apply hne
  exact keys_set _ _ _ _ _ (keys_update _ _ _ _ (h a1 ha1 a2 ha2 hg) rfl)

/-- **C76**, output: the frame by default; `cellboxes` always raises, other texts give nothing. -/
theorem C76_output {m1 m2 : List JCell} (h1 : m1 ≠ []) (h2 : m2 ≠ []) :
    (∃ l, compareValues m1 m2 = .ok l ∧ compareValuesAs m1 m2 none = .ok (.frame l) ∧ compareValuesAs m1 m2 (some "df") = .ok (.frame l) ∧
      (HasColumn m1 "id" → HasColumn m2 "id" → compareValuesAs m1 m2 (some "id") = .ok (.ids (l.map (fun c => entry c "id"))))) ∧
    compareValuesAs m1 m2 (some "cellboxes") = .error .keyError ∧ compareValuesAs m1 m2 (some "cb") = .error .keyError ∧
    (compareAttributes m1 m2 = [] → compareAttributesAs m1 m2 (some "id") = .error .keyError) ∧
    ∀ t ∉ ["cellboxes", "cb", "id", "dataframe", "df"], compareValuesAs m1 m2 (some t) = .ok .nothing := by
  have e : ∃ l, compareValues m1 m2 = .ok l := by
    unfold compareValues
    rw [if_neg (by simp [h1, h2])]
    exact ⟨_, rfl⟩
  obtain ⟨l, hl⟩ := e
  unfold compareValuesAs compareAttributesAs
  rw [hl]
  refine ⟨⟨l, rfl, rfl, rfl, fun a b => ?_⟩, rfl, rfl, fun h => ?_, fun t ht => ?_⟩
  · simp [bind, Except.bind, returnAs, mem_columns, a, b]
  · rw [h]; rfl
  · simp only [List.mem_cons, List.not_mem_nil, or_false, not_or] at ht
    simp [bind, Except.bind, returnAs, ht]

example : compareAttributes exComp1 exComp2 = [⟨Boundary.toPolygon ⟨0, 5, 10, 15, []⟩, [("id", .str "2")]⟩] ∧
    compareValuesAs exComp1 exComp2 (some "id") = .ok (.ids [.str "1"]) := by
  refine ⟨by decide +kernel, by decide +kernel⟩

example : compareAttributes ([⟨⟨0, 5, 0, 5, []⟩, [("SIC", .num (some 1))], 3⟩].map ofCell) ([⟨⟨0, 5, 0, 5, []⟩, [("SIC", .num none)], 8⟩].map ofCell) = [] :=
  C76_written (by simp) (by simp; decide)

/-! ## Reported values, empty meshes, written cells -/

/-- **C75**: each reported row shows, for exactly the common attributes, the values of the second mesh. -/
theorem C75_rows {m1 m2 l : List JCell} (h : compareValues m1 m2 = .ok l) (n2 : (m2.map JCell.geometry).Nodup) :
    ∀ r ∈ l, ∃ c2, CellWith m2 r.geometry c2 ∧ (∀ k, k ∈ r.entries.keys ↔ HasColumn m1 k ∧ HasColumn m2 k) ∧
      ∀ k e, (k, e) ∈ r.entries → (NumberColumn m2 k → e = .flt ((number c2 k).map (roundSigfig 4))) ∧ (PlainColumn m2 k → e = entry c2 k) := by
  unfold compareValues at h
  split at h
  · cases h
  have h := Except.ok.inj h
  intro r hr
  rw [← h, List.mem_filterMap] at hr
  obtain ⟨g, -, hr⟩ := hr
  rcases hr1 : rowAt m1 g with _ | c1
  · simp [hr1] at hr
  rcases hr2 : rowAt m2 g with _ | c2
  · simp [hr1, hr2] at hr
  simp only [hr1, hr2] at hr
  split at hr
  swap
  · cases hr
  have hr := Option.some.inj hr
  have hc2 := (rowAt_eq n2 _ _).1 hr2
  subst hr
  refine ⟨c2, hc2, fun k => ?_, fun k e hk => ?_⟩
  · simp only [Dict.keys, List.map_map]
    have : (Prod.fst ∘ fun k => (k, shown m2 k c2)) = id := rfl
    rw [this, List.map_id, List.mem_filter, decide_eq_true_eq, mem_columns, mem_columns]
  · rw [List.mem_map] at hk
    obtain ⟨k', -, hk⟩ := hk
    obtain ⟨rfl, rfl⟩ := Prod.mk.inj hk
    exact ⟨fun hn => shown_number hn hc2.1, fun hp => shown_plain hp c2⟩

/-- **C75**: a mesh without cells cannot be compared. -/
theorem C75_empty_raises (m : List JCell) : compareValues [] m = .error .keyError ∧ compareValues m [] = .error .keyError := by
  unfold compareValues
  simp

theorem written_get? (d e : Dict String Entry) (hn : (e.map Prod.fst).Nodup) (k : String) :
    (d.update e).get? k = ((e.get? k).or (d.get? k)) := by
  unfold Dict.update
  induction e generalizing d with
  | nil => simp
  | cons p e ih =>
    rw [List.map_cons, List.nodup_cons] at hn
    rw [List.foldl_cons, ih _ hn.2, Dict.get?_set]
    obtain ⟨a, v⟩ := p
    have hc : Dict.get? ((a, v) :: e) k = if a = k then some v else Dict.get? e k := rfl
    rw [hc]
    by_cases h : a = k
    · have h0 : Dict.get? e k = none := by
        rw [Option.eq_none_iff_forall_ne_some]
        intro w hw
        refine hn.1 ?_
        have : k ∈ Dict.keys e := by rw [Dict.mem_keys_iff, hw]; rfl
        rw [h]; exact this
      rw [h0, if_pos h, if_pos h]; rfl
    · rw [if_neg h, if_neg h]

/-- **C75**: a written cell has its data, its number as text, and (unless the data uses these names) the centre and half the sizes of its
bounds; nothing else. -/
theorem C75_written (c : AggCell) (hn : (c.data.map Prod.fst).Nodup) : (ofCell c).geometry = c.bounds.toPolygon ∧
    (ofCell c).entries.get? "id" = some (.str (toString c.id)) ∧
    ∀ k, k ≠ "id" →
      (∀ v, c.data.get? k = some v → (ofCell c).entries.get? k = some (ofVal v)) ∧
      (c.data.get? k = none → (ofCell c).entries.get? k =
        if k = "cx" then some (.flt (some c.bounds.cx)) else if k = "cy" then some (.flt (some c.bounds.cy))
        else if k = "dcx" then some (.flt (some (c.bounds.width / 2)))
        else if k = "dcy" then some (.flt (some ((c.bounds.latMax - c.bounds.latMin) / 2))) else none) := by
  have hget : ∀ (d : Dict String Val) k, Dict.get? (d.map (fun p => (p.1, ofVal p.2))) k = (d.get? k).map ofVal := by
    intro d k
    induction d with
    | nil => rfl
    | cons p d ih =>
      show (if p.1 = k then some (ofVal p.2) else Dict.get? (d.map _) k) = Option.map ofVal (if p.1 = k then some p.2 else Dict.get? d k)
      rw [ih]
      split <;> rfl
  have hn' : ((c.data.map (fun p => (p.1, ofVal p.2))).map Prod.fst).Nodup := by rw [List.map_map]; exact hn
  refine ⟨rfl, ?_, fun k hk => ⟨fun v hv => ?_, fun h0 => ?_⟩⟩
  · unfold ofCell
    simp only [Dict.get?_set, if_true]
  · unfold ofCell
    simp only [Dict.get?_set, if_neg (Ne.symm hk), written_get? _ _ hn', hget, hv]
    rfl
  · unfold ofCell
    simp only [Dict.get?_set, if_neg (Ne.symm hk), written_get? _ _ hn', hget, h0, Option.map_none, Option.none_or]
    by_cases h1 : k = "cx"
    · subst h1; rfl
    by_cases h2 : k = "cy"
    · subst h2; rfl
    by_cases h3 : k = "dcx"
    · subst h3; rfl
    by_cases h4 : k = "dcy"
    · subst h4; rfl
    simp only [h1, h2, h3, h4, if_false, Dict.get?, Ne.symm h1, Ne.symm h2, Ne.symm h3, Ne.symm h4]

example : (ofCell ⟨⟨0, 10, 20, 40, []⟩, [("SIC", .num (some 5))], 7⟩).entries.get? "dcy" = some (.flt (some 5)) ∧
    (ofCell ⟨⟨0, 10, 20, 40, []⟩, [("SIC", .num (some 5))], 7⟩).entries.get? "dcx" = some (.flt (some 10)) := by decide +kernel

end Verif
