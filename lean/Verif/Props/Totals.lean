import Verif.Props.Blocks
import Verif.Props.Units

/-!
# C133: what a built mesh says altogether
-/

namespace Verif
open Spec

/-! ## Specification -/

/-- What the values `f` of the cells have to do with all the values of a source, when the cell `c` holds those of `part c`:
numbers of datapoints add up to the number of all; means weighted by the numbers of values add up to the sum of all; the least and the greatest
value over the cells with data are those of all the data.  When nothing is filled in but from the boxes above, the same holds over all
cells, and no mean or median lies outside of the range of the data. -/
structure Spec.SaysAltogether (grid : Bool) (agg : AggType) (fill : Fill) (whole : List (Option ℚ)) (cells : List AggCell)
    (part : AggCell → List (Option ℚ)) (f : AggCell → Option ℚ) : Prop where
  count : agg = .count → (∀ c ∈ cells, f c ≠ none) ∧
    (cells.map (fun c => (f c).getD 0)).sum = if grid then (whole.length : ℚ) else ((presentValues whole).length : ℚ)
  mean : agg = .mean → (cells.map (fun c => (f c).getD 0 * ((presentValues (part c)).length : ℚ))).sum = (presentValues whole).sum
  present : agg ∈ [AggType.min, .max, .mean, .median] → ∀ c ∈ cells, presentValues (part c) ≠ [] → f c ≠ none
  least : agg = .min → ∀ v, IsMinOf (presentValues whole) v ↔
    IsMinOf ((cells.filter (fun c => !(presentValues (part c)).isEmpty)).filterMap f) v
  greatest : agg = .max → ∀ v, IsMaxOf (presentValues whole) v ↔
    IsMaxOf ((cells.filter (fun c => !(presentValues (part c)).isEmpty)).filterMap f) v
  leastFilled : agg = .min → fill = .parent ∨ fill = .const (.num none) → ∀ v, IsMinOf (presentValues whole) v ↔ IsMinOf (cells.filterMap f) v
  greatestFilled : agg = .max → fill = .parent ∨ fill = .const (.num none) → ∀ v, IsMaxOf (presentValues whole) v ↔ IsMaxOf (cells.filterMap f) v
  between : agg ∈ [AggType.min, .max, .mean, .median] → fill = .parent ∨ fill = .const (.num none) → ∀ c ∈ cells, ∀ x, f c = some x →
    ∃ u ∈ presentValues whole, ∃ w ∈ presentValues whole, u ≤ x ∧ x ≤ w

/-! ## Lists -/

theorem presentValues_flatMap {α : Type} (l : List α) (p : α → List (Option ℚ)) :
    presentValues (l.flatMap p) = l.flatMap (fun a => presentValues (p a)) := by
  unfold presentValues
  rw [List.filterMap_flatMap]

theorem sum_flatMap {α : Type} (l : List α) (p : α → List ℚ) : (l.flatMap p).sum = (l.map (fun a => (p a).sum)).sum := by
  induction l with
  | nil => rfl
  | cons a l ih => rw [List.flatMap_cons, List.sum_append, ih, List.map_cons, List.sum_cons]

theorem length_flatMap_cast {α β : Type} (l : List α) (p : α → List β) :
    ((l.flatMap p).length : ℚ) = (l.map (fun a => ((p a).length : ℚ))).sum := by
  induction l with
  | nil => rfl
  | cons a l ih => rw [List.flatMap_cons, List.length_append, Nat.cast_add, ih, List.map_cons, List.sum_cons]

/-- A mean lies between two of the values. -/
theorem mean_between {l : List ℚ} (hl : l ≠ []) {v : ℚ} (h : v * l.length = l.sum) : ∃ u ∈ l, ∃ w ∈ l, u ≤ v ∧ v ≤ w := by
  have hpos : (0 : ℚ) < l.length := by exact_mod_cast List.length_pos_iff.2 hl
  obtain ⟨lo, hlo⟩ := Option.ne_none_iff_exists'.1 (mt (listMin_spec l).1.1 hl)
  obtain ⟨hi, hhi⟩ := Option.ne_none_iff_exists'.1 (mt (listMax_spec l).1.1 hl)
  obtain ⟨a1, a2⟩ := ((listMin_spec l).2 lo).1 hlo
  obtain ⟨b1, b2⟩ := ((listMax_spec l).2 hi).1 hhi
  refine ⟨lo, a1, hi, b1, ?_, ?_⟩
  · have := List.card_nsmul_le_sum l lo a2
    rw [nsmul_eq_mul, ← h, mul_comm] at this
    exact le_of_mul_le_mul_right this hpos
  · have := List.sum_le_card_nsmul l hi b2
    rw [nsmul_eq_mul, ← h, mul_comm (l.length : ℚ)] at this
    exact le_of_mul_le_mul_right this hpos

/-- Extremes of the parts are extremes of the whole. -/
theorem extreme_parts {α : Type} {r : ℚ → ℚ → Prop} (ht : ∀ a b c, r a b → r b c → r a c) (ha : ∀ a b, r a b → r b a → a = b)
    {cells l : List α} {P : α → List ℚ} {whole : List ℚ} {f : α → Option ℚ} (hw : ∀ x, x ∈ whole ↔ ∃ c ∈ cells, x ∈ P c)
    (hown : ∀ c ∈ cells, P c ≠ [] → c ∈ l ∧ ∃ m, f c = some m ∧ m ∈ P c ∧ ∀ x ∈ P c, r m x)
    (hf : ∀ c ∈ l, ∀ x, f c = some x → x ∈ whole) (v : ℚ) :
    (v ∈ whole ∧ ∀ x ∈ whole, r v x) ↔ (v ∈ l.filterMap f ∧ ∀ x ∈ l.filterMap f, r v x) := by
  constructor
  · rintro ⟨h1, h2⟩
    obtain ⟨c, hc, hv⟩ := (hw v).1 h1
    obtain ⟨hcl, m, hm, m1, m2⟩ := hown c hc (List.ne_nil_of_mem hv)
    have : v = m := ha _ _ (h2 m ((hw m).2 ⟨c, hc, m1⟩)) (m2 v hv)
    subst this
    refine ⟨List.mem_filterMap.2 ⟨c, hcl, hm⟩, fun x hx => ?_⟩
    obtain ⟨c', hc', hx⟩ := List.mem_filterMap.1 hx
    exact h2 x (hf c' hc' x hx)
  · rintro ⟨h1, h2⟩
    obtain ⟨c, hc, hv⟩ := List.mem_filterMap.1 h1
    refine ⟨hf c hc v hv, fun x hx => ?_⟩
    obtain ⟨c', hc', hx⟩ := (hw x).1 hx
    obtain ⟨hcl, m, hm, m1, m2⟩ := hown c' hc' (List.ne_nil_of_mem hx)
    exact ht _ _ _ (h2 m (List.mem_filterMap.2 ⟨c', hcl, hm⟩)) (m2 x hx)

/-! ## The statistics of the cells -/

theorem filled_own {value : Boundary → Option ℚ} {fill : Fill} {q : Boundary} {anc : List Boundary} {v : Option ℚ} {x : ℚ}
    (h : Filled value fill q anc v) (hx : value q = some x) : v = some x := by
  unfold Filled at h
  rcases fill with _ | (_ | _)
  all_goals first
    | exact h.elim
    | (simp only at h; rw [h.eq, hx]; rfl)

theorem filled_from {value : Boundary → Option ℚ} {fill : Fill} {q : Boundary} {anc : List Boundary} {x : ℚ}
    (h : Filled value fill q anc (some x)) (hfill : fill = .parent ∨ fill = .const (.num none)) : ∃ p ∈ q :: anc, value p = some x := by
  rcases hfill with rfl | rfl
  · rcases h with ⟨pre, y, post, e, -, hy⟩ | ⟨-, h⟩
    · cases hy
      have : some x ∈ (q :: anc).map value := by
        rw [List.map_cons, e]; simp
      obtain ⟨p, hp, e⟩ := List.mem_map.1 this
      exact ⟨p, hp, e⟩
    · cases h
  · rcases h with ⟨pre, y, post, e, -, hy⟩ | ⟨-, h⟩
    · cases hy
      have : some x ∈ [value q, none] := by rw [e]; simp
      rcases List.mem_cons.1 this with h | h
      · exact ⟨q, List.mem_cons_self, h.symm⟩
      · simp at h
    · cases h

/-- The statistics that say where the values lie. -/
theorem statistic_within {grid : Bool} {agg : AggType} (hagg : agg ∈ [AggType.min, .max, .mean, .median]) {vals : List (Option ℚ)} {r : Option ℚ}
    (h : Statistic grid agg vals r) : (presentValues vals ≠ [] → r ≠ none) ∧
      ∀ x, r = some x → ∃ u ∈ presentValues vals, ∃ w ∈ presentValues vals, u ≤ x ∧ x ≤ w := by
  have hd : ∀ l : List ℚ, (l ≠ [] → ∃ v, IsMinOf l v) ∧ (l ≠ [] → ∃ v, IsMaxOf l v) ∧ (l ≠ [] → ∃ v, IsMiddle l v) := by
    intro l
    refine ⟨fun hl => ?_, fun hl => ?_, fun hl => ?_⟩
    · obtain ⟨v, hv⟩ := Option.ne_none_iff_exists'.1 (mt (listMin_spec l).1.1 hl)
      exact ⟨v, ((listMin_spec l).2 v).1 hv⟩
    · obtain ⟨v, hv⟩ := Option.ne_none_iff_exists'.1 (mt (listMax_spec l).1.1 hl)
      exact ⟨v, ((listMax_spec l).2 v).1 hv⟩
    · obtain ⟨r, e, hr⟩ := (C29_values grid (l.map some)).1 .median (by simp)
      have hp : presentValues (l.map some) = l := by unfold presentValues; rw [List.filterMap_map]; simp
      rw [hp] at hr
      obtain ⟨v, rfl⟩ := Option.ne_none_iff_exists'.1 (mt hr.1 hl)
      refine ⟨v, ?_⟩
      have := ((C29_values grid (l.map some)).2.2.2.2.1 v).1 e
      rwa [hp] at this
  simp only [List.mem_cons, List.not_mem_nil, or_false] at hagg
  rcases hagg with rfl | rfl | rfl | rfl
  · exact ⟨fun hl => by obtain ⟨v, hv⟩ := (hd _).1 hl; rw [(h v).2 hv]; simp, fun x hx => ⟨x, ((h x).1 hx).1, x, ((h x).1 hx).1, le_rfl, le_rfl⟩⟩
  · exact ⟨fun hl => by obtain ⟨v, hv⟩ := (hd _).2.1 hl; rw [(h v).2 hv]; simp, fun x hx => ⟨x, ((h x).1 hx).1, x, ((h x).1 hx).1, le_rfl, le_rfl⟩⟩
  · refine ⟨fun hl => ?_, fun x hx => mean_between ((h x).1 hx).1 ((h x).1 hx).2⟩
    have hpos : ((presentValues vals).length : ℚ) ≠ 0 := by exact_mod_cast (List.length_pos_iff.2 hl).ne'
    rw [(h ((presentValues vals).sum / (presentValues vals).length)).2 ⟨hl, div_mul_cancel₀ _ hpos⟩]
    simp
  · refine ⟨fun hl => by obtain ⟨v, hv⟩ := (hd _).2.2 hl; rw [(h v).2 hv]; simp, fun x hx => ?_⟩
    obtain ⟨lo, h1, hi, h2, -, h3, h4, h5⟩ := (h x).1 hx
    have := (h4 hi h3).1
    exact ⟨lo, h1, hi, h2, by linarith, by linarith⟩

/-- What the statistics of the parts and of the boxes above them, filled as configured, have to do with the whole. -/
theorem says_altogether {grid : Bool} {agg : AggType} {fill : Fill} {b : Boundary} {rows : Boundary → List (Option ℚ)} {cells : List AggCell}
    {In : Boundary → Prop} {value : Boundary → Option ℚ} (hstat : ∀ q, In q → Statistic grid agg (rows q) (value q))
    (hsub : ∀ q, In q → ∀ v ∈ rows q, v ∈ rows b) (hperm : (cells.flatMap (fun c => rows c.bounds)).Perm (rows b)) {f : AggCell → Option ℚ}
    (hf : ∀ c ∈ cells, ∃ anc, (∀ q ∈ c.bounds :: anc, In q) ∧ Filled value fill c.bounds anc (f c)) :
    SaysAltogether grid agg fill (rows b) cells (fun c => rows c.bounds) f := by
  have hown : ∀ c ∈ cells, Statistic grid agg (rows c.bounds) (value c.bounds) ∧ ∀ x, value c.bounds = some x → f c = some x := by
    intro c hc
    obtain ⟨anc, h1, h2⟩ := hf c hc
    exact ⟨hstat _ (h1 _ List.mem_cons_self), fun x hx => filled_own h2 hx⟩
  have hpres : (cells.flatMap (fun c => presentValues (rows c.bounds))).Perm (presentValues (rows b)) := by
    rw [← presentValues_flatMap]
    exact hperm.filterMap id
  have hmem : ∀ x, x ∈ presentValues (rows b) ↔ ∃ c ∈ cells, x ∈ presentValues (rows c.bounds) := by
    intro x
    rw [← hpres.mem_iff, List.mem_flatMap]
  have hsub' : ∀ q, In q → ∀ x ∈ presentValues (rows q), x ∈ presentValues (rows b) := by
    intro q hq x hx
    obtain ⟨y, hy, e⟩ := List.mem_filterMap.1 hx
    exact List.mem_filterMap.2 ⟨y, hsub q hq y hy, e⟩
  have hpresent : agg ∈ [AggType.min, .max, .mean, .median] → ∀ c ∈ cells, presentValues (rows c.bounds) ≠ [] →
      ∃ x, value c.bounds = some x ∧ f c = some x := by
    intro hagg c hc hne
    obtain ⟨x, hx⟩ := Option.ne_none_iff_exists'.1 ((statistic_within hagg (hown c hc).1).1 hne)
    exact ⟨x, hx, (hown c hc).2 x hx⟩
  have hfrom : fill = .parent ∨ fill = .const (.num none) → ∀ c ∈ cells, ∀ x, f c = some x → ∃ q, In q ∧ value q = some x := by
    intro hfill c hc x hx
    obtain ⟨anc, h1, h2⟩ := hf c hc
    rw [hx] at h2
    obtain ⟨p, hp, e⟩ := filled_from h2 hfill
    exact ⟨p, h1 p hp, e⟩
  have hfilter : ∀ c, c ∈ cells.filter (fun c => !(presentValues (rows c.bounds)).isEmpty) ↔ c ∈ cells ∧ presentValues (rows c.bounds) ≠ [] := by
    intro c
    rw [List.mem_filter]
    simp
  constructor
  · rintro rfl
    have hv : ∀ c ∈ cells, f c = some (if grid then ((rows c.bounds).length : ℚ) else ((presentValues (rows c.bounds)).length : ℚ)) := by
      intro c hc
      have h := (hown c hc).1
      unfold Statistic at h
      refine (hown c hc).2 _ ?_
      rw [h]
      cases grid <;> simp
    refine ⟨fun c hc => by rw [hv c hc]; simp, ?_⟩
    rw [List.map_congr_left (fun c hc => by rw [hv c hc, Option.getD_some])]
    cases grid with
    | true =>
      simp only [if_true]
      rw [← length_flatMap_cast, hperm.length_eq]
    | false =>
      simp only [Bool.false_eq_true, if_false]
      rw [← length_flatMap_cast, hpres.length_eq]
  · rintro rfl
    rw [← hpres.sum_eq, sum_flatMap]
    congr 1
    apply List.map_congr_left
    intro c hc
    by_cases hne : presentValues (rows c.bounds) = []
    · rw [hne]; simp
    · obtain ⟨x, hx, e⟩ := hpresent (by simp) c hc hne
      rw [e, Option.getD_some]
      exact (((hown c hc).1 x).1 hx).2
  · intro hagg c hc hne
    obtain ⟨x, -, e⟩ := hpresent hagg c hc hne
    rw [e]; simp
  · rintro rfl v
    refine extreme_parts (r := (· ≤ ·)) (fun _ _ _ => le_trans) (fun _ _ => le_antisymm) hmem ?_ ?_ v
    · intro c hc hne
      obtain ⟨x, hx, e⟩ := hpresent (by simp) c hc hne
      exact ⟨(hfilter c).2 ⟨hc, hne⟩, x, e, ((hown c hc).1 x).1 hx⟩
    · intro c hc x hx
      obtain ⟨h1, h2⟩ := (hfilter c).1 hc
      obtain ⟨y, hy, e⟩ := hpresent (by simp) c h1 h2
      rw [e] at hx; cases hx
      exact (hmem x).2 ⟨c, h1, (((hown c h1).1 x).1 hy).1⟩
  · rintro rfl v
    refine extreme_parts (r := fun a b => b ≤ a) (fun _ _ _ h h' => le_trans h' h) (fun _ _ h h' => le_antisymm h' h) hmem
      ?_ ?_ v
    · intro c hc hne
      obtain ⟨x, hx, e⟩ := hpresent (by simp) c hc hne
      exact ⟨(hfilter c).2 ⟨hc, hne⟩, x, e, ((hown c hc).1 x).1 hx⟩
    · intro c hc x hx
      obtain ⟨h1, h2⟩ := (hfilter c).1 hc
      obtain ⟨y, hy, e⟩ := hpresent (by simp) c h1 h2
      rw [e] at hx; cases hx
      exact (hmem x).2 ⟨c, h1, (((hown c h1).1 x).1 hy).1⟩
  · rintro rfl hfill v
    refine extreme_parts (r := (· ≤ ·)) (fun _ _ _ => le_trans) (fun _ _ => le_antisymm) hmem ?_ ?_ v
    · intro c hc hne
      obtain ⟨x, hx, e⟩ := hpresent (by simp) c hc hne
      exact ⟨hc, x, e, ((hown c hc).1 x).1 hx⟩
    · intro c hc x hx
      obtain ⟨q, hq, e⟩ := hfrom hfill c hc x hx
      exact hsub' q hq x ((hstat q hq x).1 e).1
  · rintro rfl hfill v
    refine extreme_parts (r := fun a b => b ≤ a) (fun _ _ _ h h' => le_trans h' h) (fun _ _ h h' => le_antisymm h' h) hmem ?_ ?_ v
    · intro c hc hne
      obtain ⟨x, hx, e⟩ := hpresent (by simp) c hc hne
      exact ⟨hc, x, e, ((hown c hc).1 x).1 hx⟩
    · intro c hc x hx
      obtain ⟨q, hq, e⟩ := hfrom hfill c hc x hx
      exact hsub' q hq x ((hstat q hq x).1 e).1
  · intro hagg hfill c hc x hx
    obtain ⟨q, hq, e⟩ := hfrom hfill c hc x hx
    obtain ⟨u, hu, w, hw, h⟩ := (statistic_within hagg (hstat q hq)).2 x e
    exact ⟨u, hsub' q hq u hu, w, hsub' q hq w hw, h⟩

/-! ## The datapoints of the cells -/

/-- When boxes tile a region, each datapoint of the region is in exactly one of them. -/
theorem tiles_rows {α : Type} {cells : List AggCell} {b : Boundary} (ht : Tiles (cells.map (·.bounds)) b) {l : List α} {long lat : α → ℚ}
    {sel : Boundary → α → Bool} {T : α → Prop} (hb : ∀ a ∈ l, sel b a = true ↔ HCovers b (long a) (lat a) ∧ T a)
    (hc : ∀ c ∈ cells, ∀ a ∈ l, sel c.bounds a = true ↔ HCovers c.bounds (long a) (lat a) ∧ T a) :
    (cells.flatMap (fun c => l.filter (sel c.bounds))).Perm (l.filter (sel b)) := by
  refine perm_flatMap_filter cells l (fun c a => sel c.bounds a) (sel b) ?_
  intro a hal
  by_cases hs : sel b a = true
  · rw [if_pos hs]
    obtain ⟨h1, h2⟩ := (hb a hal).1 hs
    obtain ⟨q, hq, hcov⟩ := (ht.1 _ _).1 h1
    obtain ⟨c, hm, rfl⟩ := List.mem_map.1 hq
    obtain ⟨i, hi⟩ := List.mem_iff_getElem?.1 hm
    refine countP_unique _ _ i fun j => ⟨?_, ?_⟩
    · rintro ⟨x, hj, hx⟩
      have hx' := ((hc x (List.mem_of_getElem? hj) a hal).1 hx).1
      by_contra hne
      have hp := List.pairwise_iff_getElem.1 (List.pairwise_map.1 ht.2)
      obtain ⟨li, ei⟩ := List.getElem?_eq_some_iff.1 hi
      obtain ⟨lj, ej⟩ := List.getElem?_eq_some_iff.1 hj
      rcases lt_or_gt_of_ne hne with h | h
      · have := hp j i lj li h (long a) (lat a)
        rw [ei, ej] at this
        exact this ⟨hx', hcov⟩
      · have := hp i j li lj h (long a) (lat a)
        rw [ei, ej] at this
        exact this ⟨hcov, hx'⟩
    · rintro rfl
      exact ⟨c, hi, (hc c hm a hal).2 ⟨hcov, h2⟩⟩
  · rw [if_neg hs, List.countP_eq_zero]
    intro c hm hx
    obtain ⟨h1, h2⟩ := (hc c hm a hal).1 hx
    exact hs ((hb a hal).2 ⟨(ht.1 _ _).2 ⟨_, List.mem_map_of_mem hm, h1⟩, h2⟩)

theorem during_congr {p q : Boundary} (h : p.time = q.time) (t : ℤ) : during p t = during q t := by
  unfold during
  rw [h]

/-- Which datapoints lie in a box that does not cross the antimeridian. -/
theorem inBox_iff {V : Type} (d : Dataset V) {b q : Boundary} (hv : Valid q) (hc : q.longMin < q.longMax) (ht : q.time = b.time) (r : Row V) :
    (decide (q.latMin < r.lat ∧ r.lat ≤ q.latMax ∧ q.longMin < r.long ∧ r.long ≤ q.longMax) && (!d.hasTime || during q r.time)) = true ↔
      HCovers q r.long r.lat ∧ (-180 < r.long ∧ r.long ≤ 180) ∧ (!d.hasTime || during b r.time) = true := by
  rw [Bool.and_eq_true, decide_eq_true_iff, during_congr ht, ← and_assoc (a := HCovers q r.long r.lat)]
  refine and_congr ?_ Iff.rfl
  obtain ⟨-, c1, c2, c3, c4, -⟩ := hv
  unfold HCovers eastEdge
  rw [if_pos hc]
  constructor
  · rintro ⟨h1, h2, h3, h4⟩
    exact ⟨⟨⟨0, by simpa using h3, by simpa using h4⟩, h1, h2⟩, by linarith, by linarith⟩
  · rintro ⟨⟨⟨n, g1, g2⟩, g3, g4⟩, g5, g6⟩
    have a : (-1 : ℚ) < n := by linarith
    have a2 : (n : ℚ) < 1 := by linarith
    have a' : -1 < n := by exact_mod_cast a
    have a2' : n < 1 := by exact_mod_cast a2
    have : n = 0 := by omega
    subst this
    simp at g1 g2
    exact ⟨g3, g4, g1, g2⟩

/-- Which datapoints with longitudes in the usual domain lie in a box that may cross the antimeridian. -/
theorem aroundBox_iff {V : Type} (d : Dataset V) {b q : Boundary} (hv : Valid q) (ht : q.time = b.time) (r : Row V)
    (hr : -180 < r.long ∧ r.long ≤ 180) :
    (decide (q.latMin < r.lat ∧ r.lat ≤ q.latMax ∧ (q.longMin < r.long ∧ r.long ≤ eastEdge q ∨ q.longMin < r.long + 360 ∧ r.long + 360 ≤ eastEdge q)) &&
      (!d.hasTime || during q r.time)) = true ↔ HCovers q r.long r.lat ∧ (!d.hasTime || during b r.time) = true := by
  rw [Bool.and_eq_true, decide_eq_true_iff, during_congr ht]
  refine and_congr ?_ Iff.rfl
  obtain ⟨-, c1, c2, c3, c4, -⟩ := hv
  have he : eastEdge q ≤ 540 := by unfold eastEdge; split <;> linarith
  unfold HCovers
  constructor
  · rintro ⟨h1, h2, h3 | h3⟩
    · exact ⟨⟨0, by simpa using h3.1, by simpa using h3.2⟩, h1, h2⟩
    · exact ⟨⟨1, by simpa using h3.1, by simpa using h3.2⟩, h1, h2⟩
  · rintro ⟨⟨n, g1, g2⟩, g3, g4⟩
    have a : (-1 : ℚ) < n := by linarith
    have a2 : (n : ℚ) < 2 := by linarith
    have a' : -1 < n := by exact_mod_cast a
    have a2' : n < 2 := by exact_mod_cast a2
    have : n = 0 ∨ n = 1 := by omega
    rcases this with rfl | rfl
    · simp at g1 g2
      exact ⟨g3, g4, Or.inl ⟨g1, g2⟩⟩
    · simp at g1 g2
      exact ⟨g3, g4, Or.inr ⟨g1, g2⟩⟩

/-! ## The aggregation type of a loader -/

/-- What the aggregation types give for the values 1, 2 and 9. -/
def statCode : AggType → ℚ
  | .min => 1 | .max => 9 | .mean => 4 | .median => 2 | .std => 38 / 3 | _ => 3

theorem middle_ex : IsMiddle [1, 2, 9] 2 := by
  refine ⟨2, by simp, 2, by simp, by norm_num [IsMedian, List.filter], by norm_num [IsMedian, List.filter], fun x hx => ?_, by norm_num⟩
  obtain ⟨h1, h2⟩ := hx
  constructor <;> by_contra hc
  · have : ¬ (9 : ℚ) ≤ x := by linarith
    simp only [List.filter_cons, List.filter_nil, hc, this, decide_false, Bool.false_eq_true, if_false] at h1
    split_ifs at h1 <;> simp at h1
  · have : ¬ x ≤ (1 : ℚ) := by linarith
    simp only [List.filter_cons, List.filter_nil, hc, this, decide_false, Bool.false_eq_true, if_false] at h2
    split_ifs at h2 <;> simp at h2

theorem statCode_eq {agg : AggType} (hagg : agg ∈ [AggType.min, .max, .mean, .median, .std, .count]) {r : Option ℚ}
    (h : Statistic true agg [some 1, some 2, some 9] r) : r = some (statCode agg) := by
  have hp : presentValues [some 1, some 2, some 9] = [1, 2, 9] := rfl
  unfold Statistic at h
  rw [hp] at h
  simp only [List.mem_cons, List.not_mem_nil, or_false] at hagg
  rcases hagg with rfl | rfl | rfl | rfl | rfl | rfl <;> simp only at h <;> unfold statCode
  · rw [h]; norm_num [IsMinOf]
  · rw [h]; norm_num [IsMaxOf]
  · rw [h]; exact ⟨by simp, by norm_num⟩
  · rw [h]; exact middle_ex
  · obtain ⟨h1, h2⟩ := h
    obtain ⟨v, rfl⟩ := Option.ne_none_iff_exists'.1 (mt h1.1 (by simp))
    obtain ⟨-, a, ha, hv⟩ := h2 v rfl
    have : a = 4 := by norm_num at ha; linarith
    subst this
    norm_num at hv
    rw [← hv]; congr 1; ring
  · rw [h]; rfl

/-- Different aggregation types make different loaders. -/
theorem scalarLoader_agg {id id' : ℕ} {name name' : String} {agg agg' : AggType} {m m' : ℕ} (h : scalarLoader id name agg m = scalarLoader id' name' agg' m')
    (hagg : agg ∈ [AggType.min, .max, .mean, .median, .std, .count]) (hagg' : agg' ∈ [AggType.min, .max, .mean, .median, .std, .count]) :
    name = name' ∧ agg = agg' := by
  have hname : name = name' := congrArg Loader.dataName h
  subst hname
  refine ⟨rfl, ?_⟩
  set D : Dataset (Option ℚ) := .grid ⟨[1], [1, 2, 9], none, fun _ x _ => some x⟩ with hD
  have hs : D.Sorted := by rw [hD]; unfold Dataset.Sorted; constructor <;> decide +kernel
  have hq : ProperBox ⟨0, 10, 0, 10, []⟩ := by refine ⟨by norm_num [Valid], by norm_num, by norm_num⟩
  obtain ⟨d', e'⟩ : ∃ d', D.trim ⟨0, 10, 0, 10, []⟩ = .ok d' := ⟨_, trim_eq hs (by intro h; cases h)⟩
  have key : ∀ (agg : AggType) (id m : ℕ), agg ∈ [AggType.min, .max, .mean, .median, .std, .count] →
      (scalarLoader id name agg m).getValue ⟨0, 10, 0, 10, []⟩ d' = .ok [(name, .num (some (statCode agg)))] := by
    intro agg id m hagg
    obtain ⟨d'', v, e1, e2, e3⟩ := scalar_statistic hagg hs e' hq (by norm_num) rfl
    rw [e'] at e1; cases e1
    have hr : (rowsIn D ⟨0, 10, 0, 10, []⟩).map Row.val = [some 1, some 2, some 9] := by rw [hD]; decide +kernel
    rw [hr] at e3
    rw [← statCode_eq hagg e3]
    show (scalarValue agg _ d' >>= fun v => pure [(name, Val.num v)]) = _
    rw [e2]; rfl
  have e := key agg id m hagg
  rw [h, key agg' id' m' hagg'] at e
  have : statCode agg' = statCode agg := by simpa using e
  simp only [List.mem_cons, List.not_mem_nil, or_false] at hagg hagg'
  rcases hagg with rfl | rfl | rfl | rfl | rfl | rfl <;> rcases hagg' with rfl | rfl | rfl | rfl | rfl | rfl <;> first
    | rfl
    | (exfalso; norm_num [statCode] at this)

theorem statistic_known {grid : Bool} {agg : AggType} {vals : List (Option ℚ)} {r : Option ℚ} (h : Statistic grid agg vals r) :
    agg ∈ [AggType.min, .max, .mean, .median, .std, .count] := by
  cases agg <;> first | exact h.elim | simp

theorem gives_scalar {q : Boundary} {s : Source (Dataset (Option ℚ)) Cond} {f : String → Option ℚ}
    (h : Gives q (.ofScalar s) f) {id name agg minDp} (e : s.loader = scalarLoader id name agg minDp)
    (hagg : agg ∈ [AggType.min, .max, .mean, .median, .std, .count]) :
    Statistic s.subset.isGrid agg ((rowsIn s.subset q).map Row.val) (f name) := by
  generalize hS : Source.ofScalar s = S at h
  cases h with
  | scalar e' hst =>
    have := ofScalar_inj hS
    subst this
    rw [e] at e'
    obtain ⟨rfl, rfl⟩ := scalarLoader_agg e' hagg (statistic_known hst)
    exact hst
  | vector => exact absurd (congrArg Source.subset hS) (by intro h; cases h)
  | lut => exact absurd (congrArg Source.subset hS) (by intro h; cases h)

theorem gives_around_scalar {q : Boundary} {s : Source (Dataset (Option ℚ)) Cond} {f : String → Option ℚ}
    (h : GivesAround q (.ofScalar s) f) {id name agg minDp} (e : s.loader = scalarLoader id name agg minDp)
    (hagg : agg ∈ [AggType.min, .max, .mean, .median, .std, .count]) :
    Statistic true agg ((rowsAround s.subset q).map Row.val) (f name) := by
  generalize hS : Source.ofScalar s = S at h
  cases h with
  | scalar e' hst =>
    have := ofScalar_inj hS
    subst this
    rw [e] at e'
    obtain ⟨rfl, rfl⟩ := scalarLoader_agg e' hagg (statistic_known hst)
    exact hst
  | vector => exact absurd (congrArg Source.subset hS) (by intro h; cases h)

/-- If only one source has the name, its value is the one in the mesh. -/
theorem merged_only {full : List (Source AnyData AnyCond)} (hid : (full.map (fun s => s.loader.id)).Nodup) {S : Source AnyData AnyCond} (hS : S ∈ full)
    {n : String} (hn : n ∈ splitName S.loader.dataName) (hu : ∀ t ∈ full, n ∈ splitName t.loader.dataName → t = S) (hc : ',' ∉ S.loader.dataName.toList)
    {w : Source AnyData AnyCond → Option ℚ} {v : Option ℚ} (h : Merged (fun s : Source AnyData AnyCond => ',' ∈ s.loader.dataName.toList) w
      (full.filter (fun s => decide (n ∈ splitName s.loader.dataName))) v) : v = w S := by
  have hl : full.filter (fun s => decide (n ∈ splitName s.loader.dataName)) = [S] := by
    have hnd : full.Nodup := hid.of_map _
    have h1 : (full.filter (fun s => decide (n ∈ splitName s.loader.dataName))).Nodup := hnd.filter _
    have h2 : ∀ t, t ∈ full.filter (fun s => decide (n ∈ splitName s.loader.dataName)) ↔ t = S := by
      intro t
      rw [List.mem_filter, decide_eq_true_iff]
      exact ⟨fun h => hu t h.1 h.2, by rintro rfl; exact ⟨hS, hn⟩⟩
    exact List.perm_singleton.1 ((List.perm_ext_iff_of_nodup h1 (List.nodup_singleton S)).2 (fun t => by rw [h2, List.mem_singleton]))
  rw [hl] at h
  rcases h with ⟨-, h⟩ | ⟨pre, s, post, e, h1, -, -⟩
  · rw [h.eq]
    show ([w S].filterMap id).head? = _
    cases w S <;> rfl
  · have : s ∈ [S] := by rw [e]; simp
    rw [List.mem_singleton] at this
    subst this
    exact absurd h1 hc

theorem Spec.GridAround.longs {V : Type} {b : Boundary} {d : Dataset V} (h : GridAround b d) : ∀ r ∈ d.rows, -180 < r.long ∧ r.long ≤ 180 := by
  obtain ⟨⟨g, rfl, hg⟩, -⟩ := h
  intro r hr
  simp only [Dataset.rows, Grid.rows, List.mem_flatMap] at hr
  obtain ⟨y, -, x, hx, hr⟩ := hr
  have : r.long = x := by
    cases ht : g.times with
    | none => rw [ht, List.mem_singleton] at hr; rw [hr]
    | some ts => rw [ht, List.mem_map] at hr; obtain ⟨t, -, rfl⟩ := hr; rfl
  rw [this]
  exact hg x hx

/-! ## C133 -/

/-- **C133**: in a region that does not cross the antimeridian, let a mesh be built from scalar, vector and look-up table sources, and let
one of the scalar sources have a name of its own.  Then the values of that name over the cells of the mesh are altogether what the datapoints of the region say. -/
theorem C133_totals {b : Boundary} {W H : ℚ} {full : List (Source AnyData AnyCond)} (hf : ∀ s ∈ full, PlainAny b s)
    (hid : (full.map (fun s => s.loader.id)).Nodup)
    (config : MeshConfig) (hp : ProperGrid b W H) (hcr : b.longMin < b.longMax) (hh : b.latMin < b.latMax)
    (hcol : b.longMin = -180 ∧ b.longMax = 180 → W ≤ 180) (hacc : MeshBuilder.validateBounds b W H = .ok ()) (depth : ℕ) :
    ∃ m0, MeshBuilder.init b W H (fun q => trimSources q full) depth = .ok m0 ∧ ∃ N em, BuiltOK b W H depth em ∧
      (∀ fuel, N ≤ fuel → MeshBuilder.buildEnvironmentalMesh (sourceOps AnyData AnyCond) aggregate fuel config m0 = .ok em) ∧
      ∀ s id name agg minDp, Source.ofScalar s ∈ full → s.loader = scalarLoader id name agg minDp →
        agg ∈ [AggType.min, .max, .mean, .median, .std, .count] → (∀ t ∈ full, name ∈ splitName t.loader.dataName → t = .ofScalar s) →
        ∃ f : AggCell → Option ℚ, (∀ c ∈ em.cells, c.data.get? name = some (.num (f c))) ∧
          SaysAltogether s.subset.isGrid agg s.fill ((rowsIn s.subset b).map Row.val) em.cells
            (fun c => (rowsIn s.subset c.bounds).map Row.val) f := by
  obtain ⟨value, hvalue, m0, h0, N, em, h1, -, h2, h3⟩ := C110_values hf hid config hp hcr hh hcol hacc depth
  refine ⟨m0, h0, N, em, h1, h2, fun s id name agg minDp hs e hagg hu => ?_⟩
  have hplain := (hf _ hs).ofScalar
  have hname : (Source.ofScalar s).loader.dataName = name := by
    show s.loader.dataName = name
    rw [e]; rfl
  have hcomma : ',' ∉ name.toList := by
    obtain ⟨_, name', _, _, e', hn, -⟩ := hplain.loader
    have : name = name' := by rw [e] at e'; exact congrArg Loader.dataName e'
    rwa [this]
  have hmem : name ∈ splitName (Source.ofScalar s).loader.dataName := by rw [hname, splitName_single hcomma]; simp
  have hcell : ∀ c ∈ em.cells, ∃ anc, (∀ q ∈ c.bounds :: anc, Inner b q) ∧ ∃ v, Filled (fun q => value (.ofScalar s) q name) s.fill c.bounds anc v ∧
      c.data.get? name = some (.num v) := by
    intro c hc
    obtain ⟨anc, a1, -, w, a2, a3⟩ := h3 c hc
    obtain ⟨v, hv, hm⟩ := (a3 name).2 ⟨_, hs, hmem⟩
    refine ⟨anc, a1, v, ?_, hv⟩
    have := merged_only hid hs hmem hu (by rw [hname]; exact hcomma) hm
    rw [this]
    exact a2 _ hs name hmem
  have hget : ∀ c ∈ em.cells, c.data.get? name = some (.num (match c.data.get? name with | some (.num v) => v | _ => none)) := by
    intro c hc
    obtain ⟨anc, -, v, -, hv⟩ := hcell c hc
    rw [hv]
  refine ⟨fun c => match c.data.get? name with | some (.num v) => v | _ => none, hget, ?_⟩
  have hsel : ∀ q, Valid q → q.longMin < q.longMax → q.time = b.time → ∀ r, _ := fun q a1 a2 a3 r => inBox_iff s.subset a1 a2 a3 r
  refine says_altogether (rows := fun q => (rowsIn s.subset q).map Row.val) (In := Inner b) (value := fun q => value (.ofScalar s) q name) ?_ ?_ ?_ ?_
  · intro q hq
    exact gives_scalar (hvalue _ hs q hq) e hagg
  · intro q hq v hv
    obtain ⟨r, hr, rfl⟩ := List.mem_map.1 hv
    obtain ⟨m1, m2⟩ := List.mem_filter.1 hr
    refine List.mem_map_of_mem (List.mem_filter.2 ⟨m1, ?_⟩)
    obtain ⟨k1, k2⟩ := (hsel q hq.1.1 hq.2.1 hq.2.2.2 r).1 m2
    exact (hsel b hp.valid hcr rfl r).2 ⟨hq.2.2.1 _ _ k1, k2⟩
  · rw [← List.map_flatMap]
    refine List.Perm.map _ ?_
    refine tiles_rows h1.tiles (long := Row.long) (lat := Row.lat)
      (T := fun r => (-180 < r.long ∧ r.long ≤ 180) ∧ (!s.subset.hasTime || during b r.time) = true)
      (sel := fun q r => decide (q.latMin < r.lat ∧ r.lat ≤ q.latMax ∧ q.longMin < r.long ∧ r.long ≤ q.longMax) &&
        (!s.subset.hasTime || during q r.time)) (fun r _ => hsel b hp.valid hcr rfl r) ?_
    intro c hc r hr
    obtain ⟨anc, a1, -⟩ := hcell c hc
    have := a1 _ List.mem_cons_self
    exact hsel c.bounds this.1.1 this.2.1 this.2.2.2 r
  · intro c hc
    obtain ⟨anc, a1, v, a2, a3⟩ := hcell c hc
    refine ⟨anc, a1, ?_⟩
    rw [a3]
    exact a2

/-- **C133**, over the antimeridian: the same for gridded data.  (Datapoints are counted in the half-open boxes on the circle.) -/
theorem C133_around {b : Boundary} {W H : ℚ} {full : List (Source AnyData AnyCond)} (hf : ∀ s ∈ full, AroundAny b s)
    (hid : (full.map (fun s => s.loader.id)).Nodup)
    (config : MeshConfig) (hp : ProperGrid b W H) (hcr : b.longMax ≤ b.longMin) (hh : b.latMin < b.latMax)
    (hcol : b.width = 360 → W ≤ 180) (hacc : MeshBuilder.validateBounds b W H = .ok ()) (depth : ℕ) :
    ∃ m0, MeshBuilder.init b W H (fun q => trimSources q full) depth = .ok m0 ∧ ∃ N em, EnvTiles em b ∧
      (∀ fuel, N ≤ fuel → MeshBuilder.buildEnvironmentalMesh (sourceOps AnyData AnyCond) aggregate fuel config m0 = .ok em) ∧
      ∀ s id name agg minDp, Source.ofScalar s ∈ full → s.loader = scalarLoader id name agg minDp →
        agg ∈ [AggType.min, .max, .mean, .median, .std, .count] → (∀ t ∈ full, name ∈ splitName t.loader.dataName → t = .ofScalar s) →
        ∃ f : AggCell → Option ℚ, (∀ c ∈ em.cells, c.data.get? name = some (.num (f c))) ∧
          SaysAltogether true agg s.fill ((rowsAround s.subset b).map Row.val) em.cells
            (fun c => (rowsAround s.subset c.bounds).map Row.val) f := by
  obtain ⟨value, hvalue, m0, h0, N, em, h1, -, h2, h3⟩ := C113_values hf hid config hp hcr hh hcol hacc depth
  refine ⟨m0, h0, N, em, h1, h2, fun s id name agg minDp hs e hagg hu => ?_⟩
  have hgrid := (hf _ hs).scalarComma.2
  have hname : (Source.ofScalar s).loader.dataName = name := by
    show s.loader.dataName = name
    rw [e]; rfl
  have hcomma : ',' ∉ name.toList := by
    obtain ⟨⟨_, name', _, _, e', hn⟩, -⟩ := (hf _ hs).scalarComma
    have : name = name' := by rw [e] at e'; exact congrArg Loader.dataName e'
    rwa [this]
  have hmem : name ∈ splitName (Source.ofScalar s).loader.dataName := by rw [hname, splitName_single hcomma]; simp
  have hcell : ∀ c ∈ em.cells, ∃ anc, (∀ q ∈ c.bounds :: anc, Around b q) ∧ ∃ v, Filled (fun q => value (.ofScalar s) q name) s.fill c.bounds anc v ∧
      c.data.get? name = some (.num v) := by
    intro c hc
    obtain ⟨anc, a1, -, w, a2, a3⟩ := h3 c hc
    obtain ⟨v, hv, hm⟩ := (a3 name).2 ⟨_, hs, hmem⟩
    refine ⟨anc, a1, v, ?_, hv⟩
    have := merged_only hid hs hmem hu (by rw [hname]; exact hcomma) hm
    rw [this]
    exact a2 _ hs name hmem
  have hget : ∀ c ∈ em.cells, c.data.get? name = some (.num (match c.data.get? name with | some (.num v) => v | _ => none)) := by
    intro c hc
    obtain ⟨anc, -, v, -, hv⟩ := hcell c hc
    rw [hv]
  refine ⟨fun c => match c.data.get? name with | some (.num v) => v | _ => none, hget, ?_⟩
  have hdom := hgrid.longs
  have hsel : ∀ q, Valid q → q.time = b.time → ∀ r ∈ s.subset.rows, _ := fun q a1 a3 r hr => aroundBox_iff s.subset a1 a3 r (hdom r hr)
  refine says_altogether (rows := fun q => (rowsAround s.subset q).map Row.val) (In := Around b) (value := fun q => value (.ofScalar s) q name) ?_ ?_ ?_ ?_
  · intro q hq
    exact gives_around_scalar (hvalue _ hs q hq) e hagg
  · intro q hq v hv
    obtain ⟨r, hr, rfl⟩ := List.mem_map.1 hv
    obtain ⟨m1, m2⟩ := List.mem_filter.1 hr
    refine List.mem_map_of_mem (List.mem_filter.2 ⟨m1, ?_⟩)
    obtain ⟨k1, k2⟩ := (hsel q hq.1.1 hq.2.2.2 r m1).1 m2
    exact (hsel b hp.valid rfl r m1).2 ⟨hq.2.2.1 _ _ k1, k2⟩
  · rw [← List.map_flatMap]
    refine List.Perm.map _ ?_
    refine tiles_rows h1 (long := Row.long) (lat := Row.lat)
      (T := fun r => (!s.subset.hasTime || during b r.time) = true)
      (sel := fun q r => decide (q.latMin < r.lat ∧ r.lat ≤ q.latMax ∧
        (q.longMin < r.long ∧ r.long ≤ eastEdge q ∨ q.longMin < r.long + 360 ∧ r.long + 360 ≤ eastEdge q)) &&
        (!s.subset.hasTime || during q r.time)) (fun r hr => hsel b hp.valid rfl r hr) ?_
    intro c hc r hr
    obtain ⟨anc, a1, -⟩ := hcell c hc
    have := a1 _ List.mem_cons_self
    exact hsel c.bounds this.1.1 this.2.2.2 r hr
  · intro c hc
    obtain ⟨anc, a1, v, a2, a3⟩ := hcell c hc
    refine ⟨anc, a1, ?_⟩
    rw [a3]
    exact a2

/-! ## Examples -/

/-- Datapoints, one of them without a value and one outside of the region. -/
def exTotalsData : Dataset (Option ℚ) :=
  .table ⟨false, [⟨-59, 1, 0, some 5⟩, ⟨-58, 1, 0, some 1⟩, ⟨-51, 12, 0, some 7⟩, ⟨-51, 13, 0, none⟩, ⟨-40, 13, 0, some 100⟩]⟩

/-- The number, the mean and the greatest of the values. -/
def exTotals : List (Source AnyData AnyCond) :=
  [.ofScalar ⟨scalarLoader 0 "n" .count 1, [], .parent, exTotalsData⟩,
   .ofScalar ⟨scalarLoader 1 "a" .mean 1, [⟨3, 0, 1, false⟩], .parent, exTotalsData⟩,
   .ofScalar ⟨scalarLoader 2 "g" .max 1, [], .parent, exTotalsData⟩]

theorem exTotals_plain : ∀ s ∈ exTotals, PlainAny exRegion s := by
  intro s hs
  simp only [exTotals, List.mem_cons, List.not_mem_nil, or_false] at hs
  rcases hs with rfl | rfl | rfl <;> exact .scalar ⟨⟨_, _, _, _, rfl, by decide, by simp⟩, Or.inl rfl, trivial, _, rfl⟩

/-- The hypotheses of C133 hold: three values are counted, the means stand for a sum of 13, and the greatest value is 7. -/
example : ∃ m0, MeshBuilder.init exRegion 10 5 (fun q => trimSources q exTotals) 1 = .ok m0 ∧ ∃ N em,
    (∀ fuel, N ≤ fuel → MeshBuilder.buildEnvironmentalMesh (sourceOps AnyData AnyCond) aggregate fuel exConfig m0 = .ok em) ∧
    (∃ f : AggCell → Option ℚ, (∀ c ∈ em.cells, c.data.get? "n" = some (.num (f c))) ∧ (em.cells.map (fun c => (f c).getD 0)).sum = 3) ∧
    (∃ f : AggCell → Option ℚ, (∀ c ∈ em.cells, c.data.get? "a" = some (.num (f c))) ∧
      (em.cells.map (fun c => (f c).getD 0 * ((presentValues ((rowsIn exTotalsData c.bounds).map Row.val)).length : ℚ))).sum = 13) ∧
    ∃ f : AggCell → Option ℚ, (∀ c ∈ em.cells, c.data.get? "g" = some (.num (f c))) ∧ IsMaxOf (em.cells.filterMap f) 7 := by
  obtain ⟨m0, h0, N, em, -, h1, h2⟩ := C133_totals (W := 10) (H := 5) exTotals_plain (by decide) exConfig exRegion_proper (by norm_num [exRegion])
    (by norm_num [exRegion]) (by norm_num [exRegion]) (by decide +kernel) 1
  have hv : presentValues ((rowsIn exTotalsData exRegion).map Row.val) = [5, 1, 7] := by decide +kernel
  refine ⟨m0, h0, N, em, h1, ?_, ?_, ?_⟩
  · obtain ⟨f, e, h⟩ := h2 ⟨scalarLoader 0 "n" .count 1, [], .parent, exTotalsData⟩ 0 "n" .count 1 (by simp [exTotals]) rfl (by simp) (by
      intro t ht hn
      simp only [exTotals, List.mem_cons, List.not_mem_nil, or_false] at ht
      rcases ht with rfl | rfl | rfl <;> first | rfl | exact absurd hn (by decide +kernel))
    refine ⟨f, e, ?_⟩
    rw [(h.count rfl).2, hv]
    rfl
  · obtain ⟨f, e, h⟩ := h2 ⟨scalarLoader 1 "a" .mean 1, [⟨3, 0, 1, false⟩], .parent, exTotalsData⟩ 1 "a" .mean 1 (by simp [exTotals]) rfl (by simp) (by
      intro t ht hn
      simp only [exTotals, List.mem_cons, List.not_mem_nil, or_false] at ht
      rcases ht with rfl | rfl | rfl <;> first | rfl | exact absurd hn (by decide +kernel))
    refine ⟨f, e, ?_⟩
    rw [h.mean rfl, hv]
    norm_num
  · obtain ⟨f, e, h⟩ := h2 ⟨scalarLoader 2 "g" .max 1, [], .parent, exTotalsData⟩ 2 "g" .max 1 (by simp [exTotals]) rfl (by simp) (by
      intro t ht hn
      simp only [exTotals, List.mem_cons, List.not_mem_nil, or_false] at ht
      rcases ht with rfl | rfl | rfl <;> first | rfl | exact absurd hn (by decide +kernel))
    refine ⟨f, e, (h.greatestFilled rfl (Or.inl rfl) 7).1 ?_⟩
    rw [hv]
    norm_num [IsMaxOf]

/-- The hypotheses of C133 hold over the antimeridian. -/
example : ∃ m0, MeshBuilder.init exAroundRegion 10 10 (fun q => trimSources q exAround) 1 = .ok m0 ∧ ∃ N em,
    (∀ fuel, N ≤ fuel → MeshBuilder.buildEnvironmentalMesh (sourceOps AnyData AnyCond) aggregate fuel exConfig m0 = .ok em) ∧
    ∃ f : AggCell → Option ℚ, (∀ c ∈ em.cells, c.data.get? "a" = some (.num (f c))) ∧
      (em.cells.map (fun c => (f c).getD 0 * ((presentValues ((rowsAround (.grid exGrid) c.bounds).map Row.val)).length : ℚ))).sum = -405 := by
  have hw : exAroundRegion.width ≠ 360 := by decide +kernel
  obtain ⟨m0, h0, N, em, -, h1, h2⟩ := C133_around (W := 10) (H := 10) exAround_all.1 exAround_all.2.1 exConfig exAroundRegion_proper
    (by norm_num [exAroundRegion]) (by norm_num [exAroundRegion]) (fun h => absurd h hw) (by decide +kernel) 1
  have hv : (presentValues ((rowsAround (.grid exGrid) exAroundRegion).map Row.val)).sum = -405 := by decide +kernel
  obtain ⟨f, e, h⟩ := h2 ⟨scalarLoader 0 "a" .mean 1, [⟨0, 0, 1, false⟩], .parent, .grid exGrid⟩ 0 "a" .mean 1 (by simp [exAround]) rfl (by simp) (by
      intro t ht hn
      simp only [exAround, List.mem_cons, List.not_mem_nil, or_false] at ht
      rcases ht with rfl | rfl <;> first | rfl | exact absurd hn (by decide +kernel))
  exact ⟨m0, h0, N, em, h1, f, e, by rw [h.mean rfl, hv]⟩

/-- Not so with constants: a cell without data that is filled with 100 has the greatest value of all. -/
theorem C133_constant_false : (do
    let m ← MeshBuilder.init exRegion 10 5 (fun q => trimSources q [.ofScalar ⟨scalarLoader 2 "g" .max 1, [], .const (.num (some 100)), exTotalsData⟩]) 1
    let em ← MeshBuilder.buildEnvironmentalMesh (sourceOps AnyData AnyCond) aggregate 10 exConfig m
    return em.cells.map (fun c => c.data.get? "g") : Py (List (Option Val))) =
    .ok [some (.num (some 5)), some (.num (some 100)), some (.num (some 100)), some (.num (some 7))] ∧
    IsMaxOf (presentValues ((rowsIn exTotalsData exRegion).map Row.val)) 7 := by
  have hv : presentValues ((rowsIn exTotalsData exRegion).map Row.val) = [5, 1, 7] := by decide +kernel
  refine ⟨by decide +kernel, ?_⟩
  rw [hv]
  norm_num [IsMaxOf]

end Verif
