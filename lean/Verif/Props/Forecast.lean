import Verif.Model.Forecast
import Mathlib.Tactic.Linarith
import Mathlib.Tactic.NormNum

/-!
# C49: choice of forecasts
-/

namespace Verif
open Verif.Forecast

theorem pyMax_ok {α : Type} [LinearOrder α] (l : List α) (m : α) (h : pyMax l = .ok m) : m ∈ l ∧ ∀ x ∈ l, x ≤ m := by
  rcases l with _ | ⟨a, l⟩
  · exact absurd h (by simp [pyMax])
  · have hm : l.foldl max a = m := by injection h
    subst hm
    clear h
    induction l generalizing a with
    | nil => simp
    | cons b l ih =>
      obtain ⟨h1, h2⟩ := ih (max a b)
      simp only [List.foldl_cons]
      have h3 := h2 _ (List.mem_cons_self ..)
      refine ⟨?_, fun x hx => ?_⟩
      · rcases List.mem_cons.1 h1 with h1 | h1
        · rcases max_choice a b with h | h <;> rw [h1, h] <;> simp
        · simp [h1]
      · rcases List.mem_cons.1 hx with rfl | hx
        · exact (le_max_left _ _).trans h3
        · rcases List.mem_cons.1 hx with rfl | hx
          · exact (le_max_right _ _).trans h3
          · exact h2 x (List.mem_cons_of_mem _ hx)

theorem foldl_set_get? (l : List (ℤ × Dataset)) (d : Dict ℤ Dataset) (k : ℤ) :
    (∀ c, (l.foldl (fun d f => d.set f.1 f.2) d).get? k = some c → (k, c) ∈ l ∨ d.get? k = some c) ∧
    ((∃ c, (k, c) ∈ l) ∨ d.get? k ≠ none → (l.foldl (fun d f => d.set f.1 f.2) d).get? k ≠ none) := by
  induction l generalizing d with
  | nil => simp
  | cons p l ih =>
    obtain ⟨i1, i2⟩ := ih (d.set p.1 p.2)
    simp only [List.foldl_cons]
    refine ⟨fun c hc => ?_, fun h => i2 ?_⟩
    · rcases i1 c hc with h | h
      · exact .inl (List.mem_cons_of_mem _ h)
      · rw [Dict.get?_set] at h
        split at h
        · rename_i hk
          obtain rfl := Option.some.inj h
          exact .inl (by rw [← hk]; simp)
        · exact .inr h
    · by_cases hk : p.1 = k
      · exact .inr (by rw [Dict.get?_set, if_pos hk]; simp)
      · rcases h with ⟨c, h⟩ | h
        · rcases List.mem_cons.1 h with h | h
          · exact absurd (by rw [← h]) hk
          · exact .inl ⟨c, h⟩
        · exact .inr (by rw [Dict.get?_set, if_neg hk]; exact h)

theorem findIssue_ok (times : List ℤ) (start : ℤ) (n s k : ℕ) (h : findIssue times start ((List.range' s n)) = .ok k) :
    s ≤ k ∧ start - k ∈ times ∧ ∀ j : ℕ, s ≤ j → j < k → start - j ∉ times := by
  induction n generalizing s with
  | zero => exact absurd h (by simp [findIssue])
  | succ n ih =>
    rw [List.range'_succ] at h
    simp only [findIssue] at h
    split at h
    · rename_i hs
      have hk : s = k := by injection h
      subst hk
      exact ⟨le_rfl, hs, fun j h1 h2 => by omega⟩
    · rename_i hs
      obtain ⟨h1, h2, h3⟩ := ih (s + 1) h
      refine ⟨by omega, h2, fun j hj1 hj2 => ?_⟩
      rcases eq_or_lt_of_le hj1 with rfl | hj1
      · exact hs
      · exact h3 j hj1 hj2

/-- Of the files dated before the start, `f` is of the latest date. -/
def Spec.LatestFile (files : List (ℤ × Dataset)) (start : ℤ) (f : ℤ × Dataset) : Prop :=
  f ∈ files ∧ f.1 < start ∧ ∀ g ∈ files, g.1 < start → g.1 ≤ f.1

/-- Of the days on which forecasts were issued, `t` is the latest before the start. -/
def Spec.LatestIssue (times : List ℤ) (start t : ℤ) : Prop :=
  t ∈ times ∧ t < start ∧ ∀ u ∈ times, u < start → u ≤ t

/-- **C49, IceNet** (partial: the last day is missing.) When a forecast is used, it is the latest one issued
before the start that is in the latest file dated before the start, and it is used for each day from the
start up to, but without, the end of the time range. -/
theorem C49_icenet_partial (files : List (ℤ × Dataset)) (start stop t : ℤ) (days : List ℤ) (h : iceNet files start stop = .ok (t, days)) :
    (∃ f, Spec.LatestFile files start f ∧ Spec.LatestIssue f.2.times start t) ∧
      ∀ d, d ∈ days ↔ start ≤ d ∧ d < stop := by
  unfold iceNet at h
  simp only [bind, Except.bind, pure, Except.pure, throw, throwThe, MonadExceptOf.throw] at h
  set D : Dict ℤ Dataset := (files.filter (fun f => f.1 < start)).foldl (fun d f => d.set f.1 f.2) [] with hD
  rcases hc : pyMax D.keys with e | closest
  · simp only [hc] at h; exact absurd h (by simp)
  simp only [hc] at h
  rcases hg : D.get closest with e | ds
  · simp only [hg] at h; exact absurd h (by simp)
  simp only [hg] at h
  rcases hl : pyMax ds.leads with e | L
  · simp only [hl] at h; exact absurd h (by simp)
  simp only [hl] at h
  split at h
  · exact absurd h (by simp)
  rename_i ha1
  split at h
  · exact absurd h (by simp)
  rename_i ha2
  rcases hk : findIssue ds.times start ((List.range L).map (· + 1)) with e | k
  · simp only [hk] at h; exact absurd h (by simp)
  simp only [hk] at h
  split at h
  · exact absurd h (by simp)
  rename_i ha3
  split at h
  · exact absurd h (by simp)
  injection h with h
  injection h with ht hdays
  subst ht hdays
  have hr : (List.range L).map (· + 1) = List.range' 1 L := by
    simp only [List.range_eq_range', Nat.add_comm _ 1, List.map_add_range', Nat.add_zero]
  rw [hr] at hk
  obtain ⟨k1, k2, k3⟩ := findIssue_ok _ _ _ _ _ hk
  obtain ⟨c1, c2⟩ := pyMax_ok _ _ hc
  have hget : D.get? closest = some ds := by
    unfold Dict.get at hg
    split at hg
    · rename_i v hv
      injection hg with hg
      rw [hv, hg]
    · exact absurd hg (by simp)
  have hmem : (closest, ds) ∈ files ∧ closest < start := by
    rcases (foldl_set_get? _ [] closest).1 ds (hD ▸ hget) with h | h
    · simpa using h
    · simp at h
  refine ⟨⟨(closest, ds), ⟨hmem.1, hmem.2, fun g hg hgs => ?_⟩, k2, by omega, fun u hu hus => ?_⟩, fun d => ?_⟩
  · refine c2 _ ((Dict.mem_keys_iff _ _).2 ?_)
    rw [hD]
    have := (foldl_set_get? (files.filter (fun f => f.1 < start)) [] g.1).2 (.inl ⟨g.2, by simpa using ⟨hg, hgs⟩⟩)
    first
      | exact this
      | exact Option.ne_none_iff_exists'.1 this
      | exact Option.isSome_iff_ne_none.2 this
  · by_contra hlt
    push Not at hlt
    have := k3 (start - u).toNat (by omega) (by omega)
    rw [Int.toNat_of_nonneg (by omega)] at this
    exact this (by simpa using hu)
  · simp only [List.mem_filter, List.mem_map, List.mem_range, decide_eq_true_eq]
    constructor
    · rintro ⟨⟨j, ⟨i, hi, rfl⟩, rfl⟩, h1, h2⟩
      push_cast at *
      omega
    · rintro ⟨h1, h2⟩
      refine ⟨⟨(d - start).toNat + k, ⟨(d - start).toNat, by omega, rfl⟩, ?_⟩, h1, by omega⟩
      push_cast
      omega

/-- A forecast of ten days issued on day 4, for days 6 to 8. -/
example : iceNet [(2, ⟨[2], List.range' 1 10⟩), (4, ⟨[2, 4], List.range' 1 10⟩), (7, ⟨[7], List.range' 1 10⟩)] 6 8 =
    (.ok (4, [6, 7]) : Py (ℤ × List ℤ)) := by decide +kernel

/-- **C49** The claim is false for IceNet: whatever the files, the last day of the range never has data, and
it is not reported; for a single day there is no data at all.  (That the function does return is shown by
the example.) -/
theorem C49_icenet_false : (∀ files start stop t days, start ≤ stop → iceNet files start stop = .ok (t, days) →
      (stop ∉ days ∧ (start = stop → days = []))) ∧
    iceNet [(4, ⟨[4], List.range' 1 10⟩)] 6 6 = (.ok (4, []) : Py (ℤ × List ℤ)) := by
  refine ⟨fun files start stop t days hle h => ?_, by decide +kernel⟩
  obtain ⟨-, h2⟩ := C49_icenet_partial files start stop t days h
  refine ⟨fun hm => absurd ((h2 stop).1 hm).2 (lt_irrefl _), ?_⟩
  rintro rfl
  refine List.eq_nil_iff_forall_not_mem.2 fun d hd => ?_
  have := (h2 d).1 hd
  omega

/-! ## ECMWF -/

theorem closestBase_ok (base : String → ℤ) (start : ℤ) (l : List String) (c : ℤ) (h : closestBase base start l = .ok c) :
    ∃ pre f post, l = pre ++ f :: post ∧ base f = c ∧ c < start ∧ ∀ g ∈ pre, ¬ base g < start := by
  induction l with
  | nil => exact absurd h (by simp [closestBase])
  | cons a l ih =>
    simp only [closestBase] at h
    split at h
    · rename_i ha
      have hc : base a = c := by injection h
      exact ⟨[], a, l, rfl, hc, hc ▸ ha, by simp⟩
    · rename_i ha
      obtain ⟨pre, f, post, h1, h2, h3, h4⟩ := ih h
      exact ⟨a :: pre, f, post, by rw [h1]; rfl, h2, h3, by
        intro g hg
        rcases List.mem_cons.1 hg with rfl | hg
        · exact ha
        · exact h4 g hg⟩

theorem closestBase_error (base : String → ℤ) (start : ℤ) (l : List String) :
    (∃ c, closestBase base start l = .ok c) ∨ (closestBase base start l = .error .fileNotFound ∧ ∀ f ∈ l, ¬ base f < start) := by
  induction l with
  | nil => exact .inr ⟨rfl, by simp⟩
  | cons a l ih =>
    simp only [closestBase]
    split
    · exact .inl ⟨_, rfl⟩
    · rename_i ha
      rcases ih with h | ⟨h1, h2⟩
      · exact .inl h
      · refine .inr ⟨h1, fun g hg => ?_⟩
        rcases List.mem_cons.1 hg with rfl | hg
        · exact ha
        · exact h2 g hg

/-- Of the dates at which the given files were issued, `c` is the latest before the start. -/
def Spec.LatestBase (base : String → ℤ) (files : List String) (start c : ℤ) : Prop :=
  (∃ f ∈ files, base f = c) ∧ c < start ∧ ∀ f ∈ files, base f < start → base f ≤ c

/-- **C49, ECMWF** (partial: the paths of later forecasts are alphabetically later, as in one folder; whole
days may be without data.) The files used are exactly those of the latest forecast issued before the start
that are for a time within the range; if there are none, or no forecast was issued before the start, the
loader raises. -/
theorem C49_ecmwf_partial (base lead : String → ℤ) (files : List String) (start stop : ℤ)
    (hord : ∀ f ∈ files, ∀ g ∈ files, base f < base g → f < g) :
    (∀ used, ecmwf base lead files start stop = .ok used →
      used ≠ [] ∧ ∃ c, Spec.LatestBase base files start c ∧
        ∀ f t, (f, t) ∈ used ↔ f ∈ files ∧ base f = c ∧ t = c + lead f ∧ start ≤ t ∧ t ≤ stop) ∧
    (∀ e, ecmwf base lead files start stop = .error e → e = .fileNotFound ∧
      ∀ c, Spec.LatestBase base files start c → ∀ f ∈ files, base f = c → ¬ (start ≤ c + lead f ∧ c + lead f ≤ stop)) := by
  have hsort := List.pairwise_insertionSort (fun a b : String => b ≤ a) files
  have hmem : ∀ f, f ∈ files.insertionSort (fun a b => b ≤ a) ↔ f ∈ files := fun f => List.mem_insertionSort _
  have huniq : ∀ c c', Spec.LatestBase base files start c → Spec.LatestBase base files start c' → c = c' := by
    rintro c c' ⟨⟨f, hf, rfl⟩, h2, h3⟩ ⟨⟨g, hg, rfl⟩, g2, g3⟩
    exact le_antisymm (g3 f hf h2) (h3 g hg g2)
  have hlatest : ∀ c, closestBase base start (files.insertionSort (fun a b => b ≤ a)) = .ok c → Spec.LatestBase base files start c := by
    intro c hc
    obtain ⟨pre, f, post, h1, h2, h3, h4⟩ := closestBase_ok _ _ _ _ hc
    have hf : f ∈ files := (hmem f).1 (by rw [h1]; simp)
    refine ⟨⟨f, hf, h2⟩, h3, fun g hg hgs => ?_⟩
    have hg' := (hmem g).2 hg
    rw [h1] at hg' hsort
    rcases List.mem_append.1 hg' with h | h
    · exact absurd hgs (h4 g h)
    · rcases List.mem_cons.1 h with rfl | h
      · exact h2.le
      · by_contra hlt
        push Not at hlt
        have h5 := hord f hf g hg (h2 ▸ hlt)
        have h6 := (List.pairwise_cons.1 (List.pairwise_append.1 hsort).2.1).1 g h
        exact absurd h5 (not_lt.2 h6)
  have husedmem : ∀ c f t, (f, t) ∈ ((((files.insertionSort (fun a b => b ≤ a)).filter (fun f => base f = c)).map
      (fun f => (f, base f + lead f))).filter (fun p => decide (start ≤ p.2 ∧ p.2 ≤ stop))) ↔
      f ∈ files ∧ base f = c ∧ t = c + lead f ∧ start ≤ t ∧ t ≤ stop := by
    intro c f t
    simp only [List.mem_filter, List.mem_map, hmem, decide_eq_true_eq, Prod.mk.injEq]
    constructor
    · rintro ⟨⟨g, ⟨hg, rfl⟩, rfl, rfl⟩, h1, h2⟩
      exact ⟨hg, rfl, rfl, h1, h2⟩
    · rintro ⟨h1, rfl, rfl, h3, h4⟩
      exact ⟨⟨f, ⟨h1, rfl⟩, rfl, rfl⟩, h3, h4⟩
  unfold ecmwf
  simp only [bind, Except.bind, pure, Except.pure, throw, throwThe, MonadExceptOf.throw]
  rcases closestBase_error base start (files.insertionSort (fun a b => b ≤ a)) with ⟨c, hc⟩ | ⟨hc, hnone⟩
  · simp only [hc]
    have hl := hlatest c hc
    have hm := husedmem c
    generalize ((((files.insertionSort (fun a b => b ≤ a)).filter (fun f => base f = c)).map
      (fun f => (f, base f + lead f))).filter (fun p => decide (start ≤ p.2 ∧ p.2 ≤ stop))) = used at hm
    by_cases hu : used.length = 0
    · rw [if_pos hu]
      refine ⟨fun u h => absurd h (by simp), fun e h => ⟨by injection h with h; exact h.symm, fun c' hc' f hf hb hcon => ?_⟩⟩
      obtain rfl := huniq c c' hl hc'
      have := (hm f (c + lead f)).2 ⟨hf, hb, rfl, hcon.1, hcon.2⟩
      rw [List.eq_nil_of_length_eq_zero hu] at this
      simp at this
    · rw [if_neg hu]
      refine ⟨fun u h => ?_, fun e h => absurd h (by simp)⟩
      injection h with h
      subst h
      exact ⟨by simpa using hu, c, hl, hm⟩
  · simp only [hc]
    refine ⟨fun u h => absurd h (by simp), fun e h => ⟨by injection h with h; exact h.symm, fun c' hc' => ?_⟩⟩
    obtain ⟨⟨f, hf, rfl⟩, h2, -⟩ := hc'
    exact absurd h2 (hnone f ((hmem f).2 hf))

/-- The dates in the names of the examples: hour 0 or 24, and the lead time in hours. -/
def exBase (s : String) : ℤ := if s = "a/d1-24h" ∨ s = "d1-24h" ∨ s = "d1-48h" then 24 else 0
/-- The lead times of the examples. -/
def exLead (s : String) : ℤ := if s = "d1-48h" then 48 else if s = "b/d0-48h" then 48 else 24

/-- Three files of one folder, for the days 2 and 3. -/
example : ecmwf exBase exLead ["d0-24h", "d1-24h", "d1-48h"] 48 72 = (.ok [("d1-48h", 72), ("d1-24h", 48)] : Py (List (String × ℤ))) ∧
    ∀ f ∈ ["d0-24h", "d1-24h", "d1-48h"], ∀ g ∈ ["d0-24h", "d1-24h", "d1-48h"], exBase f < exBase g → f < g := by
  constructor <;> decide +kernel

/-- **C49** The claim is false for ECMWF in two ways.  With files in several folders, the forecast of hour 0
is used though one of hour 24 is there and covers the time; and a range of which two of three days have no
forecast is accepted without an error. -/
theorem C49_ecmwf_false : ecmwf exBase exLead ["a/d1-24h", "b/d0-48h"] 48 48 = (.ok [("b/d0-48h", 48)] : Py (List (String × ℤ))) ∧
    Spec.LatestBase exBase ["a/d1-24h", "b/d0-48h"] 48 24 ∧ exBase "b/d0-48h" = 0 ∧
    ecmwf exBase exLead ["d0-24h"] 24 72 = (.ok [("d0-24h", 24)] : Py (List (String × ℤ))) := by
  refine ⟨by decide +kernel, ⟨⟨"a/d1-24h", by simp, by decide +kernel⟩, by norm_num, ?_⟩, by decide +kernel, by decide +kernel⟩
  decide +kernel

end Verif
