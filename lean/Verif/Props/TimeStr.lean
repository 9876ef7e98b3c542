import Verif.Model.TimeStr
import Mathlib.Data.Nat.Digits.Defs
import Mathlib.Tactic.Linarith

/-!
# C42: the time strings that the validator accepts and those that the boundary understands
-/

namespace Verif
open TimeStr

/-- The number written by a run of decimal digits, most significant first. -/
def Spec.decimal (ds : List Char) : ℕ := Nat.ofDigits 10 (ds.reverse.map (fun c => c.toNat - 48))

theorem digitsVal_eq (ds : List Char) : digitsVal ds = Spec.decimal ds := by
  have key : ∀ (ds : List Char) (a : ℕ), ds.foldl (fun a c => a * 10 + (c.toNat - '0'.toNat)) a = a * 10 ^ ds.length + Spec.decimal ds := by
    intro ds
    induction ds with
    | nil => intro a; simp [Spec.decimal]
    | cons c cs ih =>
      intro a
      rw [List.foldl_cons, ih]
      simp only [Spec.decimal, List.reverse_cons, List.map_append, List.map_cons, List.map_nil, Nat.ofDigits_append, List.length_map,
        List.length_reverse, Nat.ofDigits_singleton, List.length_cons, pow_succ]
      have : ('0' : Char).toNat = 48 := rfl
      rw [this]
      ring
  simpa [digitsVal] using key ds 0

theorem isDigit_cases {c : Char} (h : c.isDigit = true) :
    c = '0' ∨ c = '1' ∨ c = '2' ∨ c = '3' ∨ c = '4' ∨ c = '5' ∨ c = '6' ∨ c = '7' ∨ c = '8' ∨ c = '9' := by
  have h1 : 48 ≤ c.toNat ∧ c.toNat ≤ 57 := by
    simp only [Char.isDigit, Bool.and_eq_true, decide_eq_true_eq] at h
    exact ⟨h.1, h.2⟩
  have hc : c = Char.ofNat c.toNat := (Char.ofNat_toNat c).symm
  obtain ⟨a, b⟩ := h1
  generalize c.toNat = n at *
  subst hc
  have : n = 48 ∨ n = 49 ∨ n = 50 ∨ n = 51 ∨ n = 52 ∨ n = 53 ∨ n = 54 ∨ n = 55 ∨ n = 56 ∨ n = 57 := by omega
  rcases this with h | h | h | h | h | h | h | h | h | h <;> subst h <;> decide

theorem toUpper_digit {c : Char} (h : c.isDigit = true) : c.toUpper = c := by
  rcases isDigit_cases h with h | h | h | h | h | h | h | h | h | h <;> subst h <;> decide

theorem not_space_of_digit {c : Char} (h : c.isDigit = true) : isSpace c = false := by
  rcases isDigit_cases h with h | h | h | h | h | h | h | h | h | h <;> subst h <;> decide

theorem digit_ne {c : Char} (h : c.isDigit = true) : c ≠ '+' ∧ c ≠ '-' ∧ c ≠ ' ' ∧ c ≠ '.' := by
  rcases isDigit_cases h with h | h | h | h | h | h | h | h | h | h <;> subst h <;> decide

theorem strpMonth_two {e f : Char} (he : e.isDigit = true) (hf : f.isDigit = true) (r : List Char)
    (h : 1 ≤ digitsVal [e, f] ∧ digitsVal [e, f] ≤ 12) : strpMonth (e :: f :: r) = some (digitsVal [e, f], r) := by
  rcases isDigit_cases he with h1 | h1 | h1 | h1 | h1 | h1 | h1 | h1 | h1 | h1 <;> subst h1 <;>
  rcases isDigit_cases hf with h1 | h1 | h1 | h1 | h1 | h1 | h1 | h1 | h1 | h1 <;> subst h1 <;>
  first
  | rfl
  | (exfalso; revert h; decide)

theorem strpDay_two {e f : Char} (he : e.isDigit = true) (hf : f.isDigit = true)
    (h : 1 ≤ digitsVal [e, f] ∧ digitsVal [e, f] ≤ 31) : strpDay [e, f] = some (digitsVal [e, f], []) := by
  rcases isDigit_cases he with h1 | h1 | h1 | h1 | h1 | h1 | h1 | h1 | h1 | h1 <;> subst h1 <;>
  rcases isDigit_cases hf with h1 | h1 | h1 | h1 | h1 | h1 | h1 | h1 | h1 | h1 <;> subst h1 <;>
  first
  | rfl
  | (exfalso; revert h; decide)

theorem daysInMonth_le (y m : ℕ) : PyDate.daysInMonth y m ≤ 31 := by
  unfold PyDate.daysInMonth; split_ifs <;> omega

/-- A text of the form `YYYY-MM-DD` that names a day of the calendar. -/
def Spec.IsoDate (s : List Char) (a : PyDate) : Prop :=
  ∃ y m d : List Char, s = y ++ '-' :: m ++ '-' :: d ∧ y.length = 4 ∧ m.length = 2 ∧ d.length = 2 ∧
    (∀ c ∈ y ++ m ++ d, c.isDigit = true) ∧ a = ⟨Spec.decimal y, Spec.decimal m, Spec.decimal d⟩ ∧ a.Exists

/-- C42, dates: every `YYYY-MM-DD` that names a day passes the validator and is read as that day. -/
theorem C42_dates (new : Bool) (now : ℚ) (s : List Char) (a : PyDate) (h : Spec.IsoDate s a) :
    assertValidTime new s = .ok () ∧ parseDatetime now s = .ok a.ordinal := by
  obtain ⟨y, m, d, rfl, hy, hm, hd, hdig, ha, hex⟩ := h
  match y, hy with
  | [y1, y2, y3, y4], _ =>
  match m, hm with
  | [m1, m2], _ =>
  match d, hd with
  | [d1, d2], _ =>
  simp only [List.cons_append, List.nil_append, List.mem_cons, List.not_mem_nil, or_false, forall_eq_or_imp, forall_eq] at hdig
  obtain ⟨e1, e2, e3, e4, e5, e6, e7, e8⟩ := hdig
  simp only [← digitsVal_eq] at ha
  have hmk : mkDate (digitsVal [y1, y2, y3, y4]) (digitsVal [m1, m2]) (digitsVal [d1, d2]) = some a := by
    unfold mkDate; rw [← ha, if_pos hex]
  have hdate : strptime [y1, y2, y3, y4, '-', m1, m2, '-', d1, d2] = some a := by
    unfold strptime
    obtain ⟨-, -, g1, g2, g3, g4⟩ := hex
    rw [ha] at g1 g2 g3 g4
    simp only at g1 g2 g3 g4
    have := daysInMonth_le (digitsVal [y1, y2, y3, y4]) (digitsVal [m1, m2])
    simp only [List.all_cons, e1, e2, e3, e4, List.all_nil, Bool.and_true, if_true, strpMonth_two e5 e6 _ ⟨g1, g2⟩,
      strpDay_two e7 e8 ⟨g3, by omega⟩, hmk]
  constructor
  · unfold assertValidTime
    split
    · rfl
    · split
      · rfl
      · have : fromIso new [y1, y2, y3, y4, '-', m1, m2, '-', d1, d2] = some a := by
          simp only [fromIso, List.all_cons, e1, e2, e3, e4, e5, e6, e7, e8, List.all_nil, Bool.and_true, if_true, hmk]
        simp only [List.cons_append, List.nil_append, this]
  · unfold parseDatetime
    have hu : ([y1, y2, y3, y4, '-', m1, m2, '-', d1, d2] : List Char).map Char.toUpper = [y1, y2, y3, y4, '-', m1, m2, '-', d1, d2] := by
      simp only [List.map_cons, List.map_nil, toUpper_digit e1, toUpper_digit e2, toUpper_digit e3, toUpper_digit e4, toUpper_digit e5,
        toUpper_digit e6, toUpper_digit e7, toUpper_digit e8]
      rfl
    simp only [List.cons_append, List.nil_append, hu, hdate]

/-- C42, today: `TODAY` passes the validator and is read as the current day. -/
theorem C42_today (new : Bool) (now : ℚ) : assertValidTime new today = .ok () ∧ parseDatetime now today = .ok ⌊now⌋ := by
  constructor
  · unfold assertValidTime
    split
    · rfl
    · rw [if_pos rfl]
  · unfold parseDatetime
    have h1 : today.map Char.toUpper = today := by decide
    have h2 : strptime today = none := by decide
    have h3 : strip today = today := by decide
    simp only [h1, h2, h3, if_true]

/-- Runs of spaces. -/
def Spec.Blank (l : List Char) : Prop := ∀ c ∈ l, c = ' '

/-- A text `TODAY + n` or `TODAY - n` for a natural number `n`, with any spacing between its parts. -/
def Spec.Relative (s : List Char) (sign : Char) (n : ℕ) : Prop :=
  ∃ s1 s2 s3 ds s4 : List Char, s = s1 ++ today ++ s2 ++ sign :: (s3 ++ ds ++ s4) ∧ Spec.Blank s1 ∧ Spec.Blank s2 ∧ Spec.Blank s3 ∧
    Spec.Blank s4 ∧ ds ≠ [] ∧ (∀ c ∈ ds, c.isDigit = true) ∧ n = Spec.decimal ds

theorem filter_blank {l : List Char} (h : Spec.Blank l) : l.filter (· ≠ ' ') = [] := by
  rw [List.filter_eq_nil_iff]
  intro c hc
  simp [h c hc]

theorem filter_digits {l : List Char} (h : ∀ c ∈ l, c.isDigit = true) : l.filter (· ≠ ' ') = l := by
  rw [List.filter_eq_self]
  intro c hc
  simpa using (digit_ne (h c hc)).2.2.1

theorem isSpace_blank {l : List Char} (h : Spec.Blank l) : ∀ c ∈ l, isSpace c = true := by
  intro c hc; rw [h c hc]; rfl

theorem dropWhile_append_all {p : Char → Bool} : ∀ {a b : List Char}, (∀ c ∈ a, p c = true) → (a ++ b).dropWhile p = b.dropWhile p
  | [], _, _ => rfl
  | c :: cs, b, h => by
    rw [List.cons_append, List.dropWhile_cons_of_pos (h c (List.mem_cons_self ..))]
    exact dropWhile_append_all (fun x hx => h x (List.mem_cons_of_mem _ hx))

theorem dropWhile_none {p : Char → Bool} {a : List Char} (h : ∀ c ∈ a, p c = false) : a.dropWhile p = a := by
  cases a with
  | nil => rfl
  | cons c cs => rw [List.dropWhile_cons_of_neg (by simp [h c (List.mem_cons_self ..)])]

theorem strip_padded {a b c : List Char} (ha : ∀ x ∈ a, isSpace x = true) (hb : ∀ x ∈ b, isSpace x = false) (hne : b ≠ [])
    (hc : ∀ x ∈ c, isSpace x = true) : strip (a ++ b ++ c) = b := by
  unfold strip
  rw [List.append_assoc, dropWhile_append_all ha]
  have h1 : (b ++ c).dropWhile isSpace = b ++ c := by
    cases b with
    | nil => exact absurd rfl hne
    | cons x xs => rw [List.cons_append, List.dropWhile_cons_of_neg (by simp [hb x (List.mem_cons_self ..)])]
  rw [h1, List.reverse_append, dropWhile_append_all (by simpa using hc), dropWhile_none (by simpa using hb), List.reverse_reverse]

theorem mem_dropWhile_of {p : Char → Bool} {x : Char} : ∀ {l : List Char}, x ∈ l → p x = false → x ∈ l.dropWhile p
  | [], h, _ => h
  | c :: cs, h, hp => by
    rw [List.dropWhile_cons]
    split
    · rename_i hc
      rcases List.mem_cons.1 h with rfl | h
      · rw [hp] at hc; exact absurd hc (by simp)
      · exact mem_dropWhile_of h hp
    · exact h

theorem mem_strip {x : Char} {l : List Char} (h : x ∈ l) (hp : isSpace x = false) : x ∈ strip l := by
  unfold strip
  rw [List.mem_reverse]
  exact mem_dropWhile_of (List.mem_reverse.2 (mem_dropWhile_of h hp)) hp

theorem contains_append (p : List Char) : ∀ (a b : List Char), contains p b = true → contains p (a ++ b) = true
  | [], b, h => h
  | c :: cs, b, h => by
    rw [List.cons_append, contains, contains_append p cs b h, Bool.or_true]

theorem contains_prefix (r : List Char) : contains today (today ++ r) = true := by
  simp [today, contains, dropPrefix?]

theorem takeWhile_all {p : Char → Bool} {a : List Char} (h : ∀ c ∈ a, p c = true) : a.takeWhile p = a := by
  induction a with
  | nil => rfl
  | cons c cs ih =>
    rw [List.takeWhile_cons_of_pos (h c (List.mem_cons_self ..)), ih (fun x hx => h x (List.mem_cons_of_mem _ hx))]

theorem pyFloat_digits {ds : List Char} (hne : ds ≠ []) (hd : ∀ c ∈ ds, c.isDigit = true) : pyFloat ds = some (Spec.decimal ds : ℚ) := by
  have h1 : unsignedFloat ds = some (Spec.decimal ds : ℚ) := by
    unfold unsignedFloat
    have : ds.dropWhile Char.isDigit = [] := by
      have := dropWhile_append_all (b := []) hd
      simpa using this
    rw [this]
    simp only [if_neg hne, digitsVal_eq]
  cases ds with
  | nil => exact absurd rfl hne
  | cons c cs =>
    have hc := digit_ne (hd c (List.mem_cons_self ..))
    rw [← h1]
    unfold pyFloat
    split
    · rename_i r he; injection he with he _; exact absurd he hc.2.1
    · rename_i r he; injection he with he _; exact absurd he hc.1
    · rfl

/-- C42, relative times: `TODAY + n` and `TODAY - n`, with any spacing, pass the validator and are read as
the day that is `n` days later or earlier, as long as it exists.  Together with `C42_dates` and `C42_today`
these are all texts of the documented forms. -/
theorem C42_relative_partial (new : Bool) (now : ℚ) (s : List Char) (n : ℕ) :
    (Spec.Relative s '+' n → 1 ≤ ⌊now⌋ + n → ⌊now⌋ + n ≤ maxOrdinal → assertValidTime new s = .ok () ∧ parseDatetime now s = .ok (⌊now⌋ + n)) ∧
    (Spec.Relative s '-' n → 1 ≤ ⌊now⌋ - n → ⌊now⌋ - n ≤ maxOrdinal → assertValidTime new s = .ok () ∧ parseDatetime now s = .ok (⌊now⌋ - n)) := by
  have common : ∀ sign : Char, sign = '+' ∨ sign = '-' → ∀ s1 s2 s3 ds s4 : List Char,
      s = s1 ++ today ++ s2 ++ sign :: (s3 ++ ds ++ s4) → Spec.Blank s1 → Spec.Blank s2 → Spec.Blank s3 → Spec.Blank s4 → ds ≠ [] →
      (∀ c ∈ ds, c.isDigit = true) →
      assertValidTime new s = .ok () ∧ s.map Char.toUpper = s ∧ strptime s = none ∧ strip s ≠ today ∧ contains today s = true ∧
      strip (splitSecond sign s) = ds ∧ sign ∈ s ∧ (sign = '-' → '+' ∉ s) := by
    intro sign hsign s1 s2 s3 ds s4 hs b1 b2 b3 b4 hne hd
    have hup : ∀ c ∈ s, c.toUpper = c := by
      intro c hc
      rw [hs] at hc
      simp only [List.mem_append, List.mem_cons] at hc
      rcases hc with ((hc | hc) | hc) | hc | (hc | hc) | hc
      · rw [b1 c hc]; rfl
      · simp only [today, List.mem_cons, List.not_mem_nil, or_false] at hc
        rcases hc with rfl | rfl | rfl | rfl | rfl <;> rfl
      · rw [b2 c hc]; rfl
      · rcases hsign with rfl | rfl <;> rw [hc] <;> rfl
      · rw [b3 c hc]; rfl
      · exact toUpper_digit (hd c hc)
      · rw [b4 c hc]; rfl
    have hsp : isSpace sign = false := by rcases hsign with rfl | rfl <;> rfl
    have hmem : sign ∈ s := by rw [hs]; simp
    refine ⟨?_, ?_, ?_, ?_, ?_, ?_, hmem, ?_⟩
    · unfold assertValidTime
      rw [if_pos]
      have ht : today.filter (· ≠ ' ') = today := by decide
      rw [hs]
      rw [List.filter_append, List.filter_append, List.filter_append, filter_blank b1, filter_blank b2, ht,
        List.filter_cons_of_pos (by rcases hsign with rfl | rfl <;> decide), List.filter_append, List.filter_append,
        filter_blank b3, filter_blank b4, filter_digits hd]
      cases ds with
      | nil => exact absurd rfl hne
      | cons d ds =>
        have hd0 := hd d (List.mem_cons_self ..)
        rcases hsign with rfl | rfl <;> simp [relativeRe, today, dropPrefix?, hd0]
    · rw [List.map_congr_left (g := id) hup, List.map_id]
    · have : ∃ c r, s = c :: r ∧ c.isDigit = false := by
        rw [hs]
        cases s1 with
        | nil => exact ⟨'T', _, rfl, rfl⟩
        | cons c cs => exact ⟨c, _, rfl, by rw [b1 c (List.mem_cons_self ..)]; rfl⟩
      obtain ⟨c, r, e, hc⟩ := this
      rw [e]
      unfold strptime
      split
      · rename_i h; injection h with h1 _
        rw [if_neg]
        rw [← h1]
        simp [hc]
      · rfl
    · intro he
      have := mem_strip hmem hsp
      rw [he] at this
      rcases hsign with rfl | rfl <;> revert this <;> decide
    · rw [hs, List.append_assoc, List.append_assoc]
      exact contains_append _ _ _ (contains_prefix _)
    · have hpre : ∀ c ∈ s1 ++ today ++ s2, (c ≠ sign : Bool) = true := by
        intro c hc
        simp only [List.mem_append] at hc
        have : c = ' ' ∨ c ∈ today := by
          rcases hc with (hc | hc) | hc
          · exact Or.inl (b1 c hc)
          · exact Or.inr hc
          · exact Or.inl (b2 c hc)
        rcases hsign with rfl | rfl
        · rcases this with rfl | h
          · decide
          · simp only [today, List.mem_cons, List.not_mem_nil, or_false] at h
            rcases h with rfl | rfl | rfl | rfl | rfl <;> decide
        · rcases this with rfl | h
          · decide
          · simp only [today, List.mem_cons, List.not_mem_nil, or_false] at h
            rcases h with rfl | rfl | rfl | rfl | rfl <;> decide
      have hpost : ∀ c ∈ s3 ++ ds ++ s4, (c ≠ sign : Bool) = true := by
        intro c hc
        simp only [List.mem_append] at hc
        rcases hc with (hc | hc) | hc
        · rw [b3 c hc]; rcases hsign with rfl | rfl <;> decide
        · have := digit_ne (hd c hc)
          rcases hsign with rfl | rfl
          · simpa using this.1
          · simpa using this.2.1
        · rw [b4 c hc]; rcases hsign with rfl | rfl <;> decide
      unfold splitSecond
      rw [hs, dropWhile_append_all hpre, List.dropWhile_cons_of_neg (by simp), List.drop_one, List.tail_cons, takeWhile_all hpost]
      exact strip_padded (isSpace_blank b3) (fun x hx => not_space_of_digit (hd x hx)) hne (isSpace_blank b4)
    · intro hm hp
      subst hm
      rw [hs] at hp
      simp only [List.mem_append, List.mem_cons] at hp
      rcases hp with ((hc | hc) | hc) | hc | (hc | hc) | hc
      · exact absurd (b1 _ hc) (by decide)
      · revert hc; decide
      · exact absurd (b2 _ hc) (by decide)
      · revert hc; decide
      · exact absurd (b3 _ hc) (by decide)
      · exact (digit_ne (hd _ hc)).1 rfl
      · exact absurd (b4 _ hc) (by decide)
  constructor
  · rintro ⟨s1, s2, s3, ds, s4, hs, b1, b2, b3, b4, hne, hd, hn⟩ l1 l2
    obtain ⟨g1, g2, g3, g4, g5, g6, g7, -⟩ := common '+' (Or.inl rfl) s1 s2 s3 ds s4 hs b1 b2 b3 b4 hne hd
    refine ⟨g1, ?_⟩
    unfold parseDatetime
    have hf : ⌊now + (n : ℚ)⌋ = ⌊now⌋ + n := Int.floor_add_natCast now n
    simp only [g2, g3, if_neg g4, g5, not_true_eq_false, if_false, g7, if_true, g6, pyFloat_digits hne hd, ← hn]
    unfold shift
    rw [hf, if_pos ⟨l1, l2⟩]
  · rintro ⟨s1, s2, s3, ds, s4, hs, b1, b2, b3, b4, hne, hd, hn⟩ l1 l2
    obtain ⟨g1, g2, g3, g4, g5, g6, g7, g8⟩ := common '-' (Or.inr rfl) s1 s2 s3 ds s4 hs b1 b2 b3 b4 hne hd
    refine ⟨g1, ?_⟩
    unfold parseDatetime
    have hf : ⌊now + -(n : ℚ)⌋ = ⌊now⌋ - n := by rw [← sub_eq_add_neg]; exact Int.floor_sub_natCast now n
    simp only [g2, g3, if_neg g4, g5, not_true_eq_false, if_false, g8 rfl, g7, if_true, g6, pyFloat_digits hne hd, ← hn]
    unfold shift
    rw [hf, if_pos ⟨l1, l2⟩]

/-- The converse fails: texts that the validator accepts and that the boundary then refuses. -/
theorem C42_false : ∃ s : List Char, ∀ new now, assertValidTime new s = .ok () ∧ parseDatetime now s = .error .valueError := by
  refine ⟨"TODAY,5".toList, fun new now => ⟨?_, ?_⟩⟩
  · cases new <;> decide +kernel
  · unfold parseDatetime
    have e1 : strptime ("TODAY,5".toList.map Char.toUpper) = none := by decide +kernel
    have e2 : strip ("TODAY,5".toList.map Char.toUpper) ≠ today := by decide +kernel
    have e3 : contains today ("TODAY,5".toList.map Char.toUpper) = true := by decide +kernel
    have e4 : '+' ∉ "TODAY,5".toList.map Char.toUpper := by decide +kernel
    have e5 : '-' ∉ "TODAY,5".toList.map Char.toUpper := by decide +kernel
    simp only [e1, if_neg e2, e3, not_true_eq_false, if_false, if_neg e4, if_neg e5]

/-- More such texts: anything may follow the digits, spaces may be anywhere, and the compact form of dates
passes the validator from Python 3.11 on. -/
theorem C42_more_false : ∀ s ∈ ["TODAY+5abc", "TODAY+1 0", "T O D A Y+5", "20230101"].map String.toList,
    assertValidTime true s = .ok () ∧ parseDatetime 739000 s = .error .valueError := by
  decide +kernel

/-- And a text which both accept with different readings: the first offset says five days ago, and the
boundary takes the second one. -/
theorem C42_disagreement (new : Bool) (now : ℚ) (h : 1 ≤ ⌊now⌋ + 3) (h' : ⌊now⌋ + 3 ≤ maxOrdinal) :
    assertValidTime new "TODAY-5+3".toList = .ok () ∧ parseDatetime now "TODAY-5+3".toList = .ok (⌊now⌋ + 3) := by
  constructor
  · cases new <;> decide +kernel
  · unfold parseDatetime
    have e1 : strptime ("TODAY-5+3".toList.map Char.toUpper) = none := by decide +kernel
    have e2 : strip ("TODAY-5+3".toList.map Char.toUpper) ≠ today := by decide +kernel
    have e3 : contains today ("TODAY-5+3".toList.map Char.toUpper) = true := by decide +kernel
    have e4 : '+' ∈ "TODAY-5+3".toList.map Char.toUpper := by decide +kernel
    have e5 : pyFloat (strip (splitSecond '+' ("TODAY-5+3".toList.map Char.toUpper))) = some 3 := by decide +kernel
    simp only [e1, if_neg e2, e3, not_true_eq_false, if_false, if_pos e4, e5]
    have hf : ⌊now + (3 : ℚ)⌋ = ⌊now⌋ + 3 := by exact_mod_cast Int.floor_add_natCast now 3
    unfold shift
    rw [hf, if_pos ⟨h, h'⟩]

example : Spec.IsoDate "2024-02-29".toList ⟨2024, 2, 29⟩ :=
  ⟨['2', '0', '2', '4'], ['0', '2'], ['2', '9'], by decide +kernel, rfl, rfl, rfl, by decide, by decide +kernel, by decide⟩

example : Spec.Relative "TODAY - 16".toList '-' 16 :=
  ⟨[], [' '], [' '], ['1', '6'], [], by decide +kernel, by simp [Spec.Blank], by simp [Spec.Blank], by simp [Spec.Blank], by simp [Spec.Blank],
    by simp, by decide, by decide +kernel⟩

example : parseDatetime 739000 "TODAY - 16".toList = .ok 738984 ∧ parseDatetime (1478001 / 2) "2024-02-29".toList = .ok 738945 := by
  decide +kernel

end Verif
