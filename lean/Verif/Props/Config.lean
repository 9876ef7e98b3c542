import Verif.Model.Config
import Verif.Props.Calendar
import Verif.Props.TimeStr
import Verif.Props.InitialGrid
import Verif.Props.Boundary

/-!
# C83: configurations that are accepted; C84: what a mesh keeps of its configuration; C85, C86: vessels, routes, waypoints
-/

namespace Verif
open Config PyDate TimeStr

theorem daysBeforeYear_le_succ (y : ℕ) : daysBeforeYear y ≤ daysBeforeYear (y + 1) := by
  rcases Nat.eq_zero_or_pos y with rfl | h
  · exact Nat.le_refl _
  · rw [daysBeforeYear_succ y h]; omega

theorem daysBeforeYear_le {y z : ℕ} (h : y ≤ z) : daysBeforeYear y ≤ daysBeforeYear z :=
  monotone_nat_of_le_succ daysBeforeYear_le_succ h

theorem daysBeforeMonth_step (y m : ℕ) (h : 1 ≤ m) : daysBeforeMonth y (m + 1) = daysBeforeMonth y m + daysInMonth y m := by
  obtain ⟨k, rfl⟩ : ∃ k, m = k + 1 := ⟨m - 1, by omega⟩
  rfl

theorem daysBeforeMonth_le_succ (y m : ℕ) : daysBeforeMonth y m ≤ daysBeforeMonth y (m + 1) := by
  rcases Nat.eq_zero_or_pos m with rfl | h
  · exact Nat.le_refl _
  · rw [daysBeforeMonth_step y m h]; omega

/-- Every date lies between the first of January of the year 1 and the end of the year 9999. -/
theorem ordinal_range {a : PyDate} (h : a.Exists) : 1 ≤ a.ordinal ∧ a.ordinal ≤ maxOrdinal := by
  obtain ⟨y, m, d⟩ := a
  obtain ⟨h1, h2, h3, h4, h5, h6⟩ := h
  simp only at *
  have e1 := daysBeforeMonth_step y m h3
  have e2 : daysBeforeMonth y (m + 1) ≤ daysBeforeMonth y 13 := monotone_nat_of_le_succ (daysBeforeMonth_le_succ y) (by omega)
  have e3 : daysBeforeMonth y 13 = _ := daysBeforeMonth_step y 12 (by norm_num)
  have e4 := daysBeforeMonth_year y
  have e5 := daysBeforeYear_succ y h1
  have e6 := daysBeforeYear_le (show y + 1 ≤ 10000 by omega)
  have e7 : daysBeforeYear 10000 = 3652059 := by decide
  simp only [ordinal, maxOrdinal]
  constructor
  · push_cast; omega
  · have : daysBeforeYear y + daysBeforeMonth y m + d ≤ 3652059 := by omega
    exact_mod_cast this

/-- The date of a day number exists and has that number. -/
theorem dateOf_spec {n : ℤ} (h : 1 ≤ n) (h' : n ≤ maxOrdinal) : (dateOf n).Exists ∧ (dateOf n).ordinal = n := by
  obtain ⟨k, rfl⟩ : ∃ k : ℕ, n = k := ⟨n.toNat, by omega⟩
  have hk : 1 ≤ k := by exact_mod_cast h
  have hk' : k ≤ 3652059 := by unfold maxOrdinal at h'; exact_mod_cast h'
  unfold dateOf
  simp only [Int.toNat_natCast]
  set y := Nat.findGreatest (fun y => daysBeforeYear y < k) 9999 with hy
  have y1 : 1 ≤ y := Nat.le_findGreatest (P := fun y => daysBeforeYear y < k) (by norm_num) (show daysBeforeYear 1 < k by
    have : daysBeforeYear 1 = 0 := rfl
    omega)
  have y2 : y ≤ 9999 := Nat.findGreatest_le _
  have y3 : daysBeforeYear y < k := Nat.findGreatest_spec (P := fun y => daysBeforeYear y < k) (m := 1) (by norm_num) (show daysBeforeYear 1 < k by
    have : daysBeforeYear 1 = 0 := rfl
    omega)
  have y4 : k ≤ daysBeforeYear (y + 1) := by
    rcases Nat.lt_or_ge y 9999 with hlt | hge
    · by_contra hcon
      exact Nat.findGreatest_is_greatest (P := fun y => daysBeforeYear y < k) (n := 9999) (k := y + 1) (by omega) (by omega) (by omega)
    · have : y = 9999 := by omega
      rw [this]
      have : daysBeforeYear (9999 + 1) = 3652059 := by decide
      omega
  set r := k - daysBeforeYear y with hr
  set m := Nat.findGreatest (fun m => daysBeforeMonth y m < r) 12 with hm
  have r1 : daysBeforeMonth y 1 < r := by
    have : daysBeforeMonth y 1 = 0 := rfl
    omega
  have m1 : 1 ≤ m := Nat.le_findGreatest (P := fun m => daysBeforeMonth y m < r) (by norm_num) r1
  have m2 : m ≤ 12 := Nat.findGreatest_le _
  have m3 : daysBeforeMonth y m < r := Nat.findGreatest_spec (P := fun m => daysBeforeMonth y m < r) (m := 1) (by norm_num) r1
  have m4 : r ≤ daysBeforeMonth y (m + 1) := by
    rcases Nat.lt_or_ge m 12 with hlt | hge
    · by_contra hcon
      exact Nat.findGreatest_is_greatest (P := fun m => daysBeforeMonth y m < r) (n := 12) (k := m + 1) (by omega) (by omega) (by omega)
    · have : m = 12 := by omega
      rw [this]
      have e3 := daysBeforeMonth_step y 12 (by norm_num)
      have e4 := daysBeforeMonth_year y
      have e5 := daysBeforeYear_succ y y1
      omega
  have m5 := daysBeforeMonth_step y m m1
  refine ⟨⟨y1, y2, m1, m2, ?_, ?_⟩, ?_⟩
  · change 1 ≤ r - daysBeforeMonth y m; omega
  · change r - daysBeforeMonth y m ≤ daysInMonth y m; omega
  · change ((daysBeforeYear y + daysBeforeMonth y m + (r - daysBeforeMonth y m) : ℕ) : ℤ) = k
    have : daysBeforeYear y + daysBeforeMonth y m + (r - daysBeforeMonth y m) = k := by omega
    exact_mod_cast this

theorem lastDigit_toNat (n : ℕ) : (lastDigit n).toNat = 48 + n % 10 := by
  unfold lastDigit
  have : n % 10 < 10 := Nat.mod_lt _ (by norm_num)
  interval_cases n % 10 <;> rfl

theorem lastDigit_isDigit (n : ℕ) : (lastDigit n).isDigit = true := by
  unfold lastDigit
  have : n % 10 < 10 := Nat.mod_lt _ (by norm_num)
  interval_cases n % 10 <;> rfl

/-- The text of a date with a year of four digits is that date. -/
theorem dateText_iso {pad : Bool} {a : PyDate} (h : a.Exists) (hp : pad = true ∨ 1000 ≤ a.y) : Spec.IsoDate (dateText pad a) a := by
  obtain ⟨y, m, d⟩ := a
  have hd := daysInMonth_le y m
  obtain ⟨h1, h2, h3, h4, h5, h6⟩ := id h
  simp only at *
  have hy : yearText pad y = [lastDigit (y / 1000), lastDigit (y / 100), lastDigit (y / 10), lastDigit y] := by
    unfold yearText; rw [if_pos (by simpa using hp)]
  refine ⟨[lastDigit (y / 1000), lastDigit (y / 100), lastDigit (y / 10), lastDigit y], [lastDigit (m / 10), lastDigit m],
    [lastDigit (d / 10), lastDigit d], ?_, rfl, rfl, rfl, ?_, ?_, h⟩
  · unfold dateText; rw [hy]
  · simp [lastDigit_isDigit]
  · have e0 : ('0' : Char).toNat = 48 := rfl
    simp only [← digitsVal_eq, digitsVal, List.foldl_cons, List.foldl_nil, lastDigit_toNat, e0, PyDate.mk.injEq]
    omega

/-- Texts read by `strptime` begin with four digits. -/
theorem strptime_four {l : List Char} {a : PyDate} (h : strptime l = some a) : ∃ x y z w r, l = x :: y :: z :: w :: '-' :: r ∧
    x.isDigit = true ∧ y.isDigit = true ∧ z.isDigit = true ∧ w.isDigit = true := by
  unfold strptime at h
  split at h
  · split at h
    · next hd => simp at hd; exact ⟨_, _, _, _, _, rfl, hd⟩
    · cases h
  · cases h

/-- The text of a date with a year of less than four digits is not read back. -/
theorem dateText_short {pad : Bool} {a : PyDate} (hp : ¬ (pad = true ∨ 1000 ≤ a.y)) : strptime (dateText pad a) = none := by
  have hd : ('-' : Char).isDigit = false := by decide
  by_contra hne
  obtain ⟨b, hb⟩ := Option.ne_none_iff_exists'.1 hne
  obtain ⟨x, y, z, w, r, e, h1, h2, h3, h4⟩ := strptime_four hb
  unfold dateText yearText at e
  rw [if_neg (by simpa using hp)] at e
  split at e
  · simp only [List.cons_append, List.nil_append, List.cons.injEq] at e
    rw [← e.2.2.2.1, hd] at h4; cases h4
  · split at e
    · simp only [List.cons_append, List.nil_append, List.cons.injEq] at e
      rw [← e.2.2.1, hd] at h3; cases h3
    · simp only [List.cons_append, List.nil_append, List.cons.injEq] at e
      rw [← e.2.1, hd] at h2; cases h2


/-- A JSON number with its value (`none` is `NaN`). -/
def Spec.IsNumber (v : JVal) (x : Option ℚ) : Prop := v = .flt x ∨ ∃ n : ℤ, v = .int n ∧ x = some (n : ℚ)

/-- A JSON number without fraction. -/
def Spec.IsInteger (v : JVal) (n : ℤ) : Prop := v = .int n ∨ v = .flt (some (n : ℚ))

/-- The keys of an object are among `names`. -/
def Spec.OnlyKeys (d : List (String × JVal)) (names : List String) : Prop := ∀ p ∈ d, p.1 ∈ names

/-- The numbers and texts of a region. -/
structure Spec.RegionValues where
  latMin : Option ℚ
  latMax : Option ℚ
  longMin : Option ℚ
  longMax : Option ℚ
  width : Option ℚ
  height : Option ℚ
  start : List Char
  stop : List Char

/-- A region of the configuration: exactly the eight keys, with numbers and texts for values. -/
def Spec.RegionObject (r : JVal) (x : Spec.RegionValues) : Prop :=
  ∃ d, r = .obj d ∧
    (∃ v, Dict.get? d "lat_min" = some v ∧ Spec.IsNumber v x.latMin) ∧ (∃ v, Dict.get? d "lat_max" = some v ∧ Spec.IsNumber v x.latMax) ∧
    (∃ v, Dict.get? d "long_min" = some v ∧ Spec.IsNumber v x.longMin) ∧ (∃ v, Dict.get? d "long_max" = some v ∧ Spec.IsNumber v x.longMax) ∧
    Dict.get? d "start_time" = some (.str x.start) ∧ Dict.get? d "end_time" = some (.str x.stop) ∧
    (∃ v, Dict.get? d "cell_width" = some v ∧ Spec.IsNumber v x.width) ∧ (∃ v, Dict.get? d "cell_height" = some v ∧ Spec.IsNumber v x.height) ∧
    Spec.OnlyKeys d ["lat_min", "lat_max", "long_min", "long_max", "start_time", "end_time", "cell_width", "cell_height"]

/-- A data source of the configuration: a loader's name and an object of parameters, nothing else. -/
def Spec.Source (s : JVal) : Prop :=
  ∃ d, s = .obj d ∧ (∃ name, Dict.get? d "loader" = some (.str name)) ∧ (∃ params, Dict.get? d "params" = some (.obj params)) ∧
    Spec.OnlyKeys d ["loader", "params"]

/-- The splitting section: two integers, nothing else. -/
def Spec.Splitting (s : JVal) (depth least : ℤ) : Prop :=
  ∃ d, s = .obj d ∧ (∃ v, Dict.get? d "split_depth" = some v ∧ Spec.IsInteger v depth) ∧
    (∃ v, Dict.get? d "minimum_datapoints" = some v ∧ Spec.IsInteger v least) ∧ Spec.OnlyKeys d ["split_depth", "minimum_datapoints"]

/-- A well-formed configuration of a mesh: a region, a list of data sources and a splitting section. -/
def Spec.MeshConfig (c : JVal) (x : Spec.RegionValues) (sources : List JVal) (depth least : ℤ) : Prop :=
  ∃ top, c = .obj top ∧ (∃ r, Dict.get? top "region" = some r ∧ Spec.RegionObject r x) ∧
    Dict.get? top "data_sources" = some (.arr sources) ∧ (∀ s ∈ sources, Spec.Source s) ∧
    (∃ s, Dict.get? top "splitting" = some s ∧ Spec.Splitting s depth least)

theorem member_iff (s : Schema) (d : List (String × JVal)) (k : String) :
    ((Dict.get? d k).isSome = true ∧ (match Dict.get? d k with | none => true | some v => valid s v) = true) ↔
      ∃ v, Dict.get? d k = some v ∧ valid s v = true := by
  cases Dict.get? d k <;> simp

theorem optional_iff (s : Schema) (d : List (String × JVal)) (k : String) :
    (match Dict.get? d k with | none => true | some v => valid s v) = true ↔ ∀ v, Dict.get? d k = some v → valid s v = true := by
  cases Dict.get? d k <;> simp

theorem valid_number (v : JVal) : valid number v = true ↔ ∃ x, Spec.IsNumber v x := by
  cases v with
  | flt x => cases x <;> simp [valid, number, Spec.IsNumber, inRange]
  | int n => simp [valid, number, Spec.IsNumber, inRange]
  | _ => simp [valid, number, Spec.IsNumber]

theorem valid_int (v : JVal) : valid .int v = true ↔ ∃ n, Spec.IsInteger v n := by
  cases v with
  | flt x =>
    cases x with
    | none => simp [valid, Spec.IsInteger]
    | some q =>
      simp only [valid, Spec.IsInteger, decide_eq_true_eq, reduceCtorEq, false_or, JVal.flt.injEq, Option.some.injEq]
      constructor
      · intro h; exact ⟨q.num, (Rat.coe_int_num_of_den_eq_one h).symm⟩
      · rintro ⟨n, rfl⟩; exact Rat.den_intCast n
  | _ => simp [valid, Spec.IsInteger]

theorem valid_str (v : JVal) : valid (.str none) v = true ↔ ∃ s, v = .str s := by
  cases v <;> simp [valid]

theorem valid_bool (v : JVal) : valid .bool v = true ↔ ∃ b, v = .bool b := by
  cases v <;> simp [valid]

theorem valid_object (v : JVal) : valid (.obj [] .nil true) v = true ↔ ∃ d, v = .obj d := by
  cases v <;> simp [valid, validProps]

theorem onlyKeys_iff (d : List (String × JVal)) (names : List String) : d.all (fun p => decide (p.1 ∈ names)) = true ↔ Spec.OnlyKeys d names := by
  simp [Spec.OnlyKeys]

theorem valid_region (r : JVal) : valid regionSchema r = true ↔ ∃ x, Spec.RegionObject r x := by
  cases r with
  | obj d =>
    unfold regionSchema
    simp only [valid, validProps, List.all_cons, List.all_nil, Bool.and_true, Bool.and_eq_true, Bool.false_or, Props.names]
    constructor
    · rintro ⟨⟨⟨a1, a2, a3, a4, a5, a6, a7, a8⟩, b1, b2, b3, b4, b5, b6, b7, b8⟩, hk⟩
      obtain ⟨v1, e1, h1⟩ := (member_iff _ _ _).1 ⟨a1, b1⟩
      obtain ⟨v2, e2, h2⟩ := (member_iff _ _ _).1 ⟨a2, b2⟩
      obtain ⟨v3, e3, h3⟩ := (member_iff _ _ _).1 ⟨a3, b3⟩
      obtain ⟨v4, e4, h4⟩ := (member_iff _ _ _).1 ⟨a4, b4⟩
      obtain ⟨v5, e5, h5⟩ := (member_iff _ _ _).1 ⟨a5, b5⟩
      obtain ⟨v6, e6, h6⟩ := (member_iff _ _ _).1 ⟨a6, b6⟩
      obtain ⟨v7, e7, h7⟩ := (member_iff _ _ _).1 ⟨a7, b7⟩
      obtain ⟨v8, e8, h8⟩ := (member_iff _ _ _).1 ⟨a8, b8⟩
      obtain ⟨x1, h1⟩ := (valid_number _).1 h1
      obtain ⟨x2, h2⟩ := (valid_number _).1 h2
      obtain ⟨x3, h3⟩ := (valid_number _).1 h3
      obtain ⟨x4, h4⟩ := (valid_number _).1 h4
      obtain ⟨x5, rfl⟩ := (valid_str _).1 h5
      obtain ⟨x6, rfl⟩ := (valid_str _).1 h6
      obtain ⟨x7, h7⟩ := (valid_number _).1 h7
      obtain ⟨x8, h8⟩ := (valid_number _).1 h8
      exact ⟨⟨x1, x2, x3, x4, x7, x8, x5, x6⟩, d, rfl, ⟨v1, e1, h1⟩, ⟨v2, e2, h2⟩, ⟨v3, e3, h3⟩, ⟨v4, e4, h4⟩, e5, e6, ⟨v7, e7, h7⟩,
        ⟨v8, e8, h8⟩, (onlyKeys_iff _ _).1 hk⟩
    · rintro ⟨x, d', e, ⟨v1, e1, h1⟩, ⟨v2, e2, h2⟩, ⟨v3, e3, h3⟩, ⟨v4, e4, h4⟩, e5, e6, ⟨v7, e7, h7⟩, ⟨v8, e8, h8⟩, hk⟩
      cases e
      refine ⟨⟨?_, ?_⟩, (onlyKeys_iff _ _).2 hk⟩
      · simp [e1, e2, e3, e4, e5, e6, e7, e8]
      · simp [e1, e2, e3, e4, e5, e6, e7, e8, (valid_number _).2 ⟨_, h1⟩, (valid_number _).2 ⟨_, h2⟩, (valid_number _).2 ⟨_, h3⟩,
          (valid_number _).2 ⟨_, h4⟩, (valid_number _).2 ⟨_, h7⟩, (valid_number _).2 ⟨_, h8⟩, valid]
  | _ => simp [regionSchema, valid, Spec.RegionObject]

theorem valid_source (s : JVal) : valid dataloaderSchema s = true ↔ Spec.Source s := by
  cases s with
  | obj d =>
    unfold dataloaderSchema
    simp only [valid, validProps, List.all_cons, List.all_nil, Bool.and_true, Bool.and_eq_true, Bool.false_or, Props.names]
    constructor
    · rintro ⟨⟨⟨a1, a2⟩, b1, b2⟩, hk⟩
      obtain ⟨v1, e1, h1⟩ := (member_iff (.str none) _ _).1 ⟨a1, b1⟩
      obtain ⟨v2, e2, h2⟩ := (member_iff (.obj [] .nil true) _ _).1 ⟨a2, b2⟩
      obtain ⟨x1, rfl⟩ := (valid_str _).1 h1
      obtain ⟨x2, rfl⟩ := (valid_object _).1 h2
      exact ⟨d, rfl, ⟨x1, e1⟩, ⟨x2, e2⟩, (onlyKeys_iff _ _).1 hk⟩
    · rintro ⟨d', e, ⟨x1, e1⟩, ⟨x2, e2⟩, hk⟩
      cases e
      refine ⟨⟨?_, ?_⟩, (onlyKeys_iff _ _).2 hk⟩
      · simp [e1, e2]
      · simp [e1, e2, valid, validProps]
  | _ => simp [dataloaderSchema, valid, Spec.Source]

theorem valid_splitting (s : JVal) : valid splittingSchema s = true ↔ ∃ depth least, Spec.Splitting s depth least := by
  cases s with
  | obj d =>
    unfold splittingSchema
    simp only [valid, validProps, List.all_cons, List.all_nil, Bool.and_true, Bool.and_eq_true, Bool.false_or, Props.names]
    constructor
    · rintro ⟨⟨⟨a1, a2⟩, b1, b2⟩, hk⟩
      obtain ⟨v1, e1, h1⟩ := (member_iff .int _ _).1 ⟨a1, b1⟩
      obtain ⟨v2, e2, h2⟩ := (member_iff .int _ _).1 ⟨a2, b2⟩
      obtain ⟨x1, h1⟩ := (valid_int _).1 h1
      obtain ⟨x2, h2⟩ := (valid_int _).1 h2
      exact ⟨x1, x2, d, rfl, ⟨v1, e1, h1⟩, ⟨v2, e2, h2⟩, (onlyKeys_iff _ _).1 hk⟩
    · rintro ⟨x1, x2, d', e, ⟨v1, e1, h1⟩, ⟨v2, e2, h2⟩, hk⟩
      cases e
      refine ⟨⟨?_, ?_⟩, (onlyKeys_iff _ _).2 hk⟩
      · simp [e1, e2]
      · simp [e1, e2, (valid_int _).2 ⟨_, h1⟩, (valid_int _).2 ⟨_, h2⟩]
  | _ => simp [splittingSchema, valid, Spec.Splitting]

theorem valid_mesh (c : JVal) : valid meshSchema c = true ↔ ∃ x sources depth least, Spec.MeshConfig c x sources depth least := by
  cases c with
  | obj top =>
    unfold meshSchema
    simp only [valid, validProps, List.all_cons, List.all_nil, Bool.and_true, Bool.and_eq_true, Bool.true_or]
    constructor
    · rintro ⟨⟨a1, a2, a3⟩, b1, b2, b3⟩
      obtain ⟨v1, e1, h1⟩ := (member_iff regionSchema _ _).1 ⟨a1, b1⟩
      obtain ⟨v2, e2, h2⟩ := (member_iff (.arr dataloaderSchema none none) _ _).1 ⟨a2, b2⟩
      obtain ⟨v3, e3, h3⟩ := (member_iff splittingSchema _ _).1 ⟨a3, b3⟩
      obtain ⟨x, h1⟩ := (valid_region _).1 h1
      obtain ⟨p, q, h3⟩ := (valid_splitting _).1 h3
      cases v2 with
      | arr l =>
        refine ⟨x, l, p, q, top, rfl, ⟨v1, e1, h1⟩, e2, ?_, v3, e3, h3⟩
        intro s hs
        simp only [valid, Option.all_none, Bool.and_true, List.all_eq_true] at h2
        exact (valid_source s).1 (h2 s hs)
      | _ => simp [valid] at h2
    · rintro ⟨x, l, p, q, top', e, ⟨v1, e1, h1⟩, e2, h2, v3, e3, h3⟩
      cases e
      have h2' : l.all (valid dataloaderSchema) = true := by
        simp only [List.all_eq_true]
        intro s hs; exact (valid_source s).2 (h2 s hs)
      refine ⟨?_, ?_⟩
      · simp [e1, e2, e3]
      · simp only [e1, e2, e3, (valid_region _).2 ⟨_, h1⟩, (valid_splitting _).2 ⟨_, _, h3⟩, valid, h2', Option.all_none, Bool.and_true, and_self]
  | _ => simp [meshSchema, valid, Spec.MeshConfig]

/-- The texts of times that are accepted: today, today plus or minus (or comma) something that begins with a digit
once the spaces are removed, and dates; with newer Pythons also dates without hyphens. -/
def Spec.TimeText (new : Bool) (s : List Char) : Prop :=
  s = today ∨ (∃ c d rest, s.filter (· ≠ ' ') = today ++ c :: d :: rest ∧ (c = '+' ∨ c = ',' ∨ c = '-') ∧ d.isDigit = true) ∨
    (∃ a, Spec.IsoDate s a) ∨
    (new = true ∧ ∃ y m d : List Char, s = y ++ m ++ d ∧ y.length = 4 ∧ m.length = 2 ∧ d.length = 2 ∧ (∀ c ∈ s, c.isDigit = true) ∧
      (⟨Spec.decimal y, Spec.decimal m, Spec.decimal d⟩ : PyDate).Exists)

/-- A length of which, after taking away whole turns of 360 degrees, a whole number of cells is left. -/
def Spec.WholeCells (len size : ℚ) : Prop :=
  size ≠ 0 ∧ ∃ n k : ℤ, len = size * n + 360 * k ∧ 360 * (k : ℚ) ≤ len ∧ len < 360 * (k + 1)

theorem dropPrefix?_iff : ∀ (p l r : List Char), dropPrefix? p l = some r ↔ l = p ++ r
  | [], l, r => by simp [dropPrefix?]
  | _ :: _, [], r => by simp [dropPrefix?]
  | p :: ps, c :: cs, r => by
    simp only [dropPrefix?, List.cons_append, List.cons.injEq]
    split
    · next h => rw [dropPrefix?_iff ps cs r]; simp [h]
    · next h => simp [Ne.symm h]

theorem relativeRe_iff (l : List Char) :
    relativeRe l = true ↔ ∃ c d rest, l = today ++ c :: d :: rest ∧ (c = '+' ∨ c = ',' ∨ c = '-') ∧ d.isDigit = true := by
  unfold relativeRe
  constructor
  · intro h
    split at h
    · next c d r e =>
      simp only [Bool.and_eq_true, Bool.or_eq_true, decide_eq_true_eq] at h
      exact ⟨c, d, r, (dropPrefix?_iff _ _ _).1 e, by tauto, h.2⟩
    · cases h
  · rintro ⟨c, d, r, rfl, hc, hd⟩
    rw [(dropPrefix?_iff today _ (c :: d :: r)).2 rfl]
    simp only [Bool.and_eq_true, Bool.or_eq_true, decide_eq_true_eq]
    exact ⟨by tauto, hd⟩

theorem mkDate_isSome (y m d : ℕ) : (mkDate y m d).isSome = true ↔ (⟨y, m, d⟩ : PyDate).Exists := by
  unfold mkDate; split <;> simp [*]

theorem fromIso_iff (new : Bool) (s : List Char) : (fromIso new s).isSome = true ↔
    (∃ a, Spec.IsoDate s a) ∨ (new = true ∧ ∃ y m d : List Char, s = y ++ m ++ d ∧ y.length = 4 ∧ m.length = 2 ∧ d.length = 2 ∧
      (∀ c ∈ s, c.isDigit = true) ∧ (⟨Spec.decimal y, Spec.decimal m, Spec.decimal d⟩ : PyDate).Exists) := by
  constructor
  · intro h
    unfold fromIso at h
    split at h
    · next a b c d e f g k =>
      split at h
      · next hd =>
        left
        rw [mkDate_isSome] at h
        refine ⟨_, [a, b, c, d], [e, f], [g, k], rfl, rfl, rfl, rfl, ?_, rfl, by simpa only [digitsVal_eq] using h⟩
        simpa using hd
      · cases h
    · next a b c d e f g k =>
      split at h
      · next hd =>
        right
        rw [Bool.and_eq_true] at hd
        rw [mkDate_isSome] at h
        refine ⟨hd.1, [a, b, c, d], [e, f], [g, k], rfl, rfl, rfl, rfl, ?_, by simpa only [digitsVal_eq] using h⟩
        simpa using hd.2
      · cases h
    · cases h
  · rintro (⟨a, y, m, d, rfl, hy, hm, hd, hdig, rfl, hex⟩ | ⟨hn, y, m, d, rfl, hy, hm, hd, hdig, hex⟩)
    · match y, hy with
      | [y1, y2, y3, y4], _ =>
      match m, hm with
      | [m1, m2], _ =>
      match d, hd with
      | [d1, d2], _ =>
      simp only [List.cons_append, List.nil_append, List.mem_cons, List.not_mem_nil, or_false, forall_eq_or_imp, forall_eq] at hdig
      simp only [← digitsVal_eq] at hex
      simp only [fromIso, List.cons_append, List.nil_append, List.all_cons, hdig, List.all_nil, Bool.and_true, if_true]
      exact (mkDate_isSome _ _ _).2 hex
    · match y, hy with
      | [y1, y2, y3, y4], _ =>
      match m, hm with
      | [m1, m2], _ =>
      match d, hd with
      | [d1, d2], _ =>
      simp only [List.cons_append, List.nil_append, List.mem_cons, List.not_mem_nil, or_false, forall_eq_or_imp, forall_eq] at hdig
      simp only [← digitsVal_eq] at hex
      simp only [fromIso, List.cons_append, List.nil_append, List.all_cons, hdig, List.all_nil, Bool.and_true, if_true, hn]
      exact (mkDate_isSome _ _ _).2 hex

theorem assertValidTime_iff (new : Bool) (s : List Char) : assertValidTime new s = .ok () ↔ Spec.TimeText new s := by
  unfold assertValidTime Spec.TimeText
  by_cases h1 : relativeRe (s.filter (· ≠ ' ')) = true
  · rw [if_pos h1]
    exact ⟨fun _ => Or.inr (Or.inl ((relativeRe_iff _).1 h1)), fun _ => rfl⟩
  · rw [if_neg h1]
    by_cases h2 : s = today
    · rw [if_pos h2]; exact ⟨fun _ => Or.inl h2, fun _ => rfl⟩
    · rw [if_neg h2, ← relativeRe_iff, ← fromIso_iff]
      cases fromIso new s <;> simp_all

theorem assertValidTime_error {new : Bool} {s : List Char} (h : ¬ Spec.TimeText new s) : assertValidTime new s = .error .valueError := by
  rw [← assertValidTime_iff] at h
  revert h
  unfold assertValidTime
  split
  · intro h; exact absurd rfl h
  · split
    · intro h; exact absurd rfl h
    · split
      · intro h; exact absurd rfl h
      · intro _; rfl

theorem cellsize_iff (lo hi c : ℚ) : ConfigValidator.assertValidCellsize lo hi c = .ok () ↔ Spec.WholeCells (hi - lo) c := by
  unfold ConfigValidator.assertValidCellsize Spec.WholeCells
  by_cases hc : c = 0
  · simp [hc]
  · rw [if_neg hc]
    simp only [ne_eq, hc, not_false_eq_true, true_and]
    have h360 : (0 : ℚ) < 360 := by norm_num
    have key : pyMod (pyMod (hi - lo) 360 / c) 1 = 0 ↔ ∃ n : ℤ, pyMod (hi - lo) 360 = c * n := by
      rw [pyMod_eq_zero_iff one_ne_zero]
      constructor
      · rintro ⟨n, h⟩; exact ⟨n, by field_simp at h; linarith⟩
      · rintro ⟨n, h⟩; exact ⟨n, by rw [h]; field_simp⟩
    have : (∃ n k : ℤ, hi - lo = c * n + 360 * k ∧ 360 * (k : ℚ) ≤ hi - lo ∧ hi - lo < 360 * (k + 1)) ↔ ∃ n : ℤ, pyMod (hi - lo) 360 = c * n := by
      constructor
      · rintro ⟨n, k, h1, h2, h3⟩
        have hk : ⌊(hi - lo) / 360⌋ = k := by
          rw [Int.floor_eq_iff, le_div_iff₀ h360, div_lt_iff₀ h360]
          constructor <;> linarith
        exact ⟨n, by unfold pyMod; rw [hk]; linarith⟩
      · rintro ⟨n, h⟩
        unfold pyMod at h
        refine ⟨n, ⌊(hi - lo) / 360⌋, by linarith, ?_, ?_⟩
        · have := Int.floor_le ((hi - lo) / 360)
          rw [le_div_iff₀ h360] at this; linarith
        · have := Int.lt_floor_add_one ((hi - lo) / 360)
          rw [div_lt_iff₀ h360] at this; linarith
    rw [this, ← key]
    split <;> simp_all

theorem isNumber_asNum {v : JVal} {x : Option ℚ} (h : Spec.IsNumber v x) : asNum v = .ok x := by
  rcases h with rfl | ⟨n, rfl, rfl⟩ <;> rfl

theorem get_ok {d : List (String × JVal)} {k : String} {v : JVal} (h : Dict.get? d k = some v) : Dict.get d k = .ok v := by
  unfold Dict.get; rw [h]

/-- What the checks of a well-formed configuration amount to. -/
theorem validate_eq {read : List Char → Py JVal} {new : Bool} {c : JVal} {x : Spec.RegionValues} {ds : List JVal} {p q : ℤ}
    (h : Spec.MeshConfig c x ds p q) : validateMeshConfig read new c = (do
      assertValidTime new x.start
      assertValidTime new x.stop
      assertCellsize x.latMin x.latMax x.height
      assertCellsize x.longMin x.longMax x.width) := by
  have hv := (valid_mesh c).2 ⟨x, ds, p, q, h⟩
  obtain ⟨top, rfl, ⟨r, er, d, rfl, ⟨v1, e1, h1⟩, ⟨v2, e2, h2⟩, ⟨v3, e3, h3⟩, ⟨v4, e4, h4⟩, e5, e6, ⟨v7, e7, h7⟩, ⟨v8, e8, h8⟩, -⟩, -⟩ := h
  unfold validateMeshConfig
  simp only [flexiJson, validateSchema, hv, if_true, bind, Except.bind, getItem, get_ok er, get_ok e1, get_ok e2, get_ok e3, get_ok e4,
    get_ok e5, get_ok e6, get_ok e7, get_ok e8, isNumber_asNum h1, isNumber_asNum h2, isNumber_asNum h3, isNumber_asNum h4,
    isNumber_asNum h7, isNumber_asNum h8, asStr]

/-- The checks of a dictionary that is not well-formed. -/
theorem validate_malformed {read : List Char → Py JVal} {new : Bool} {top : List (String × JVal)}
    (h : ¬ ∃ x ds p q, Spec.MeshConfig (.obj top) x ds p q) : validateMeshConfig read new (.obj top) = .error .validationError := by
  rw [← valid_mesh] at h
  unfold validateMeshConfig
  simp only [flexiJson, validateSchema, h, if_false, bind, Except.bind, Bool.false_eq_true]

theorem assertCellsize_ok {lo hi c : Option ℚ} (h : assertCellsize lo hi c = .ok ()) :
    ∃ a b s, lo = some a ∧ hi = some b ∧ c = some s ∧ Spec.WholeCells (b - a) s := by
  cases lo <;> cases hi <;> cases c <;> simp only [assertCellsize, reduceCtorEq] at h <;> try (split at h <;> cases h)
  exact ⟨_, _, _, rfl, rfl, rfl, (cellsize_iff _ _ _).1 h⟩

theorem bind_unit_ok {a b : Py Unit} : (do a; b) = Except.ok () ↔ a = .ok () ∧ b = .ok () := by
  cases a with
  | error e => simp [bind, Except.bind]
  | ok u => cases u; simp [bind, Except.bind]

/-- C83: a dictionary is accepted as the configuration of a mesh exactly if it is well-formed, its times are
today, relative to today or dates, and the cells fit into the region (after whole turns have been taken away). -/
theorem C83_accepted (read : List Char → Py JVal) (new : Bool) (top : List (String × JVal)) :
    validateMeshConfig read new (.obj top) = .ok () ↔ ∃ y0 y1 x0 x1 W H t0 t1 ds depth least,
      Spec.MeshConfig (.obj top) ⟨some y0, some y1, some x0, some x1, some W, some H, t0, t1⟩ ds depth least ∧
      Spec.TimeText new t0 ∧ Spec.TimeText new t1 ∧ Spec.WholeCells (y1 - y0) H ∧ Spec.WholeCells (x1 - x0) W := by
  constructor
  · intro h
    by_cases hm : ∃ x ds p q, Spec.MeshConfig (.obj top) x ds p q
    · obtain ⟨⟨a1, a2, a3, a4, a5, a6, t0, t1⟩, ds, p, q, hm⟩ := hm
      rw [validate_eq hm, bind_unit_ok, bind_unit_ok, bind_unit_ok] at h
      obtain ⟨h1, h2, h3, h4⟩ := h
      obtain ⟨y0, y1, H, e1, e2, e3, g3⟩ := assertCellsize_ok h3
      obtain ⟨x0, x1, W, e4, e5, e6, g4⟩ := assertCellsize_ok h4
      simp only at e1 e2 e3 e4 e5 e6
      subst e1 e2 e3 e4 e5 e6
      exact ⟨y0, y1, x0, x1, W, H, t0, t1, ds, p, q, hm, (assertValidTime_iff _ _).1 h1, (assertValidTime_iff _ _).1 h2, g3, g4⟩
    · rw [validate_malformed hm] at h; cases h
  · rintro ⟨y0, y1, x0, x1, W, H, t0, t1, ds, p, q, hm, h1, h2, h3, h4⟩
    rw [validate_eq hm, bind_unit_ok, bind_unit_ok, bind_unit_ok]
    exact ⟨(assertValidTime_iff _ _).2 h1, (assertValidTime_iff _ _).2 h2, (cellsize_iff _ _ _).2 h3, (cellsize_iff _ _ _).2 h4⟩

/-- C83, errors: a dictionary that is not accepted raises one of the four errors of the checks. -/
theorem C83_errors (read : List Char → Py JVal) (new : Bool) (top : List (String × JVal)) (e : Err)
    (h : validateMeshConfig read new (.obj top) = .error e) :
    (e = .validationError ∧ ¬ ∃ x ds p q, Spec.MeshConfig (.obj top) x ds p q) ∨
      ((e = .valueError ∨ e = .zeroDivision ∨ e = .assertionError) ∧ ∃ x ds p q, Spec.MeshConfig (.obj top) x ds p q) := by
  by_cases hm : ∃ x ds p q, Spec.MeshConfig (.obj top) x ds p q
  · refine Or.inr ⟨?_, hm⟩
    obtain ⟨x, ds, p, q, hm⟩ := hm
    rw [validate_eq hm] at h
    have ht : ∀ s, assertValidTime new s = .ok () ∨ assertValidTime new s = .error .valueError := by
      intro s
      by_cases hs : Spec.TimeText new s
      · exact Or.inl ((assertValidTime_iff _ _).2 hs)
      · exact Or.inr (assertValidTime_error hs)
    have hc : ∀ a b c, assertCellsize a b c = .ok () ∨ assertCellsize a b c = .error .zeroDivision ∨ assertCellsize a b c = .error .assertionError := by
      intro a b c
      cases a <;> cases b <;> cases c <;> simp only [assertCellsize, ConfigValidator.assertValidCellsize] <;> (try split) <;> (try split) <;> simp
    rcases ht x.start with h1 | h1 <;> rw [h1] at h
    · rcases ht x.stop with h2 | h2 <;> rw [h2] at h
      · rcases hc x.latMin x.latMax x.height with h3 | h3 | h3 <;> rw [h3] at h
        · rcases hc x.longMin x.longMax x.width with h4 | h4 | h4 <;> rw [h4] at h <;> simp [bind, Except.bind] at h <;> simp [← h]
        · simp [bind, Except.bind] at h; simp [← h]
        · simp [bind, Except.bind] at h; simp [← h]
      · simp [bind, Except.bind] at h; simp [← h]
    · simp [bind, Except.bind] at h; simp [← h]
  · rw [validate_malformed hm] at h
    cases h
    exact Or.inl ⟨rfl, hm⟩

/-- C83 fails for files: no configuration given by the name of a file is accepted.  A file with a well-formed
configuration raises `TypeError`. -/
theorem C83_file_raises (read : List Char → Py JVal) (new : Bool) (name : List Char) :
    validateMeshConfig read new (.str name) ≠ .ok () ∧
      ∀ c x ds depth least, read name = .ok c → Spec.MeshConfig c x ds depth least → validateMeshConfig read new (.str name) = .error .typeError := by
  constructor
  · unfold validateMeshConfig
    simp only [flexiJson, getItem, validateSchema]
    cases read name with
    | error e => simp [bind, Except.bind]
    | ok c => by_cases hv : valid meshSchema c = true <;> simp [bind, Except.bind, hv]
  · intro c x ds p q hc hm
    have hv := (valid_mesh c).2 ⟨x, ds, p, q, hm⟩
    unfold validateMeshConfig
    simp [flexiJson, getItem, validateSchema, hc, hv, bind, Except.bind]

/-- C83: a region with any further key is refused, for instance with the `split_depth` that the documentation of
`MeshBuilder` puts there. -/
theorem C83_extra_key (read : List Char → Py JVal) (new : Bool) (top d : List (String × JVal)) (hr : Dict.get? top "region" = some (.obj d))
    (k : String) (v : JVal) (hk : (k, v) ∈ d)
    (hk' : k ∉ ["lat_min", "lat_max", "long_min", "long_max", "start_time", "end_time", "cell_width", "cell_height"]) :
    validateMeshConfig read new (.obj top) = .error .validationError := by
  apply validate_malformed
  rintro ⟨x, ds, p, q, top', e, ⟨r, er, d', rfl, -, -, -, -, -, -, -, -, hkeys⟩, -⟩
  cases e
  rw [hr] at er
  cases er
  exact hk' (hkeys _ hk)

/-- Dates that are read from texts exist. -/
theorem strptime_exists {l : List Char} {a : PyDate} (h : strptime l = some a) : a.Exists := by
  have hmk : ∀ y m d, mkDate y m d = some a → a.Exists := by
    intro y m d h
    unfold mkDate at h
    split at h
    · next he => cases h; exact he
    · cases h
  unfold strptime at h
  split at h
  · split at h
    · split at h
      · split at h
        · exact hmk _ _ _ h
        · cases h
      · cases h
    · cases h
  · cases h

/-- Times are resolved to days of the calendar. -/
theorem parseDatetime_range {now : ℚ} (hn : 1 ≤ ⌊now⌋) (hn' : ⌊now⌋ ≤ maxOrdinal) {s : List Char} {t : ℤ} (h : parseDatetime now s = .ok t) :
    1 ≤ t ∧ t ≤ maxOrdinal := by
  have hs : ∀ q, shift now q = .ok t → 1 ≤ t ∧ t ≤ maxOrdinal := by
    intro q h
    unfold shift at h
    split at h
    · next hr => cases h; exact hr
    · cases h
  unfold parseDatetime at h
  simp only at h
  split at h
  · next a ha => cases h; exact ordinal_range (strptime_exists ha)
  · split at h
    · cases h; exact ⟨hn, hn'⟩
    · split at h
      · cases h
      · split at h
        · split at h
          · exact hs _ h
          · cases h
        · split at h
          · split at h
            · exact hs _ h
            · cases h
          · cases h

/-- The text of a resolved time is the date of its day, or it is refused. -/
theorem rereadTime_ok {pad : Bool} {t m : ℤ} (h1 : 1 ≤ t) (h2 : t ≤ maxOrdinal) (h : rereadTime pad t = .ok m) :
    m = t ∧ Spec.IsoDate (dateText pad (dateOf t)) (dateOf t) ∧ (dateOf t).ordinal = t := by
  obtain ⟨he, ho⟩ := dateOf_spec h1 h2
  by_cases hp : pad = true ∨ 1000 ≤ (dateOf t).y
  · have hi := dateText_iso he hp
    refine ⟨?_, hi, ho⟩
    have h0 := (C42_dates true 0 _ _ hi).2
    unfold rereadTime at h
    split at h
    · next a ha =>
      injection h with h
      have hu : (dateText pad (dateOf t)).map Char.toUpper = dateText pad (dateOf t) := by
        obtain ⟨y, m, d, e, -, -, -, hdig, -⟩ := hi
        rw [e]
        have hc : ∀ c ∈ y ++ '-' :: m ++ '-' :: d, c.toUpper = c := by
          intro c hc
          have : c ∈ y ++ m ++ d ∨ c = '-' := by
            simp only [List.mem_append, List.mem_cons] at hc ⊢; tauto
          rcases this with h | rfl
          · exact toUpper_digit (hdig c h)
          · decide
        exact (List.map_congr_left hc).trans (List.map_id' _)
      unfold parseDatetime at h0
      simp only [hu, ha] at h0
      injection h0 with h0
      rw [← h, h0, ho]
    · cases h
  · unfold rereadTime at h
    rw [dateText_short hp] at h
    cases h

/-- What reading the boundary of a well-formed configuration amounts to. -/
theorem fromJson_eq {pad : Bool} {now : ℚ} {c : JVal} {y0 y1 x0 x1 : ℚ} {W H : Option ℚ} {t0 t1 : List Char} {ds : List JVal} {p q : ℤ}
    (h : Spec.MeshConfig c ⟨some y0, some y1, some x0, some x1, W, H, t0, t1⟩ ds p q) : fromJson pad now c = (do
      let n0 ← parseDatetime now t0
      let n1 ← parseDatetime now t1
      let m0 ← rereadTime pad n0
      let m1 ← rereadTime pad n1
      Boundary.mk? [y0, y1] [x0, x1] [m0, m1]) := by
  obtain ⟨top, rfl, ⟨r, er, d, rfl, ⟨v1, e1, h1⟩, ⟨v2, e2, h2⟩, ⟨v3, e3, h3⟩, ⟨v4, e4, h4⟩, e5, e6, -⟩, -⟩ := h
  have hk : ∀ {k v}, Dict.get? d k = some v → hasKey (.obj d) k = true := by
    intro k v h; simp [hasKey, h]
  unfold fromJson
  simp only [getItem, get_ok er, get_ok e1, get_ok e2, get_ok e3, get_ok e4, bind, Except.bind, hk e5, hk e6, Bool.and_self, if_true, get_ok e5, get_ok e6,
    parseTime, asStr, asCoord, isNumber_asNum h1, isNumber_asNum h2, isNumber_asNum h3, isNumber_asNum h4]

/-- C84: the boundary of an accepted configuration is the region with the resolved times; it exists unless a date
cannot be resolved (`ValueError`, or `OverflowError` outside of the years 1 to 9999) or the region is out of order. -/
theorem C84_boundary (pad : Bool) (now : ℚ) (hn : 1 ≤ ⌊now⌋) (hn' : ⌊now⌋ ≤ maxOrdinal) (c : JVal) (y0 y1 x0 x1 : ℚ) (W H : Option ℚ)
    (t0 t1 : List Char) (ds : List JVal) (depth least : ℤ)
    (h : Spec.MeshConfig c ⟨some y0, some y1, some x0, some x1, W, H, t0, t1⟩ ds depth least) :
    (∃ n0 n1, fromJson pad now c = .ok ⟨y0, y1, x0, x1, [n0, n1]⟩ ∧ parseDatetime now t0 = .ok n0 ∧ parseDatetime now t1 = .ok n1 ∧
      n0 ≤ n1 ∧ y0 ≤ y1 ∧ -180 ≤ x0 ∧ x1 ≤ 180) ∨ fromJson pad now c = .error .valueError ∨ fromJson pad now c = .error .overflowError := by
  have hperr : ∀ s e, parseDatetime now s = .error e → e = .valueError ∨ e = .overflowError := by
    intro s e he
    have hs : ∀ q, shift now q = .error e → e = .valueError ∨ e = .overflowError := by
      intro q h
      unfold shift at h
      split at h <;> cases h
      exact Or.inr rfl
    unfold parseDatetime at he
    simp only at he
    split at he
    · cases he
    · split at he
      · cases he
      · split at he
        · cases he; exact Or.inl rfl
        · split at he
          · split at he
            · exact hs _ he
            · cases he; exact Or.inl rfl
          · split at he
            · split at he
              · exact hs _ he
              · cases he; exact Or.inl rfl
            · cases he; exact Or.inl rfl
  have hrerr : ∀ t e, rereadTime pad t = .error e → e = .valueError := by
    intro t e he
    unfold rereadTime at he
    split at he <;> cases he
    rfl
  rw [fromJson_eq h]
  cases e0 : parseDatetime now t0 with
  | error e => rcases hperr _ _ e0 with rfl | rfl <;> simp [bind, Except.bind]
  | ok n0 =>
    cases e1 : parseDatetime now t1 with
    | error e => rcases hperr _ _ e1 with rfl | rfl <;> simp [bind, Except.bind]
    | ok n1 =>
      cases f0 : rereadTime pad n0 with
      | error e => cases hrerr _ _ f0; simp [bind, Except.bind, f0]
      | ok m0 =>
        cases f1 : rereadTime pad n1 with
        | error e => cases hrerr _ _ f1; simp [bind, Except.bind, f0, f1]
        | ok m1 =>
          obtain ⟨r0, r0'⟩ := parseDatetime_range hn hn' e0
          obtain ⟨r1, r1'⟩ := parseDatetime_range hn hn' e1
          obtain rfl := (rereadTime_ok r0 r0' f0).1
          obtain rfl := (rereadTime_ok r1 r1' f1).1
          simp only [bind, Except.bind, f0, f1]
          cases g : Boundary.mk? [y0, y1] [x0, x1] [m0, m1] with
          | error e => cases C03_rejection_error _ _ _ _ (by simp) g; simp
          | ok b =>
            obtain ⟨a, b', la, c', d', lo, ha, hc, i1, i2, i3, ht, rfl⟩ := (C03_construction_table _ _ _ _).1 g
            cases ha; cases hc
            rcases ht with ht | ⟨s0, s1, ht, hle⟩
            · cases ht
            · cases ht
              exact Or.inl ⟨m0, m1, rfl, rfl, rfl, hle, i1, i2, i3⟩

theorem set_same : ∀ {d : List (String × JVal)} {k : String} {v : JVal}, Dict.get? d k = some v → Dict.set d k v = d
  | [], _, _, h => by cases h
  | (k', v') :: r, k, v, h => by
    unfold Dict.get? at h
    unfold Dict.set
    split
    · next e => rw [if_pos e] at h; cases h; rw [e]
    · next e => rw [if_neg e] at h; rw [set_same h]

theorem mem_set : ∀ {d : List (String × JVal)} {k : String} {v : JVal} {p : String × JVal}, p ∈ Dict.set d k v → p.1 = k ∨ p ∈ d
  | [], k, v, p, h => by simp [Dict.set] at h; left; rw [h]
  | (k', v') :: r, k, v, p, h => by
    unfold Dict.set at h
    split at h
    · rcases List.mem_cons.1 h with rfl | h
      · exact Or.inl rfl
      · exact Or.inr (List.mem_cons_of_mem _ h)
    · rcases List.mem_cons.1 h with rfl | h
      · exact Or.inr List.mem_cons_self
      · rcases mem_set h with h | h
        · exact Or.inl h
        · exact Or.inr (List.mem_cons_of_mem _ h)

/-- The configuration with its region's times replaced. -/
def Spec.withTimes (top d : List (String × JVal)) (s0 s1 : List Char) : JVal :=
  .obj (Dict.set top "region" (.obj (Dict.set (Dict.set d "start_time" (.str s0)) "end_time" (.str s1))))

/-- Replacing the times of a well-formed configuration leaves everything else as it is. -/
theorem withTimes_config {top d : List (String × JVal)} {x : Spec.RegionValues} {ds : List JVal} {p q : ℤ}
    (h : Spec.MeshConfig (.obj top) x ds p q) (hd : Dict.get? top "region" = some (.obj d)) (s0 s1 : List Char) :
    Spec.MeshConfig (Spec.withTimes top d s0 s1) { x with start := s0, stop := s1 } ds p q := by
  obtain ⟨top', e, ⟨r, er, d', rfl, ⟨v1, e1, h1⟩, ⟨v2, e2, h2⟩, ⟨v3, e3, h3⟩, ⟨v4, e4, h4⟩, e5, e6, ⟨v7, e7, h7⟩, ⟨v8, e8, h8⟩, hk⟩, h9, h10, s, h11, h12⟩ := h
  cases e
  rw [hd] at er
  cases er
  refine ⟨_, rfl, ⟨.obj (Dict.set (Dict.set d "start_time" (.str s0)) "end_time" (.str s1)), ?_, _, rfl, ⟨v1, ?_, h1⟩, ⟨v2, ?_, h2⟩, ⟨v3, ?_, h3⟩, ⟨v4, ?_, h4⟩, ?_, ?_, ⟨v7, ?_, h7⟩, ⟨v8, ?_, h8⟩, ?_⟩, ?_, h10, s, ?_, h12⟩
  · rw [Dict.get?_set, if_pos rfl]
  all_goals try (simp only [Dict.get?_set, String.reduceEq, if_false, if_true, *])
  intro pr hpr
  rcases mem_set hpr with h | h
  · rw [h]; decide
  · rcases mem_set h with h | h
    · rw [h]; decide
    · exact hk _ h

/-- What the first part of building a mesh amounts to for a configuration that is accepted. -/
theorem prepare_eq {read : List Char → Py JVal} {new pad : Bool} {now : ℚ} {top d : List (String × JVal)} {y0 y1 x0 x1 W H : ℚ} {t0 t1 : List Char}
    {ds : List JVal} {p q : ℤ}
    (hm : Spec.MeshConfig (.obj top) ⟨some y0, some y1, some x0, some x1, some W, some H, t0, t1⟩ ds p q)
    (hd : Dict.get? top "region" = some (.obj d)) (hv : validateMeshConfig read new (.obj top) = .ok ()) :
    prepare read new pad now (.obj top) = (do
      let b ← fromJson pad now (.obj top)
      let s0 ← boundTime pad b 0
      let s1 ← boundTime pad b 1
      MeshBuilder.validateBounds b W H
      return (b, W, H, .obj (Dict.set top "region" (.obj (Dict.set (Dict.set d "start_time" s0) "end_time" s1))))) := by
  obtain ⟨top', e, ⟨r, er, d', rfl, -, -, -, -, -, -, ⟨v7, e7, h7⟩, ⟨v8, e8, h8⟩, -⟩, -⟩ := hm
  cases e
  rw [hd] at er
  cases er
  unfold prepare
  simp only [hv, bind, Except.bind, getItem, get_ok hd, setItem]
  cases fromJson pad now (.obj top) with
  | error e => rfl
  | ok b =>
    cases e0 : boundTime pad b 0 with
    | error e => simp [e0]
    | ok s0 =>
      cases e1 : boundTime pad b 1 with
      | error e => simp [e0, e1]
      | ok s1 =>
        have g7 : Dict.get? (Dict.set (Dict.set d "start_time" s0) "end_time" s1) "cell_width" = some v7 := by
          simp only [Dict.get?_set, String.reduceEq, if_false, e7]
        have g8 : Dict.get? (Dict.set (Dict.set d "start_time" s0) "end_time" s1) "cell_height" = some v8 := by
          simp only [Dict.get?_set, String.reduceEq, if_false, e8]
        simp only [e0, e1, get_ok g7, get_ok g8, asCoord, isNumber_asNum h7, isNumber_asNum h8, bind, Except.bind]

/-- Everything that is known once the first part of building a mesh has succeeded. -/
theorem prepare_ok {read : List Char → Py JVal} {new pad : Bool} {now : ℚ} (hn : 1 ≤ ⌊now⌋) (hn' : ⌊now⌋ ≤ maxOrdinal) {c c' : JVal} {b : Boundary}
    {W H : ℚ} (h : prepare read new pad now c = .ok (b, W, H, c')) :
    ∃ top d t0 t1 ds p q n0 n1, c = .obj top ∧ Dict.get? top "region" = some (.obj d) ∧
      Spec.MeshConfig (.obj top) ⟨some b.latMin, some b.latMax, some b.longMin, some b.longMax, some W, some H, t0, t1⟩ ds p q ∧
      Spec.WholeCells (b.latMax - b.latMin) H ∧ Spec.WholeCells (b.longMax - b.longMin) W ∧
      parseDatetime now t0 = .ok n0 ∧ parseDatetime now t1 = .ok n1 ∧ rereadTime pad n0 = .ok n0 ∧ rereadTime pad n1 = .ok n1 ∧
      b.time = [n0, n1] ∧ Boundary.mk? [b.latMin, b.latMax] [b.longMin, b.longMax] [n0, n1] = .ok b ∧ MeshBuilder.validateBounds b W H = .ok () ∧
      c' = Spec.withTimes top d (dateText pad (dateOf n0)) (dateText pad (dateOf n1)) := by
  have hv : validateMeshConfig read new c = .ok () := by
    cases hv : validateMeshConfig read new c with
    | error e => simp [prepare, hv, bind, Except.bind] at h
    | ok u => rfl
  have hobj : ∃ top, c = .obj top := by
    cases c with
    | obj top => exact ⟨top, rfl⟩
    | str s => exact absurd hv (C83_file_raises read new s).1
    | _ => simp [validateMeshConfig, flexiJson, bind, Except.bind] at hv
  obtain ⟨top, rfl⟩ := hobj
  obtain ⟨y0, y1, x0, x1, W', H', t0, t1, ds, p, q, hm, ht0, ht1, hh, hw⟩ := (C83_accepted _ _ _).1 hv
  have hd : ∃ d, Dict.get? top "region" = some (.obj d) := by
    obtain ⟨top', e, ⟨r, er, d, rfl, -⟩, -⟩ := id hm
    cases e; exact ⟨d, er⟩
  obtain ⟨d, hd⟩ := hd
  rw [prepare_eq hm hd hv] at h
  have hf := fromJson_eq (pad := pad) (now := now) hm
  rcases C84_boundary pad now hn hn' _ _ _ _ _ _ _ _ _ _ _ _ hm with ⟨n0, n1, hb, hp0, hp1, hle, i1, i2, i3⟩ | hb | hb
  · rw [hb] at h hf
    have f0 : ∃ m0, rereadTime pad n0 = .ok m0 := by
      cases hr : rereadTime pad n0 with
      | ok m => exact ⟨m, rfl⟩
      | error e => simp [hp0, hp1, hr, bind, Except.bind] at hf
    obtain ⟨m0, f0⟩ := f0
    have f1 : ∃ m1, rereadTime pad n1 = .ok m1 := by
      cases hr : rereadTime pad n1 with
      | ok m => exact ⟨m, rfl⟩
      | error e => simp [hp0, hp1, f0, hr, bind, Except.bind] at hf
    obtain ⟨m1, f1⟩ := f1
    obtain ⟨r0, r0'⟩ := parseDatetime_range hn hn' hp0
    obtain ⟨r1, r1'⟩ := parseDatetime_range hn hn' hp1
    obtain rfl := (rereadTime_ok r0 r0' f0).1
    obtain rfl := (rereadTime_ok r1 r1' f1).1
    simp only [hp0, hp1, f0, f1, bind, Except.bind] at hf
    have b0 : boundTime pad ⟨y0, y1, x0, x1, [m0, m1]⟩ 0 = .ok (.str (dateText pad (dateOf m0))) := rfl
    have b1 : boundTime pad ⟨y0, y1, x0, x1, [m0, m1]⟩ 1 = .ok (.str (dateText pad (dateOf m1))) := rfl
    simp only [bind, Except.bind, b0, b1, pure, Except.pure] at h
    cases hvb : MeshBuilder.validateBounds ⟨y0, y1, x0, x1, [m0, m1]⟩ W' H' with
    | error e => rw [hvb] at h; cases h
    | ok u =>
      rw [hvb] at h
      simp only [Except.ok.injEq, Prod.mk.injEq] at h
      obtain ⟨rfl, rfl, rfl, rfl⟩ := h
      exact ⟨top, d, t0, t1, ds, p, q, m0, m1, rfl, hd, hm, hh, hw, hp0, hp1, f0, f1, rfl, hf.symm, hvb, rfl⟩
  · rw [hb] at h; cases h
  · rw [hb] at h; cases h

/-- C84: the configuration kept by a mesh reproduces it.  Building again from the configuration that `MeshBuilder`
has left behind, at any later time, gives the same boundary, the same sizes of cells and the same configuration. -/
theorem C84_rebuild (read read' : List Char → Py JVal) (new new' pad : Bool) (now now' : ℚ) (hn : 1 ≤ ⌊now⌋) (hn' : ⌊now⌋ ≤ maxOrdinal) (c c' : JVal)
    (b : Boundary) (W H : ℚ) (h : prepare read new pad now c = .ok (b, W, H, c')) :
    prepare read' new' pad now' c' = .ok (b, W, H, c') := by
  obtain ⟨top, d, t0, t1, ds, p, q, n0, n1, rfl, hd, hm, hh, hw, hp0, hp1, f0, f1, hbt, hmk, hvb, rfl⟩ := prepare_ok hn hn' h
  obtain ⟨r0, r0'⟩ := parseDatetime_range hn hn' hp0
  obtain ⟨r1, r1'⟩ := parseDatetime_range hn hn' hp1
  obtain ⟨-, i0, o0⟩ := rereadTime_ok r0 r0' f0
  obtain ⟨-, i1, o1⟩ := rereadTime_ok r1 r1' f1
  have hm' := withTimes_config hm hd (dateText pad (dateOf n0)) (dateText pad (dateOf n1))
  have hv' : validateMeshConfig read' new' (Spec.withTimes top d (dateText pad (dateOf n0)) (dateText pad (dateOf n1))) = .ok () :=
    (C83_accepted _ _ _).2 ⟨_, _, _, _, _, _, _, _, _, _, _, hm', Or.inr (Or.inr (Or.inl ⟨_, i0⟩)), Or.inr (Or.inr (Or.inl ⟨_, i1⟩)), hh, hw⟩
  have hd' : Dict.get? (Dict.set top "region" (.obj (Dict.set (Dict.set d "start_time" (.str (dateText pad (dateOf n0)))) "end_time" (.str (dateText pad (dateOf n1))))))
      "region" = some (.obj (Dict.set (Dict.set d "start_time" (.str (dateText pad (dateOf n0)))) "end_time" (.str (dateText pad (dateOf n1))))) := by
    rw [Dict.get?_set, if_pos rfl]
  have p0 := (C42_dates new' now' _ _ i0).2
  have p1 := (C42_dates new' now' _ _ i1).2
  rw [o0] at p0
  rw [o1] at p1
  have hfj : fromJson pad now' (Spec.withTimes top d (dateText pad (dateOf n0)) (dateText pad (dateOf n1))) = .ok b := by
    rw [fromJson_eq hm']
    simp only [p0, p1, f0, f1, bind, Except.bind, hmk]
  have b0 : boundTime pad b 0 = .ok (.str (dateText pad (dateOf n0))) := by simp [boundTime, hbt]
  have b1 : boundTime pad b 1 = .ok (.str (dateText pad (dateOf n1))) := by simp [boundTime, hbt]
  unfold Spec.withTimes at hm' hv' hfj ⊢
  rw [prepare_eq hm' hd' hv', hfj]
  simp only [bind, Except.bind, b0, b1, hvb, pure, Except.pure]
  have e1 : ∀ (s0 s1 : JVal), Dict.set (Dict.set (Dict.set (Dict.set d "start_time" s0) "end_time" s1) "start_time" s0) "end_time" s1 =
      Dict.set (Dict.set d "start_time" s0) "end_time" s1 := by
    intro s0 s1
    rw [set_same (d := Dict.set (Dict.set d "start_time" s0) "end_time" s1) (k := "start_time"), set_same]
    · simp only [Dict.get?_set, if_true]
    · simp only [Dict.get?_set, String.reduceEq, if_false, if_true]
  rw [e1, set_same hd']

/-- C84: of the configuration given by the user only the two times are changed, and they become dates: those of the
days into which the times were resolved when the mesh was built. -/
theorem C84_kept (read : List Char → Py JVal) (new pad : Bool) (now : ℚ) (hn : 1 ≤ ⌊now⌋) (hn' : ⌊now⌋ ≤ maxOrdinal) (c c' : JVal)
    (b : Boundary) (W H : ℚ) (h : prepare read new pad now c = .ok (b, W, H, c')) :
    ∃ top top' d d' t0 t1 a0 a1 s0 s1, c = .obj top ∧ c' = .obj top' ∧ Dict.get? top "region" = some (.obj d) ∧ Dict.get? top' "region" = some (.obj d') ∧
      (∀ k, k ≠ "region" → Dict.get? top' k = Dict.get? top k) ∧
      (∀ k, k ≠ "start_time" → k ≠ "end_time" → Dict.get? d' k = Dict.get? d k) ∧
      Dict.get? d "start_time" = some (.str t0) ∧ Dict.get? d "end_time" = some (.str t1) ∧
      parseDatetime now t0 = .ok a0.ordinal ∧ parseDatetime now t1 = .ok a1.ordinal ∧
      Dict.get? d' "start_time" = some (.str s0) ∧ Dict.get? d' "end_time" = some (.str s1) ∧
      Spec.IsoDate s0 a0 ∧ Spec.IsoDate s1 a1 ∧ b.time = [a0.ordinal, a1.ordinal] := by
  obtain ⟨top, d, t0, t1, ds, p, q, n0, n1, rfl, hd, hm, hh, hw, hp0, hp1, f0, f1, hbt, hmk, hvb, rfl⟩ := prepare_ok hn hn' h
  obtain ⟨r0, r0'⟩ := parseDatetime_range hn hn' hp0
  obtain ⟨r1, r1'⟩ := parseDatetime_range hn hn' hp1
  obtain ⟨-, i0, o0⟩ := rereadTime_ok r0 r0' f0
  obtain ⟨-, i1, o1⟩ := rereadTime_ok r1 r1' f1
  obtain ⟨top', e, ⟨r, er, d', rfl, -, -, -, -, e5, e6, -⟩, -⟩ := id hm
  cases e
  rw [hd] at er
  cases er
  refine ⟨top, _, d, Dict.set (Dict.set d "start_time" (.str (dateText pad (dateOf n0)))) "end_time" (.str (dateText pad (dateOf n1))), t0, t1, dateOf n0,
    dateOf n1, _, _, rfl, rfl, hd, ?_, ?_, ?_, e5, e6, by rw [o0]; exact hp0, by rw [o1]; exact hp1, ?_, ?_, i0, i1,
    by rw [o0, o1]; exact hbt⟩
  · rw [Dict.get?_set, if_pos rfl]
  · intro k hk; rw [Dict.get?_set, if_neg (Ne.symm hk)]
  · intro k h1 h2; rw [Dict.get?_set, if_neg (Ne.symm h2), Dict.get?_set, if_neg (Ne.symm h1)]
  · simp only [Dict.get?_set, String.reduceEq, if_false, if_true]
  · simp only [Dict.get?_set, if_true]

theorem isInteger_asNum {v : JVal} {n : ℤ} (h : Spec.IsInteger v n) : asNum v = .ok (some (n : ℚ)) := by
  rcases h with rfl | rfl <;> rfl

/-- C84: everything else that building a mesh reads exists in an accepted configuration: the loader and the parameters of
each data source, and the numbers of the splitting section.  A negative minimum number of datapoints, which is accepted,
raises `ValueError`. -/
theorem C84_reads (c : JVal) (x : Spec.RegionValues) (ds : List JVal) (depth least : ℤ) (h : Spec.MeshConfig c x ds depth least) :
    (∃ l, readSources c = .ok l ∧ List.Forall₂ (fun s r => ∃ d name params, s = .obj d ∧ Dict.get? d "loader" = some (.str name) ∧
      Dict.get? d "params" = some (.obj params) ∧ r = (.str name, .obj params)) ds l) ∧
    readSplitDepth c = .ok (some (depth : ℚ)) ∧
    readMinDatapoints c = (if least < 0 then .error .valueError else .ok (some (least : ℚ))) := by
  obtain ⟨top, rfl, -, h9, h10, s, h11, d, rfl, ⟨v1, e1, i1⟩, ⟨v2, e2, i2⟩, -⟩ := h
  have hs : hasKey (.obj top) "splitting" = true := by simp [hasKey, h11]
  have hds : hasKey (.obj top) "data_sources" = true := by simp [hasKey, h9]
  refine ⟨?_, ?_, ?_⟩
  · unfold readSources
    simp only [hds, if_true, getItem, get_ok h9, bind, Except.bind]
    clear h9
    induction ds with
    | nil => exact ⟨[], rfl, .nil⟩
    | cons s r ih =>
      obtain ⟨l, hl, hf⟩ := ih (fun s hs => h10 s (List.mem_cons_of_mem _ hs))
      obtain ⟨d', rfl, ⟨name, en⟩, ⟨params, ep⟩, -⟩ := h10 s List.mem_cons_self
      refine ⟨(.str name, .obj params) :: l, ?_, .cons ⟨d', name, params, rfl, en, ep, rfl⟩ hf⟩
      rw [List.mapM_cons, hl]
      simp only [readSource, getItem, get_ok en, get_ok ep, bind, Except.bind, pure, Except.pure]
  · unfold readSplitDepth
    simp only [hs, if_true, getItem, get_ok h11, get_ok e1, bind, Except.bind, isInteger_asNum i1]
  · unfold readMinDatapoints
    simp only [hs, if_true, getItem, get_ok h11, get_ok e2, bind, Except.bind, isInteger_asNum i2]
    have : ((least : ℚ) < 0) ↔ least < 0 := by exact_mod_cast Iff.rfl
    simp only [this]

/-- A configuration with relative times, with a data source. -/
def exMeshConfig (start stop : List Char) : JVal :=
  .obj [("region", .obj [("lat_min", .int (-60)), ("lat_max", .int (-50)), ("long_min", .int 160), ("long_max", .int (-170)),
      ("start_time", .str start), ("end_time", .str stop), ("cell_width", .int 5), ("cell_height", .flt (some (5/2)))]),
    ("data_sources", .arr [.obj [("loader", .str ['g', 'e', 'b', 'c', 'o']), ("params", .obj [("min_dp", .int 3)])]]),
    ("splitting", .obj [("split_depth", .int 2), ("minimum_datapoints", .flt (some 5))]),
    ("comment", .null)]

theorem exMeshConfig_wf (start stop : List Char) :
    Spec.MeshConfig (exMeshConfig start stop) ⟨some (-60), some (-50), some 160, some (-170), some 5, some (5/2), start, stop⟩
      [.obj [("loader", .str ['g', 'e', 'b', 'c', 'o']), ("params", .obj [("min_dp", .int 3)])]] 2 5 := by
  refine ⟨_, rfl, ⟨_, rfl, _, rfl, ⟨_, rfl, Or.inr ⟨-60, rfl, by norm_num⟩⟩, ⟨_, rfl, Or.inr ⟨-50, rfl, by norm_num⟩⟩,
    ⟨_, rfl, Or.inr ⟨160, rfl, by norm_num⟩⟩, ⟨_, rfl, Or.inr ⟨-170, rfl, by norm_num⟩⟩, rfl, rfl, ⟨_, rfl, Or.inr ⟨5, rfl, by norm_num⟩⟩,
    ⟨_, rfl, Or.inl rfl⟩, ?_⟩, rfl, ?_, _, rfl, _, rfl, ⟨_, rfl, Or.inl rfl⟩, ⟨_, rfl, Or.inr ?_⟩, ?_⟩
  · simp [Spec.OnlyKeys]
  · intro s hs
    rw [List.mem_singleton] at hs
    subst hs
    exact ⟨_, rfl, ⟨_, rfl⟩, ⟨_, rfl⟩, by simp [Spec.OnlyKeys]⟩
  · norm_num
  · simp [Spec.OnlyKeys]

/-- Checks of `C83_accepted` and `C84_boundary` on `TODAY` to `TODAY + 3`, seen on the 20th of October 2025. -/
example (read : List Char → Py JVal) (new : Bool) :
    validateMeshConfig read new (exMeshConfig "TODAY".toList "TODAY + 3".toList) = .ok () ∧
      (fromJson false (739544 + 1/2) (exMeshConfig "TODAY".toList "TODAY + 3".toList)).toOption = some ⟨-60, -50, 160, -170, [739544, 739547]⟩ := by
  refine ⟨?_, by decide +kernel⟩
  rw [validate_eq (exMeshConfig_wf _ _)]
  cases new <;> decide +kernel

/-- A run to which `C84_rebuild` and `C84_kept` apply. -/
example (read : List Char → Py JVal) (new : Bool) :
    (1 : ℤ) ≤ ⌊(739544 + 1/2 : ℚ)⌋ ∧ ⌊(739544 + 1/2 : ℚ)⌋ ≤ maxOrdinal ∧
    prepare read new false (739544 + 1/2) (exMeshConfig "TODAY".toList "TODAY + 3".toList) =
      .ok (⟨-60, -50, 160, -170, [739544, 739547]⟩, 5, 5/2, exMeshConfig "2025-10-20".toList "2025-10-23".toList) := by
  refine ⟨by decide +kernel, by decide +kernel, ?_⟩
  have hv : validateMeshConfig read new (exMeshConfig "TODAY".toList "TODAY + 3".toList) = .ok () := by
    rw [validate_eq (exMeshConfig_wf _ _)]
    cases new <;> decide +kernel
  have hf : fromJson false (739544 + 1/2) (exMeshConfig "TODAY".toList "TODAY + 3".toList) = .ok ⟨-60, -50, 160, -170, [739544, 739547]⟩ := by
    decide +kernel
  unfold exMeshConfig at hv hf ⊢
  rw [prepare_eq (exMeshConfig_wf _ _) rfl hv, hf]
  have e0 : dateText false (dateOf 739544) = "2025-10-20".toList := by decide +kernel
  have e1 : dateText false (dateOf 739547) = "2025-10-23".toList := by decide +kernel
  have b0 : boundTime false ⟨-60, -50, 160, -170, [739544, 739547]⟩ 0 = .ok (.str "2025-10-20".toList) := by rw [← e0]; rfl
  have b1 : boundTime false ⟨-60, -50, 160, -170, [739544, 739547]⟩ 1 = .ok (.str "2025-10-23".toList) := by rw [← e1]; rfl
  have hb : MeshBuilder.validateBounds ⟨-60, -50, 160, -170, [739544, 739547]⟩ 5 (5/2) = .ok () := by decide +kernel
  simp only [bind, Except.bind, b0, b1, hb]
  rfl

/-- A region as in the documentation of `MeshBuilder`, with a `split_depth`, to which `C83_extra_key` applies. -/
example (read : List Char → Py JVal) (new : Bool) (d : List (String × JVal)) :
    validateMeshConfig read new (.obj [("region", .obj (("split_depth", .int 4) :: d)), ("data_sources", .arr [])]) = .error .validationError :=
  C83_extra_key read new _ _ rfl "split_depth" _ List.mem_cons_self (by decide)

/-- C84 fails for years before 1000 on Linux: an accepted date has no boundary there. -/
theorem C84_early_years_raise : ∃ c, (∀ read new, validateMeshConfig read new c = .ok ()) ∧ ∀ now, fromJson false now c = .error .valueError := by
  refine ⟨exMeshConfig "0999-12-31".toList "1000-01-01".toList, ?_, ?_⟩
  · intro read new
    rw [validate_eq (exMeshConfig_wf _ _)]
    cases new <;> decide +kernel
  · intro now
    rw [fromJson_eq (exMeshConfig_wf _ _)]
    have i0 : Spec.IsoDate "0999-12-31".toList ⟨999, 12, 31⟩ :=
      ⟨['0', '9', '9', '9'], ['1', '2'], ['3', '1'], by decide +kernel, rfl, rfl, rfl, by decide, by decide, by decide⟩
    have i1 : Spec.IsoDate "1000-01-01".toList ⟨1000, 1, 1⟩ :=
      ⟨['1', '0', '0', '0'], ['0', '1'], ['0', '1'], by decide +kernel, rfl, rfl, rfl, by decide, by decide, by decide⟩
    rw [(C42_dates true now _ _ i0).2, (C42_dates true now _ _ i1).2]
    have : rereadTime false (⟨999, 12, 31⟩ : PyDate).ordinal = .error .valueError := by decide +kernel
    simp only [bind, Except.bind, this]

/-- C84 fails for the minimum number of datapoints: a negative one is accepted and then refused by every cell. -/
theorem C84_negative_minimum_raises : ∃ c, (∀ read new, validateMeshConfig read new c = .ok ()) ∧ readMinDatapoints c = .error .valueError := by
  refine ⟨.obj [("region", .obj [("lat_min", .int (-60)), ("lat_max", .int (-50)), ("long_min", .int 160), ("long_max", .int (-170)),
      ("start_time", .str today), ("end_time", .str today), ("cell_width", .int 5), ("cell_height", .int 5)]), ("data_sources", .arr []),
      ("splitting", .obj [("split_depth", .int 2), ("minimum_datapoints", .int (-5))])], ?_, by decide +kernel⟩
  intro read new
  rw [C83_accepted]
  refine ⟨-60, -50, 160, -170, 5, 5, today, today, [], 2, -5, ⟨_, rfl, ⟨_, rfl, _, rfl, ⟨_, rfl, Or.inr ⟨-60, rfl, by norm_num⟩⟩,
    ⟨_, rfl, Or.inr ⟨-50, rfl, by norm_num⟩⟩, ⟨_, rfl, Or.inr ⟨160, rfl, by norm_num⟩⟩, ⟨_, rfl, Or.inr ⟨-170, rfl, by norm_num⟩⟩, rfl, rfl,
    ⟨_, rfl, Or.inr ⟨5, rfl, by norm_num⟩⟩, ⟨_, rfl, Or.inr ⟨5, rfl, by norm_num⟩⟩, by simp [Spec.OnlyKeys]⟩, rfl, by simp, _, rfl, _, rfl,
    ⟨_, rfl, Or.inl rfl⟩, ⟨_, rfl, Or.inl rfl⟩, by simp [Spec.OnlyKeys]⟩, Or.inl rfl, Or.inl rfl, ⟨by norm_num, 2, 0, by norm_num, by norm_num, by norm_num⟩,
    ⟨by norm_num, 6, -1, by norm_num, by norm_num, by norm_num⟩⟩

/-- What is validated: the dictionary itself, or the content of the file that is named. -/
def Spec.GivenValue (read : List Char → Py JVal) (c j : JVal) : Prop := (∃ d, c = .obj d ∧ j = c) ∨ ∃ name, c = .str name ∧ read name = .ok j

theorem flexi_valid (read : List Char → Py JVal) (s : Schema) (c : JVal) :
    (do validateSchema s (← flexiJson read c)) = Except.ok () ↔ ∃ j, Spec.GivenValue read c j ∧ valid s j = true := by
  have hv : ∀ j, validateSchema s j = .ok () ↔ valid s j = true := by
    intro j; unfold validateSchema; split <;> simp_all
  cases c with
  | obj d =>
    simp only [flexiJson, bind, Except.bind, hv, Spec.GivenValue]
    constructor
    · intro h; exact ⟨_, Or.inl ⟨d, rfl, rfl⟩, h⟩
    · rintro ⟨j, ⟨d', e, rfl⟩ | ⟨name, e, -⟩, h⟩
      · exact h
      · cases e
  | str name =>
    simp only [flexiJson, bind, Except.bind, Spec.GivenValue]
    cases e : read name with
    | error x =>
      simp only [reduceCtorEq, false_iff]
      rintro ⟨j, ⟨d', e', -⟩ | ⟨name', e', h'⟩, h⟩
      · cases e'
      · cases e'; rw [e] at h'; cases h'
    | ok j =>
      simp only [hv]
      constructor
      · intro h; exact ⟨j, Or.inr ⟨name, rfl, e⟩, h⟩
      · rintro ⟨j', ⟨d', e', -⟩ | ⟨name', e', h'⟩, h⟩
        · cases e'
        · cases e'; rw [e] at h'; cases h'; exact h
  | _ => simp [flexiJson, bind, Except.bind, Spec.GivenValue]

/-- A value that is a number which, unless it is `NaN`, satisfies `P`. -/
def Spec.NumberWith (d : List (String × JVal)) (k : String) (P : ℚ → Prop) : Prop :=
  ∃ v x, Dict.get? d k = some v ∧ Spec.IsNumber v x ∧ ∀ q, x = some q → P q

/-- A vessel. -/
def Spec.Vessel (c : JVal) : Prop :=
  ∃ d, c = .obj d ∧ (∃ s, Dict.get? d "VesselType" = some (.str s)) ∧ Spec.NumberWith d "MaxSpeed" (0 ≤ ·) ∧ (∃ s, Dict.get? d "Unit" = some (.str s)) ∧
    Spec.NumberWith d "MaxIceConc" (fun q => 0 ≤ q ∧ q ≤ 100) ∧ Spec.NumberWith d "MinDepth" (0 ≤ ·)

theorem valid_num (lo hi : Option ℚ) (v : JVal) : valid (.num lo hi) v = true ↔
    ∃ x, Spec.IsNumber v x ∧ ∀ q, x = some q → (∀ l, lo = some l → l ≤ q) ∧ ∀ h, hi = some h → q ≤ h := by
  have hr : ∀ x : Option ℚ, inRange lo hi x = true ↔ ∀ q, x = some q → (∀ l, lo = some l → l ≤ q) ∧ ∀ h, hi = some h → q ≤ h := by
    intro x
    cases x with
    | none => simp [inRange]
    | some q => cases lo <;> cases hi <;> simp [inRange]
  cases v with
  | flt x => simp only [valid, hr, Spec.IsNumber, JVal.flt.injEq, reduceCtorEq, false_and, exists_false, or_false, exists_eq_left']
  | int n =>
    simp only [valid, hr, Spec.IsNumber, reduceCtorEq, false_or, JVal.int.injEq]
    constructor
    · intro h; exact ⟨_, ⟨n, rfl, rfl⟩, h⟩
    · rintro ⟨x, ⟨m, rfl, rfl⟩, h⟩; exact h
  | _ => simp [valid, Spec.IsNumber]

theorem valid_vessel (c : JVal) : valid vesselSchema c = true ↔ Spec.Vessel c := by
  cases c with
  | obj d =>
    unfold vesselSchema
    simp only [valid, validProps, List.all_cons, List.all_nil, Bool.and_true, Bool.and_eq_true, Bool.true_or]
    constructor
    · rintro ⟨⟨a1, a2, a3, a4, a5⟩, b1, b2, b3, b4, b5⟩
      obtain ⟨v1, e1, h1⟩ := (member_iff (.str none) _ _).1 ⟨a1, b1⟩
      obtain ⟨v2, e2, h2⟩ := (member_iff (.num (some 0) none) _ _).1 ⟨a2, b2⟩
      obtain ⟨v3, e3, h3⟩ := (member_iff (.str none) _ _).1 ⟨a3, b3⟩
      obtain ⟨v4, e4, h4⟩ := (member_iff (.num (some 0) (some 100)) _ _).1 ⟨a4, b4⟩
      obtain ⟨v5, e5, h5⟩ := (member_iff (.num (some 0) none) _ _).1 ⟨a5, b5⟩
      obtain ⟨s1, rfl⟩ := (valid_str _).1 h1
      obtain ⟨x2, i2, h2⟩ := (valid_num _ _ _).1 h2
      obtain ⟨s3, rfl⟩ := (valid_str _).1 h3
      obtain ⟨x4, i4, h4⟩ := (valid_num _ _ _).1 h4
      obtain ⟨x5, i5, h5⟩ := (valid_num _ _ _).1 h5
      exact ⟨d, rfl, ⟨s1, e1⟩, ⟨v2, x2, e2, i2, fun q hq => (h2 q hq).1 0 rfl⟩, ⟨s3, e3⟩,
        ⟨v4, x4, e4, i4, fun q hq => ⟨(h4 q hq).1 0 rfl, (h4 q hq).2 100 rfl⟩⟩, ⟨v5, x5, e5, i5, fun q hq => (h5 q hq).1 0 rfl⟩⟩
    · rintro ⟨d', e, ⟨s1, e1⟩, ⟨v2, x2, e2, i2, h2⟩, ⟨s3, e3⟩, ⟨v4, x4, e4, i4, h4⟩, ⟨v5, x5, e5, i5, h5⟩⟩
      cases e
      have g2 : valid (.num (some 0) none) v2 = true := (valid_num _ _ _).2 ⟨x2, i2, fun q hq => ⟨fun l hl => by cases hl; exact h2 q hq, by simp⟩⟩
      have g4 : valid (.num (some 0) (some 100)) v4 = true := (valid_num _ _ _).2 ⟨x4, i4, fun q hq =>
        ⟨fun l hl => by cases hl; exact (h4 q hq).1, fun l hl => by cases hl; exact (h4 q hq).2⟩⟩
      have g5 : valid (.num (some 0) none) v5 = true := (valid_num _ _ _).2 ⟨x5, i5, fun q hq => ⟨fun l hl => by cases hl; exact h5 q hq, by simp⟩⟩
      refine ⟨?_, ?_⟩
      · simp [e1, e2, e3, e4, e5]
      · simp only [e1, e2, e3, e4, e5, g2, g4, g5, (valid_str _).2 ⟨_, rfl⟩, and_self]
  | _ => simp [vesselSchema, valid, Spec.Vessel]

/-- C85, vessels: what is accepted as a vessel. -/
theorem C85_vessel (read : List Char → Py JVal) (c : JVal) :
    validateVesselConfig read c = .ok () ↔ ∃ j, Spec.GivenValue read c j ∧ Spec.Vessel j := by
  unfold validateVesselConfig
  rw [flexi_valid]
  simp only [valid_vessel]

/-- The limits of the vessel schema do not stop `NaN`, which `json.load` reads. -/
theorem C85_nan_accepted : ∃ d : List (String × JVal), Dict.get? d "MaxIceConc" = some (.flt none) ∧ Dict.get? d "MaxSpeed" = some (.flt none) ∧
    ∀ read, validateVesselConfig read (.obj d) = .ok () := by
  refine ⟨[("VesselType", .str ['S', 'D', 'A']), ("MaxSpeed", .flt none), ("Unit", .str ['k', 'm']), ("MaxIceConc", .flt none), ("MinDepth", .int 10)],
    rfl, rfl, ?_⟩
  intro read
  rw [C85_vessel]
  exact ⟨_, Or.inl ⟨_, rfl, rfl⟩, _, rfl, ⟨_, rfl⟩, ⟨_, none, rfl, Or.inl rfl, by simp⟩, ⟨_, rfl⟩, ⟨_, none, rfl, Or.inl rfl, by simp⟩,
    ⟨_, some 10, rfl, Or.inr ⟨10, rfl, by norm_num⟩, by simp⟩⟩

/-- The texts in a list. -/
def Spec.Texts (v : JVal) (l : List (List Char)) : Prop := v = .arr (l.map .str)

/-- A value under a key that need not be there. -/
def Spec.Optional (d : List (String × JVal)) (k : String) (P : JVal → Prop) : Prop := ∀ v, Dict.get? d k = some v → P v

/-- The configuration of a route. -/
def Spec.Route (c : JVal) : Prop :=
  ∃ d, c = .obj d ∧ (∃ s, Dict.get? d "objective_function" = some (.str s)) ∧
    (∃ v l, Dict.get? d "path_variables" = some v ∧ Spec.Texts v l) ∧
    (∃ v a b, Dict.get? d "vector_names" = some v ∧ Spec.Texts v [a, b]) ∧
    (∃ b, Dict.get? d "variable_speed" = some (.bool b)) ∧
    (∃ s, Dict.get? d "time_unit" = some (.str s) ∧ (s = "days".toList ∨ s = "hours".toList ∨ s = "seconds".toList)) ∧
    (∃ b, Dict.get? d "early_stopping_criterion" = some (.bool b)) ∧ (∃ b, Dict.get? d "zero_currents" = some (.bool b)) ∧
    Spec.Optional d "smoothing_blocked_sic" (fun v => ∃ x, Spec.IsNumber v x) ∧
    Spec.Optional d "smoothing_max_iterations" (fun v => ∃ n, Spec.IsInteger v n) ∧
    Spec.Optional d "smoothing_merge_separation" (fun v => ∃ x, Spec.IsNumber v x) ∧
    Spec.Optional d "smoothing_converged_sep" (fun v => ∃ x, Spec.IsNumber v x)

theorem all_texts : ∀ (l : List JVal), l.all (valid (.str none)) = true ↔ ∃ ts : List (List Char), l = ts.map .str
  | [] => by simp
  | v :: r => by
    rw [List.all_cons, Bool.and_eq_true, valid_str, all_texts r]
    constructor
    · rintro ⟨⟨s, rfl⟩, ts, rfl⟩; exact ⟨s :: ts, rfl⟩
    · rintro ⟨ts, h⟩
      cases ts with
      | nil => cases h
      | cons s ts => cases h; exact ⟨⟨s, rfl⟩, ts, rfl⟩

theorem valid_texts (v : JVal) (lo hi : Option ℕ) : valid (.arr (.str none) lo hi) v = true ↔
    ∃ ts, Spec.Texts v ts ∧ (∀ n, lo = some n → n ≤ ts.length) ∧ ∀ n, hi = some n → ts.length ≤ n := by
  cases v with
  | arr l =>
    simp only [valid, Bool.and_eq_true, all_texts, Spec.Texts, JVal.arr.injEq]
    constructor
    · rintro ⟨⟨⟨ts, rfl⟩, h1⟩, h2⟩
      refine ⟨ts, rfl, ?_, ?_⟩
      · rintro n rfl; simpa using h1
      · rintro n rfl; simpa using h2
    · rintro ⟨ts, rfl, h1, h2⟩
      refine ⟨⟨⟨ts, rfl⟩, ?_⟩, ?_⟩
      · cases lo with
        | none => rfl
        | some n => simpa using h1 n rfl
      · cases hi with
        | none => rfl
        | some n => simpa using h2 n rfl
  | _ => simp [valid, Spec.Texts]

theorem valid_unit (v : JVal) : valid (.str (some [['d', 'a', 'y', 's'], ['h', 'o', 'u', 'r', 's'], ['s', 'e', 'c', 'o', 'n', 'd', 's']])) v = true ↔
    ∃ s, v = .str s ∧ (s = "days".toList ∨ s = "hours".toList ∨ s = "seconds".toList) := by
  cases v <;> simp [valid]

theorem valid_route (c : JVal) : valid routeSchema c = true ↔ Spec.Route c := by
  cases c with
  | obj d =>
    unfold routeSchema
    simp only [valid, validProps, List.all_cons, List.all_nil, Bool.and_true, Bool.and_eq_true, Bool.true_or]
    constructor
    · rintro ⟨⟨a1, a2, a3, a4, a5, a6, a7⟩, b1, b2, b3, b4, b5, b6, b7, b8, b9, b10, b11⟩
      obtain ⟨v1, e1, h1⟩ := (member_iff (.str none) _ _).1 ⟨a1, b1⟩
      obtain ⟨v2, e2, h2⟩ := (member_iff (.arr (.str none) none none) _ _).1 ⟨a2, b2⟩
      obtain ⟨v3, e3, h3⟩ := (member_iff (.arr (.str none) (some 2) (some 2)) _ _).1 ⟨a3, b3⟩
      obtain ⟨v4, e4, h4⟩ := (member_iff .bool _ _).1 ⟨a4, b4⟩
      obtain ⟨v5, e5, h5⟩ := (member_iff _ _ _).1 ⟨a5, b5⟩
      obtain ⟨v6, e6, h6⟩ := (member_iff .bool _ _).1 ⟨a6, b6⟩
      obtain ⟨v7, e7, h7⟩ := (member_iff .bool _ _).1 ⟨a7, b7⟩
      have b8 := (optional_iff number _ _).1 b8
      have b9 := (optional_iff .int _ _).1 b9
      have b10 := (optional_iff number _ _).1 b10
      have b11 := (optional_iff number _ _).1 b11
      obtain ⟨s1, rfl⟩ := (valid_str _).1 h1
      obtain ⟨ts, i2, -, -⟩ := (valid_texts _ _ _).1 h2
      obtain ⟨vs, i3, l3, l3'⟩ := (valid_texts _ _ _).1 h3
      obtain ⟨c4, rfl⟩ := (valid_bool _).1 h4
      obtain ⟨s5, rfl, g5⟩ := (valid_unit _).1 h5
      obtain ⟨c6, rfl⟩ := (valid_bool _).1 h6
      obtain ⟨c7, rfl⟩ := (valid_bool _).1 h7
      have hl : vs.length = 2 := le_antisymm (l3' 2 rfl) (l3 2 rfl)
      match vs, hl with
      | [a, b], _ =>
        exact ⟨d, rfl, ⟨s1, e1⟩, ⟨v2, ts, e2, i2⟩, ⟨v3, a, b, e3, i3⟩, ⟨c4, e4⟩, ⟨s5, e5, g5⟩, ⟨c6, e6⟩, ⟨c7, e7⟩,
          fun v hv => (valid_number v).1 (b8 v hv), fun v hv => (valid_int v).1 (b9 v hv), fun v hv => (valid_number v).1 (b10 v hv),
          fun v hv => (valid_number v).1 (b11 v hv)⟩
    · rintro ⟨d', e, ⟨s1, e1⟩, ⟨v2, ts, e2, i2⟩, ⟨v3, a, b, e3, i3⟩, ⟨c4, e4⟩, ⟨s5, e5, h5⟩, ⟨c6, e6⟩, ⟨c7, e7⟩, b8, b9, b10, b11⟩
      cases e
      refine ⟨?_, ?_, ?_, ?_, ?_, ?_, ?_, ?_, (optional_iff number _ _).2 fun v hv => (valid_number v).2 (b8 v hv),
        (optional_iff .int _ _).2 fun v hv => (valid_int v).2 (b9 v hv), (optional_iff number _ _).2 fun v hv => (valid_number v).2 (b10 v hv),
        (optional_iff number _ _).2 fun v hv => (valid_number v).2 (b11 v hv)⟩
      · simp [e1, e2, e3, e4, e5, e6, e7]
      · rw [e1]; exact (valid_str _).2 ⟨_, rfl⟩
      · rw [e2]; exact (valid_texts _ _ _).2 ⟨ts, i2, by simp, by simp⟩
      · rw [e3]; exact (valid_texts _ _ _).2 ⟨_, i3, by simp, by simp⟩
      · rw [e4]; exact (valid_bool _).2 ⟨_, rfl⟩
      · rw [e5]; exact (valid_unit _).2 ⟨_, rfl, h5⟩
      · rw [e6]; exact (valid_bool _).2 ⟨_, rfl⟩
      · rw [e7]; exact (valid_bool _).2 ⟨_, rfl⟩
  | _ => simp [routeSchema, valid, Spec.Route]

/-- C85, routes: what is accepted as the configuration of a route. -/
theorem C85_route (read : List Char → Py JVal) (c : JVal) :
    validateRouteConfig read c = .ok () ↔ ∃ j, Spec.GivenValue read c j ∧ Spec.Route j := by
  unfold validateRouteConfig
  rw [flexi_valid]
  simp only [valid_route]

example (read : List Char → Py JVal) : validateRouteConfig read (.obj [("objective_function", .str ['f', 'u', 'e', 'l']),
    ("path_variables", .arr [.str ['f', 'u', 'e', 'l']]), ("vector_names", .arr [.str ['u', 'C'], .str ['v', 'C']]), ("variable_speed", .bool true),
    ("time_unit", .str ['d', 'a', 'y', 's']), ("early_stopping_criterion", .bool true), ("zero_currents", .bool false),
    ("smoothing_max_iterations", .flt (some 1000))]) = .ok () := by
  simp only [validateRouteConfig, flexiJson, bind, Except.bind]
  decide +kernel

example (read : List Char → Py JVal) (name : List Char) (h : read name = .ok (.obj [("VesselType", .str []), ("MaxSpeed", .int (-1))])) :
    validateVesselConfig read (.str name) = .error .validationError := by
  simp only [validateVesselConfig, flexiJson, h]
  decide +kernel

/-- The columns that a table has once its index is one of them. -/
def Spec.Column (f : Frame) (k : String) (column : List Val) : Prop :=
  (f.indexName = some k ∧ column = f.index) ∨ (f.indexName ≠ some k ∧ Dict.get? f.columns k = some column)

/-- Values that are numbers or texts of numbers. -/
def Spec.Numeric (toNum : String → Option ℚ) (v : Val) : Prop := ∃ q, v = .num (some q) ∨ ∃ s, v = .str s ∧ toNum s = some q

/-- C86: what is accepted as a table of waypoints (the index has no name, or one that is not the name of a column; a table
without a name for its index has no column called `level_0` besides one called `index`). -/
theorem C86_waypoints (readCsv : List Char → Py Frame) (toNum : String → Option ℚ) (f : Frame)
    (hname : ∀ n, f.indexName = some n → Dict.get? f.columns n = none)
    (hnone : f.indexName = none → Dict.get? f.columns "level_0" = none) :
    validateWaypoints readCsv toNum (.frame f) = .ok () ↔
      ∃ name lat long source destination, Spec.Column f "Name" name ∧ Spec.Column f "Lat" lat ∧ Spec.Column f "Long" long ∧
        Spec.Column f "Source" source ∧ Spec.Column f "Destination" destination ∧ Val.str "X" ∈ source ∧ Val.str "X" ∈ destination ∧
        (∀ v ∈ lat, Spec.Numeric toNum v) ∧ (∀ v ∈ long, Spec.Numeric toNum v) := by
  have hr : ∃ d, f.resetIndex = .ok d ∧ ∀ k ∈ ["Name", "Lat", "Long", "Source", "Destination"], ∀ col, Dict.get? d k = some col ↔ Spec.Column f k col := by
    unfold Frame.resetIndex Spec.Column
    cases hi : f.indexName with
    | some n =>
      have := hname n hi
      simp only [this, Option.isSome_none, Bool.false_eq_true, if_false]
      refine ⟨_, rfl, ?_⟩
      intro k _ col
      simp only [Dict.get?, Option.some.injEq, ne_eq]
      split
      · next e => subst e; simp [eq_comm]
      · next e => simp [e]
    | none =>
      have h0 := hnone hi
      simp only [h0, Option.isSome_none, Bool.false_eq_true, if_false]
      split
      · refine ⟨_, rfl, ?_⟩
        intro k hk col
        simp only [Dict.get?]
        rw [if_neg (by rintro rfl; revert hk; decide)]
        simp
      · refine ⟨_, rfl, ?_⟩
        intro k hk col
        simp only [Dict.get?]
        rw [if_neg (by rintro rfl; revert hk; decide)]
        simp
  have hnum : ∀ col, allNumeric toNum col = true ↔ ∀ v ∈ col, Spec.Numeric toNum v := by
    intro col
    unfold allNumeric Spec.Numeric
    rw [List.all_eq_true]
    refine forall_congr' fun v => forall_congr' fun _ => ?_
    cases v with
    | num x => cases x <;> simp
    | str s => simp [Option.isSome_iff_exists]
  obtain ⟨d, hd, hcol⟩ := hr
  have h1 := hcol "Name" (by decide)
  have h2 := hcol "Lat" (by decide)
  have h3 := hcol "Long" (by decide)
  have h4 := hcol "Source" (by decide)
  have h5 := hcol "Destination" (by decide)
  simp only [← h1, ← h2, ← h3, ← h4, ← h5, ← hnum]
  clear h1 h2 h3 h4 h5 hcol
  unfold validateWaypoints
  simp only [hd, bind, Except.bind, List.all_cons, List.all_nil, Bool.and_true, Dict.get]
  cases Dict.get? d "Name" <;> cases Dict.get? d "Lat" <;> cases Dict.get? d "Long" <;> cases Dict.get? d "Source" <;>
    cases Dict.get? d "Destination" <;> simp
  split_ifs <;> simp_all

/-- C86: what is neither a table nor the name of a file raises `TypeError`; a file that cannot be read raises the error of
reading it; everything else that is refused raises `AssertionError`, or `ValueError` if the index cannot become a column. -/
theorem C86_errors (readCsv : List Char → Py Frame) (toNum : String → Option ℚ) (w : Waypoints) (e : Err)
    (h : validateWaypoints readCsv toNum w = .error e) :
    (w = .other ∧ e = .typeError) ∨ (∃ s, w = .file s ∧ readCsv s = .error e) ∨ e = .assertionError ∨ e = .valueError := by
  have hf : ∀ f, validateWaypoints readCsv toNum (.frame f) = .error e → e = .assertionError ∨ e = .valueError := by
    intro f h
    unfold validateWaypoints at h
    simp only [bind, Except.bind] at h
    cases hr : f.resetIndex with
    | error e' =>
      rw [hr] at h
      cases h
      right
      unfold Frame.resetIndex at hr
      split at hr
      · split at hr <;> cases hr; rfl
      · split at hr
        · split at hr <;> cases hr; rfl
        · cases hr
    | ok d =>
      simp only [hr, List.all_cons, List.all_nil, Bool.and_true, Dict.get] at h
      revert h
      cases Dict.get? d "Name" <;> cases Dict.get? d "Lat" <;> cases Dict.get? d "Long" <;> cases Dict.get? d "Source" <;>
        cases Dict.get? d "Destination" <;> simp <;> (try (intro h; simp [← h]))
      split_ifs <;> simp <;> (intro h; simp [← h])
  cases w with
  | other => left; refine ⟨rfl, ?_⟩; simp [validateWaypoints, bind, Except.bind] at h; exact h.symm
  | file s =>
    right
    cases hr : readCsv s with
    | error e' =>
      left
      refine ⟨s, rfl, ?_⟩
      simp only [validateWaypoints, hr, bind, Except.bind] at h
      cases h; exact hr
    | ok f =>
      right
      apply hf f
      rw [← h]
      simp only [validateWaypoints, hr]
  | frame f => exact Or.inr (Or.inr (hf f h))

/-- Waypoints: one departure and one arrival, with a coordinate given as a text. -/
def exFrame : Frame :=
  ⟨none, [.num (some 0), .num (some 1)], [("Name", [.str "A", .str "B"]), ("Lat", [.num (some (-60)), .str "-65.5"]), ("Long", [.num (some 0), .num (some 5)]),
    ("Source", [.str "X", .num none]), ("Destination", [.num none, .str "X"])]⟩

example (readCsv : List Char → Py Frame) :
    (∀ n, exFrame.indexName = some n → Dict.get? exFrame.columns n = none) ∧ (exFrame.indexName = none → Dict.get? exFrame.columns "level_0" = none) ∧
    validateWaypoints readCsv (fun s => if s = "-65.5" then some (-131/2) else none) (.frame exFrame) = .ok () := by
  refine ⟨by simp [exFrame], fun _ => rfl, ?_⟩
  simp only [validateWaypoints]
  decide +kernel

/-- The coordinates of waypoints need not lie on the globe. -/
theorem C86_range_unchecked : ∃ f : Frame, Dict.get? f.columns "Lat" = some [.num (some 1000)] ∧
    ∀ readCsv toNum, validateWaypoints readCsv toNum (.frame f) = .ok () := by
  refine ⟨⟨none, [.num (some 0)], [("Name", [.str "A"]), ("Lat", [.num (some 1000)]), ("Long", [.num (some 1000)]), ("Source", [.str "X"]),
    ("Destination", [.str "X"])]⟩, rfl, ?_⟩
  intro readCsv toNum
  rw [C86_waypoints readCsv toNum _ (by simp) (fun _ => rfl)]
  refine ⟨_, _, _, _, _, Or.inr ⟨by simp, rfl⟩, Or.inr ⟨by simp, rfl⟩, Or.inr ⟨by simp, rfl⟩, Or.inr ⟨by simp, rfl⟩, Or.inr ⟨by simp, rfl⟩, ?_, ?_, ?_, ?_⟩
  · simp
  · simp
  · simp [Spec.Numeric]
  · simp [Spec.Numeric]

end Verif
