import Verif.Model.Calendar

/-!
# Model of the two readers of time strings

`assert_valid_time` of `config_validator.py` decides which time strings a configuration may contain, and
`Boundary.parse_datetime` turns them into dates.  Strings are lists of ASCII characters.  A date is
represented by its day number (`PyDate.ordinal`), not by its rendering; the current time is a rational
day number.
-/

namespace Verif.TimeStr

/-- The text of `"TODAY"`.
See `/repo/meshiphi/config_validation/config_validator.py` 69-76 and `/repo/meshiphi/mesh_generation/boundary.py` 151-154. -/
def today : List Char := ['T', 'O', 'D', 'A', 'Y']

/-- `l` without the prefix `p`, if it has that prefix.  See `/repo/meshiphi/config_validation/config_validator.py` 69. -/
def dropPrefix? : List Char → List Char → Option (List Char)
  | [], l => some l
  | _ :: _, [] => none
  | p :: ps, c :: cs => if p = c then dropPrefix? ps cs else none

/-- `re.match(r'TODAY[+,-]\d+', l)` at `/repo/meshiphi/config_validation/config_validator.py` 69: the
pattern is looked for at the start of the text, which may go on after it.  Inside of the brackets the
comma is a character like the others. -/
def relativeRe (l : List Char) : Bool :=
  match dropPrefix? today l with
  | some (c :: d :: _) => (c = '+' || c = ',' || c = '-') && d.isDigit
  | _ => false

/-- Value of a run of decimal digits.  See `/repo/meshiphi/config_validation/config_validator.py` 77. -/
def digitsVal (l : List Char) : ℕ := l.foldl (fun a c => a * 10 + (c.toNat - '0'.toNat)) 0

/-- A date, if there is such a day.
See `/repo/meshiphi/config_validation/config_validator.py` 77 and `/repo/meshiphi/mesh_generation/boundary.py` 147. -/
def mkDate (y m d : ℕ) : Option PyDate := if (PyDate.mk y m d).Exists then some ⟨y, m, d⟩ else none

/-- `datetime.date.fromisoformat` at `config_validator.py` 77: `YYYY-MM-DD`, and since Python 3.11 (`new`)
also `YYYYMMDD`.  The week dates of Python 3.11 (`YYYY-Www-D`) are left out. -/
def fromIso (new : Bool) (l : List Char) : Option PyDate :=
  match l with
  | [a, b, c, d, '-', e, f, '-', g, h] =>
    if [a, b, c, d, e, f, g, h].all Char.isDigit then mkDate (digitsVal [a, b, c, d]) (digitsVal [e, f]) (digitsVal [g, h]) else none
  | [a, b, c, d, e, f, g, h] =>
    if new && [a, b, c, d, e, f, g, h].all Char.isDigit then mkDate (digitsVal [a, b, c, d]) (digitsVal [e, f]) (digitsVal [g, h]) else none
  | _ => none

/-- Models `config_validator.py` 57-85, `assert_valid_time`. -/
def assertValidTime (new : Bool) (s : List Char) : Py Unit :=
  if relativeRe (s.filter (· ≠ ' ')) then .ok ()
  else if s = today then .ok ()
  else match fromIso new s with
    | some _ => .ok ()
    | none => .error .valueError

/-- White space, as removed by `str.strip` from ASCII strings.  See `/repo/meshiphi/mesh_generation/boundary.py` 151, 159, 170. -/
def isSpace (c : Char) : Bool :=
  c = ' ' || c = '\t' || c = '\n' || c = '\r' || c.toNat = 11 || c.toNat = 12 || (28 ≤ c.toNat && c.toNat ≤ 31)

/-- `str.strip`.  See `/repo/meshiphi/mesh_generation/boundary.py` 151, 159, 170. -/
def strip (l : List Char) : List Char := ((l.dropWhile isSpace).reverse.dropWhile isSpace).reverse

/-- `p in l` for strings (`/repo/meshiphi/mesh_generation/boundary.py` 154). -/
def contains (p : List Char) : List Char → Bool
  | [] => p = []
  | c :: cs => (dropPrefix? p (c :: cs)).isSome || contains p cs

/-- The month field of `strptime`: the pattern `1[0-2]|0[1-9]|[1-9]`, first alternative that applies. -/
def strpMonth : List Char → Option (ℕ × List Char)
  | '1' :: '0' :: r => some (10, r)
  | '1' :: '1' :: r => some (11, r)
  | '1' :: '2' :: r => some (12, r)
  | '0' :: c :: r => if '1' ≤ c ∧ c ≤ '9' then some (digitsVal [c], r) else none
  | c :: r => if '1' ≤ c ∧ c ≤ '9' then some (digitsVal [c], r) else none
  | [] => none

/-- The day field of `strptime`: the pattern `3[0-1]|[1-2]\d|0[1-9]|[1-9]| [1-9]`. -/
def strpDay : List Char → Option (ℕ × List Char)
  | '3' :: '0' :: r => some (30, r)
  | '3' :: '1' :: r => some (31, r)
  | c :: d :: r =>
    if (c = '1' ∨ c = '2') ∧ d.isDigit then some (digitsVal [c, d], r)
    else if c = '0' then (if '1' ≤ d ∧ d ≤ '9' then some (digitsVal [d], r) else none)
    else if '1' ≤ c ∧ c ≤ '9' then some (digitsVal [c], d :: r)
    else if c = ' ' ∧ '1' ≤ d ∧ d ≤ '9' then some (digitsVal [d], r)
    else none
  | [c] => if '1' ≤ c ∧ c ≤ '9' then some (digitsVal [c], []) else none
  | [] => none

/-- `datetime.strptime(s, "%Y-%m-%d")` at `boundary.py` 147; `none` is its `ValueError`. -/
def strptime (l : List Char) : Option PyDate :=
  match l with
  | a :: b :: c :: d :: '-' :: r =>
    if [a, b, c, d].all Char.isDigit then
      match strpMonth r with
      | some (m, '-' :: r') =>
        match strpDay r' with
        | some (n, []) => mkDate (digitsVal [a, b, c, d]) m n
        | _ => none
      | _ => none
    else none
  | _ => none

/-- `float(l)` for a number without sign and exponent.  See `/repo/meshiphi/mesh_generation/boundary.py` 161, 172. -/
def unsignedFloat (l : List Char) : Option ℚ :=
  match l.dropWhile Char.isDigit with
  | [] => if l = [] then none else some (digitsVal l)
  | '.' :: f =>
    if f.all Char.isDigit && (l.takeWhile Char.isDigit ≠ [] || f ≠ []) then
      some (digitsVal (l.takeWhile Char.isDigit) + digitsVal f / 10 ^ f.length)
    else none
  | _ => none

/-- `float(l)` at `boundary.py` 161 and 172, for decimal numbers; exponents, `inf`, `nan` and underscores
are left out (they are read as failures). -/
def pyFloat (l : List Char) : Option ℚ :=
  match l with
  | '-' :: r => (unsignedFloat r).map (fun q => -q)
  | '+' :: r => unsignedFloat r
  | r => unsignedFloat r

/-- `l.split(c)[1]`: the text between the first and the second `c`.  See `/repo/meshiphi/mesh_generation/boundary.py` 159, 170. -/
def splitSecond (c : Char) (l : List Char) : List Char := ((l.dropWhile (· ≠ c)).drop 1).takeWhile (· ≠ c)

/-- The last day number of `datetime`.  See `/repo/meshiphi/mesh_generation/boundary.py` 162, 173. -/
def maxOrdinal : ℤ := 3652059

/-- `datetime.today() + timedelta(days = q)` and its date (`boundary.py` 162-163, 173-174); outside of the
years 1 to 9999 this is an `OverflowError`.  `timedelta` rounds to microseconds, which is left out. -/
def shift (now q : ℚ) : Py ℤ :=
  if 1 ≤ ⌊now + q⌋ ∧ ⌊now + q⌋ ≤ maxOrdinal then .ok ⌊now + q⌋ else .error .overflowError

/-- Models `boundary.py` 126-179, `parse_datetime`: the day number of the date that it returns. -/
def parseDatetime (now : ℚ) (s0 : List Char) : Py ℤ :=
  let s := s0.map Char.toUpper
  match strptime s with
  | some a => .ok a.ordinal
  | none =>
    if strip s = today then .ok ⌊now⌋
    else if ¬ contains today s then .error .valueError
    else if '+' ∈ s then
      match pyFloat (strip (splitSecond '+' s)) with
      | some q => shift now q
      | none => .error .valueError
    else if '-' ∈ s then
      match pyFloat (strip (splitSecond '-' s)) with
      | some q => shift now (-q)
      | none => .error .valueError
    else .error .valueError

end Verif.TimeStr
