import Mathlib.Algebra.Order.Field.Rat
import Mathlib.Algebra.Order.Floor.Ring
import Mathlib.Data.Rat.Floor
import Mathlib.Tactic.Linarith
import Mathlib.Tactic.NormNum

/-!
# Python primitives used by the model

Exceptions as values, dictionaries as association lists in insertion order,
`list.remove`, float `%`, `int()` truncation and `np.arange`, all on exact rationals.
-/

namespace Verif

/-- The exception classes that the modelled code raises (e.g. `/repo/meshiphi/dataloaders/factory.py` 134,
`/repo/meshiphi/mesh_generation/boundary.py` 151-173). -/
inductive Err where
  | valueError
  | keyError
  | typeError
  | indexError
  | attributeError
  | assertionError
  | zeroDivision
  | fileNotFound
  | osError
  | eofError
  | overflowError
  | unboundLocal   -- `UnboundLocalError`
  | notImplemented
  | validationError   -- `jsonschema.ValidationError`
  | exception      -- bare `Exception(...)`
  | outOfFuel      -- model artefact: a fuelled loop ran out of fuel (never in the theorems)
  deriving DecidableEq, Repr

/-- Python computations that may raise (e.g. `/repo/meshiphi/mesh_generation/boundary.py` 151-173). -/
abbrev Py (α : Type) := Except Err α

/-- Decidable equality of results (used by concrete examples). -/
instance {α : Type} [DecidableEq α] : DecidableEq (Py α) := fun a b =>
  match a, b with
  | .ok x, .ok y => if h : x = y then isTrue (by rw [h]) else isFalse (by intro h'; cases h'; exact h rfl)
  | .error x, .error y => if h : x = y then isTrue (by rw [h]) else isFalse (by intro h'; cases h'; exact h rfl)
  | .ok _, .error _ => isFalse (by intro h; cases h)
  | .error _, .ok _ => isFalse (by intro h; cases h)

/-- A Python `dict`: association list in insertion order (e.g. the graph of
`/repo/meshiphi/mesh_generation/neighbour_graph.py` 50-54). -/
abbrev Dict (K V : Type) := List (K × V)

namespace Dict
variable {K V : Type} [DecidableEq K]

/-- `d.get(k)`: `d[k]` after `k in d` (e.g. `/repo/meshiphi/mesh_generation/neighbour_graph.py` 175-184). -/
def get? : Dict K V → K → Option V
  | [], _ => none
  | (k', v) :: r, k => if k' = k then some v else get? r k

/-- `d[k]`, raising `KeyError` (e.g. `/repo/meshiphi/mesh_generation/neighbour_graph.py` 182). -/
def get (d : Dict K V) (k : K) : Py V :=
  match get? d k with
  | some v => .ok v
  | none => .error .keyError

/-- `d[k] = v` (replaces in place, or appends a new key; e.g. `/repo/meshiphi/mesh_generation/cellbox.py` 340-351). -/
def set : Dict K V → K → V → Dict K V
  | [], k, v => [(k, v)]
  | (k', v') :: r, k, v => if k' = k then (k, v) :: r else (k', v') :: set r k v

/-- Remove a key if present (e.g. `/repo/meshiphi/dataloaders/factory.py` 155, 159). -/
def del : Dict K V → K → Dict K V
  | [], _ => []
  | (k', v') :: r, k => if k' = k then del r k else (k', v') :: del r k

/-- `d.pop(k)` (the returned value is not used by the modelled code), raising `KeyError`
(`/repo/meshiphi/mesh_generation/neighbour_graph.py` 112, 135). -/
def pop (d : Dict K V) (k : K) : Py (Dict K V) :=
  match get? d k with
  | some _ => .ok (del d k)
  | none => .error .keyError

/-- `d.keys()` (e.g. `/repo/meshiphi/mesh_generation/environment_mesh.py` 240). -/
def keys (d : Dict K V) : List K := d.map Prod.fst

/-- `d.update(e)` (`/repo/meshiphi/mesh_generation/cellbox.py` 349, 351, `aggregated_cellbox.py` 149). -/
def update (d e : Dict K V) : Dict K V := e.foldl (fun acc p => set acc p.1 p.2) d

/-- `d[k] = f(d[k])`, raising `KeyError` when absent (e.g. `/repo/meshiphi/mesh_generation/neighbour_graph.py` 182, 415). -/
def modifyM (d : Dict K V) (k : K) (f : V → Py V) : Py (Dict K V) :=
  match get? d k with
  | some v => do let v' ← f v; return set d k v'
  | none => .error .keyError

@[simp] theorem get?_nil (k : K) : get? ([] : Dict K V) k = none := rfl

theorem get?_set (d : Dict K V) (k k' : K) (v : V) :
    get? (set d k v) k' = if k = k' then some v else get? d k' := by
  induction d with
  | nil => simp [set, get?]
  | cons p r ih =>
    obtain ⟨a, b⟩ := p
    by_cases h : a = k
    · subst h
      simp only [set, if_pos, get?]
      by_cases h2 : a = k' <;> simp [h2]
    · simp only [set, if_neg h, get?, ih]
      by_cases h2 : a = k'
      · subst h2
        have : ¬ k = a := fun e => h e.symm
        simp [this]
      · simp [h2]

theorem get?_del (d : Dict K V) (k k' : K) :
    get? (del d k) k' = if k = k' then none else get? d k' := by
  induction d with
  | nil => simp [del, get?]
  | cons p r ih =>
    obtain ⟨a, b⟩ := p
    by_cases h : a = k
    · subst h
      simp only [del, if_pos, ih, get?]
      by_cases h2 : a = k' <;> simp [h2]
    · simp only [del, if_neg h, get?, ih]
      by_cases h2 : a = k'
      · subst h2
        have : ¬ k = a := fun e => h e.symm
        simp [this]
      · simp [h2]

theorem mem_keys_iff (d : Dict K V) (k : K) : k ∈ keys d ↔ (get? d k).isSome := by
  induction d with
  | nil => simp [keys, get?]
  | cons p r ih =>
    obtain ⟨a, b⟩ := p
    by_cases h : a = k
    · subst h; simp [keys, get?]
    · have h' : ¬ k = a := fun e => h e.symm
      simp only [keys, List.map_cons, List.mem_cons, h', false_or, get?, if_neg h]
      exact ih

end Dict

/-- `l.remove(x)`: removes the first occurrence, raising `ValueError` when absent
(`/repo/meshiphi/mesh_generation/neighbour_graph.py` 182, 415). -/
def pyRemove {α : Type} [DecidableEq α] (l : List α) (x : α) : Py (List α) :=
  if x ∈ l then .ok (l.erase x) else .error .valueError

/-- Python float `a % b` (`/repo/meshiphi/mesh_generation/mesh_builder.py` 320, 324, `/repo/meshiphi/utils.py` 29) for `b ≠ 0` (sign of the divisor); total here, `b = 0` gives `a`.
Where the modelled code could divide by zero the model raises `zeroDivision` itself. -/
def pyMod (a b : ℚ) : ℚ := a - b * (⌊a / b⌋ : ℤ)

/-- `int(x)`: truncation towards zero (e.g. `/repo/meshiphi/mesh_generation/mesh_builder.py` 132). -/
def pyInt (x : ℚ) : ℤ := if 0 ≤ x then ⌊x⌋ else ⌈x⌉

/-- Number of elements of `np.arange(start, stop, step)`: `max(0, ceil((stop - start)/step))`
(`/repo/meshiphi/mesh_generation/mesh_builder.py` 243-257). -/
def arangeLen (start stop step : ℚ) : ℕ := (⌈(stop - start) / step⌉ : ℤ).toNat

/-- `np.arange(start, stop, step)` (`/repo/meshiphi/mesh_generation/mesh_builder.py` 243-257). -/
def arange (start stop step : ℚ) : List ℚ :=
  (List.range (arangeLen start stop step)).map (fun i : ℕ => start + i * step)

theorem pyMod_eq (a b : ℚ) : pyMod a b = a - b * (⌊a / b⌋ : ℤ) := rfl

theorem pyMod_nonneg {a b : ℚ} (hb : 0 < b) : 0 ≤ pyMod a b := by
  unfold pyMod
  have h := Int.floor_le (a / b)
  have h2 : b * (⌊a / b⌋ : ℤ) ≤ b * (a / b) := by
    apply mul_le_mul_of_nonneg_left h hb.le
  have h3 : b * (a / b) = a := by field_simp
  linarith

theorem pyMod_lt {a b : ℚ} (hb : 0 < b) : pyMod a b < b := by
  unfold pyMod
  have h := Int.lt_floor_add_one (a / b)
  have h2 : b * (a / b) < b * ((⌊a / b⌋ : ℤ) + 1) := by
    apply mul_lt_mul_of_pos_left h hb
  have h3 : b * (a / b) = a := by field_simp
  linarith

theorem pyMod_add_int_mul {a b : ℚ} (hb : b ≠ 0) (n : ℤ) : pyMod (a + b * n) b = pyMod a b := by
  unfold pyMod
  have h : (a + b * n) / b = a / b + n := by field_simp
  rw [h, Int.floor_add_intCast]
  push_cast
  ring

theorem pyMod_of_range {a b : ℚ} (h0 : 0 ≤ a) (h1 : a < b) : pyMod a b = a := by
  have hb : 0 < b := lt_of_le_of_lt h0 h1
  have h : ⌊a / b⌋ = 0 := by
    rw [Int.floor_eq_zero_iff]
    constructor
    · positivity
    · rw [div_lt_one hb]; exact h1
  unfold pyMod
  rw [h]; simp

theorem pyMod_eq_zero_iff {a b : ℚ} (hb : b ≠ 0) : pyMod a b = 0 ↔ ∃ n : ℤ, a = b * n := by
  constructor
  · intro h
    refine ⟨⌊a / b⌋, ?_⟩
    unfold pyMod at h; linarith
  · rintro ⟨n, rfl⟩
    have := pyMod_add_int_mul (a := 0) hb n
    rw [zero_add] at this
    rw [this]
    unfold pyMod; simp

end Verif
