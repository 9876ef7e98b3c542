import Verif.Model.Shape
import Mathlib.Tactic.FieldSimp
import Mathlib.Tactic.Positivity
import Mathlib.Tactic.Ring
import Mathlib.Data.List.Nodup
import Mathlib.Data.List.Count

/-!
# C62, C63: artificial data shapes
-/

namespace Verif
open Shape

/-! ## Specification -/

/-- `l` has exactly one datapoint at every site of the `ny` by `nx` lattice that spans the box from edge
to edge (`my`, `mx` are the numbers of steps along the axes), and nothing else. -/
def Spec.OnLattice {V : Type} (b : Boundary) (ny nx : ℕ) (my mx : ℚ) (l : List (Row V)) : Prop :=
  (∀ r ∈ l, ∃ i < ny, ∃ j < nx,
    (r.lat - b.latMin) * my = i * (b.latMax - b.latMin) ∧ (r.long - b.longMin) * mx = j * (b.longMax - b.longMin)) ∧
  (∀ i < ny, ∀ j < nx, l.countP (fun r =>
    decide ((r.lat - b.latMin) * my = i * (b.latMax - b.latMin)) &&
    decide ((r.long - b.longMin) * mx = j * (b.longMax - b.longMin))) = 1)

/-- All datapoints lie in the closed box. -/
def Spec.InBox {V : Type} (b : Boundary) (l : List (Row V)) : Prop :=
  ∀ r ∈ l, b.latMin ≤ r.lat ∧ r.lat ≤ b.latMax ∧ b.longMin ≤ r.long ∧ r.long ≤ b.longMax

/-! ## Rows -/

theorem mem_shape_rows {V : Type} {ny nx : ℕ} {lat long : ℕ → ℚ} {d : ℕ → ℕ → V} {r : Row V} :
    r ∈ Shape.rows ny nx lat long d ↔ ∃ i < ny, ∃ j < nx, r = ⟨lat i, long j, 0, d i j⟩ := by
  simp only [Shape.rows, List.mem_flatMap, List.mem_range, List.mem_map]
  constructor
  · rintro ⟨i, hi, j, hj, rfl⟩; exact ⟨i, hi, j, hj, rfl⟩
  · rintro ⟨i, hi, j, hj, rfl⟩; exact ⟨i, hi, j, hj, rfl⟩

theorem shape_countP_range (n k : ℕ) (hk : k < n) (p : ℕ → Bool) (hp : ∀ i < n, p i = true ↔ i = k) :
    (List.range n).countP p = 1 := by
  have h : (List.range n).countP p = (List.range n).count k := by
    rw [List.count]
    apply List.countP_congr
    intro i hi
    rw [hp i (List.mem_range.1 hi)]
    simp
  rw [h]
  exact List.count_eq_one_of_mem List.nodup_range (List.mem_range.2 hk)

theorem shape_count_rows {V : Type} {ny nx : ℕ} {lat long : ℕ → ℚ} {d : ℕ → ℕ → V} {k l : ℕ} (hk : k < ny) (hl : l < nx)
    (p : ℚ → Bool) (q : ℚ → Bool) (hp : ∀ i < ny, p (lat i) = true ↔ i = k) (hq : ∀ j < nx, q (long j) = true ↔ j = l) :
    (Shape.rows ny nx lat long d).countP (fun r => p r.lat && q r.long) = 1 := by
  unfold Shape.rows
  rw [List.countP_flatMap]
  have h : ∀ i < ny, List.countP (fun r : Row V => p r.lat && q r.long)
      ((List.range nx).map (fun j => (⟨lat i, long j, 0, d i j⟩ : Row V))) = if i = k then 1 else 0 := by
    intro i hi
    rw [List.countP_map]
    by_cases e : i = k
    · subst e
      rw [if_pos rfl]
      apply shape_countP_range _ l hl
      intro j hj
      have h1 := (hp i hi).2 rfl
      simp only [Function.comp, h1, Bool.true_and]
      exact hq j hj
    · rw [if_neg e]
      rw [List.countP_eq_zero]
      intro j _
      have h1 : ¬ p (lat i) = true := fun h => e ((hp i hi).1 h)
      simp [Function.comp, h1]
  have h2 : (List.range ny).map (List.countP (fun r : Row V => p r.lat && q r.long) ∘
      fun i => (List.range nx).map (fun j => (⟨lat i, long j, 0, d i j⟩ : Row V)))
      = (List.range ny).map (fun i => if i = k then 1 else 0) := by
    apply List.map_congr_left
    intro i hi
    exact h i (List.mem_range.1 hi)
  rw [h2]
  have h3 : ((List.range ny).map (fun i => if i = k then 1 else 0)).sum = (List.range ny).countP (fun i => decide (i = k)) := by
    induction (List.range ny) with
    | nil => rfl
    | cons a t ih =>
      rw [List.map_cons, List.sum_cons, ih, List.countP_cons]
      by_cases e : a = k <;> simp [e, Nat.add_comm]
  rw [h3]
  apply shape_countP_range _ k hk
  intro i _
  simp

theorem shape_nodup {V : Type} {ny nx : ℕ} {lat long : ℕ → ℚ} {d : ℕ → ℕ → V}
    (hlat : ∀ i j, lat i = lat j → i = j) (hlong : ∀ i j, long i = long j → i = j) :
    ((Shape.rows ny nx lat long d).map (fun r => (r.lat, r.long))).Nodup := by
  unfold Shape.rows
  rw [List.map_flatMap]
  rw [List.nodup_flatMap]
  refine ⟨?_, ?_⟩
  · intro i _
    rw [List.map_map]
    refine List.Nodup.map ?_ List.nodup_range
    intro a c h
    simp only [Function.comp, Prod.mk.injEq] at h
    exact hlong _ _ h.2
  · refine List.Pairwise.imp_of_mem ?_ (List.nodup_range (n := ny))
    intro a c _ _ hac x hx hy
    simp only [List.map_map, List.mem_map, List.mem_range, Function.comp] at hx hy
    obtain ⟨j, _, rfl⟩ := hx
    obtain ⟨j', _, h⟩ := hy
    rw [Prod.mk.injEq] at h
    exact hac (hlat _ _ h.1).symm

theorem linspace_inj {lo hi : ℚ} {n : ℕ} (h : lo < hi) (hn : 2 ≤ n) (i j : ℕ)
    (e : linspace lo hi n i = linspace lo hi n j) : i = j := by
  unfold linspace at e
  have hn' : (0 : ℚ) < (n : ℚ) - 1 := by
    have : (2 : ℚ) ≤ n := by exact_mod_cast hn
    linarith
  have hs : 0 < (hi - lo) / ((n : ℚ) - 1) := div_pos (by linarith) hn'
  have : (i : ℚ) = j := by
    have e' : (i : ℚ) * ((hi - lo) / ((n : ℚ) - 1)) = j * ((hi - lo) / ((n : ℚ) - 1)) := by linarith
    exact mul_right_cancel₀ hs.ne' e'
  exact_mod_cast this

theorem linspaceOpen_inj {lo hi : ℚ} {n : ℕ} (h : lo < hi) (hn : 1 ≤ n) (i j : ℕ)
    (e : linspaceOpen lo hi n i = linspaceOpen lo hi n j) : i = j := by
  unfold linspaceOpen at e
  have hn' : (0 : ℚ) < (n : ℚ) := by exact_mod_cast hn
  have hs : 0 < (hi - lo) / (n : ℚ) := div_pos (by linarith) hn'
  have : (i : ℚ) = j := by
    have e' : (i : ℚ) * ((hi - lo) / (n : ℚ)) = j * ((hi - lo) / (n : ℚ)) := by linarith
    exact mul_right_cancel₀ hs.ne' e'
  exact_mod_cast this

theorem linspace_step {lo hi : ℚ} {n : ℕ} (hn : 2 ≤ n) (i : ℕ) :
    (linspace lo hi n i - lo) * ((n : ℚ) - 1) = i * (hi - lo) := by
  have hn' : ((n : ℚ) - 1) ≠ 0 := by
    have : (2 : ℚ) ≤ n := by exact_mod_cast hn
    intro h; linarith
  unfold linspace
  field_simp
  ring

theorem linspaceOpen_step {lo hi : ℚ} {n : ℕ} (hn : 1 ≤ n) (i : ℕ) :
    (linspaceOpen lo hi n i - lo) * (n : ℚ) = i * (hi - lo) := by
  have hn' : (n : ℚ) ≠ 0 := by
    have : (1 : ℚ) ≤ n := by exact_mod_cast hn
    intro h; linarith
  unfold linspaceOpen
  field_simp
  ring

theorem linspace_range {lo hi : ℚ} {n i : ℕ} (h : lo < hi) (hn : 2 ≤ n) (hi' : i < n) :
    lo ≤ linspace lo hi n i ∧ linspace lo hi n i ≤ hi := by
  have hn' : (0 : ℚ) < (n : ℚ) - 1 := by
    have : (2 : ℚ) ≤ n := by exact_mod_cast hn
    linarith
  have hs : 0 < (hi - lo) / ((n : ℚ) - 1) := div_pos (by linarith) hn'
  have h1 : (i : ℚ) ≤ (n : ℚ) - 1 := by
    have : (i : ℚ) + 1 ≤ n := by exact_mod_cast hi'
    linarith
  have h2 := linspace_step (lo := lo) (hi := hi) hn i
  constructor
  · unfold linspace; have : 0 ≤ (i : ℚ) * ((hi - lo) / ((n : ℚ) - 1)) := by positivity
    linarith
  · have h3 : (linspace lo hi n i - lo) * ((n : ℚ) - 1) ≤ (hi - lo) * ((n : ℚ) - 1) := by
      rw [h2, mul_comm]
      exact mul_le_mul_of_nonneg_left h1 (by linarith)
    have := le_of_mul_le_mul_right h3 hn'
    linarith

theorem linspaceOpen_range {lo hi : ℚ} {n i : ℕ} (h : lo < hi) (hi' : i < n) :
    lo ≤ linspaceOpen lo hi n i ∧ linspaceOpen lo hi n i < hi := by
  have hn' : (0 : ℚ) < (n : ℚ) := by exact_mod_cast (lt_of_le_of_lt (Nat.zero_le _) hi')
  have h1 : (i : ℚ) < (n : ℚ) := by exact_mod_cast hi'
  have h2 := linspaceOpen_step (lo := lo) (hi := hi) (n := n) (by omega) i
  constructor
  · unfold linspaceOpen
    have : 0 ≤ (i : ℚ) * ((hi - lo) / (n : ℚ)) := mul_nonneg (by positivity) (div_nonneg (by linarith) hn'.le)
    linarith
  · have h3 : (linspaceOpen lo hi n i - lo) * (n : ℚ) < (hi - lo) * (n : ℚ) := by
      rw [h2, mul_comm]
      exact mul_lt_mul_of_pos_left h1 (by linarith)
    have := lt_of_mul_lt_mul_right h3 hn'.le
    linarith

theorem shape_lattice {V : Type} {b : Boundary} {ny nx : ℕ} (d : ℕ → ℕ → V) (hla : b.latMin < b.latMax)
    (hlo : b.longMin < b.longMax) (hy : 2 ≤ ny) (hx : 2 ≤ nx) :
    let l := Shape.rows ny nx (linspace b.latMin b.latMax ny) (linspace b.longMin b.longMax nx) d
    toXarray l = .ok l ∧ Spec.OnLattice b ny nx ((ny : ℚ) - 1) ((nx : ℚ) - 1) l ∧ Spec.InBox b l := by
  intro l
  refine ⟨?_, ⟨?_, ?_⟩, ?_⟩
  · unfold toXarray
    rw [if_pos (shape_nodup (linspace_inj hla hy) (linspace_inj hlo hx))]
  · intro r hr
    obtain ⟨i, hi, j, hj, rfl⟩ := mem_shape_rows.1 hr
    exact ⟨i, hi, j, hj, linspace_step hy i, linspace_step hx j⟩
  · intro i hi j hj
    refine shape_count_rows hi hj (fun y => decide ((y - b.latMin) * ((ny : ℚ) - 1) = i * (b.latMax - b.latMin)))
      (fun x => decide ((x - b.longMin) * ((nx : ℚ) - 1) = j * (b.longMax - b.longMin))) ?_ ?_
    · intro k _
      rw [decide_eq_true_iff, linspace_step hy]
      constructor
      · intro e
        have := mul_right_cancel₀ (sub_ne_zero.2 hla.ne') e
        exact_mod_cast this
      · rintro rfl; rfl
    · intro k _
      rw [decide_eq_true_iff, linspace_step hx]
      constructor
      · intro e
        have := mul_right_cancel₀ (sub_ne_zero.2 hlo.ne') e
        exact_mod_cast this
      · rintro rfl; rfl
  · intro r hr
    obtain ⟨i, hi, j, hj, rfl⟩ := mem_shape_rows.1 hr
    have h1 := linspace_range hla hy hi
    have h2 := linspace_range hlo hx hj
    exact ⟨h1.1, h1.2, h2.1, h2.2⟩

theorem shape_lattice_open {V : Type} {b : Boundary} {ny nx : ℕ} (d : ℕ → ℕ → V) (hla : b.latMin < b.latMax)
    (hlo : b.longMin < b.longMax) (hy : 1 ≤ ny) (hx : 1 ≤ nx) :
    let l := Shape.rows ny nx (linspaceOpen b.latMin b.latMax ny) (linspaceOpen b.longMin b.longMax nx) d
    toXarray l = .ok l ∧ Spec.OnLattice b ny nx ny nx l ∧ Spec.InBox b l := by
  intro l
  refine ⟨?_, ⟨?_, ?_⟩, ?_⟩
  · unfold toXarray
    rw [if_pos (shape_nodup (linspaceOpen_inj hla hy) (linspaceOpen_inj hlo hx))]
  · intro r hr
    obtain ⟨i, hi, j, hj, rfl⟩ := mem_shape_rows.1 hr
    exact ⟨i, hi, j, hj, linspaceOpen_step hy i, linspaceOpen_step hx j⟩
  · intro i hi j hj
    refine shape_count_rows hi hj (fun y => decide ((y - b.latMin) * (ny : ℚ) = i * (b.latMax - b.latMin)))
      (fun x => decide ((x - b.longMin) * (nx : ℚ) = j * (b.longMax - b.longMin))) ?_ ?_
    · intro k _
      rw [decide_eq_true_iff, linspaceOpen_step hy]
      constructor
      · intro e
        have := mul_right_cancel₀ (sub_ne_zero.2 hla.ne') e
        exact_mod_cast this
      · rintro rfl; rfl
    · intro k _
      rw [decide_eq_true_iff, linspaceOpen_step hx]
      constructor
      · intro e
        have := mul_right_cancel₀ (sub_ne_zero.2 hlo.ne') e
        exact_mod_cast this
      · rintro rfl; rfl
  · intro r hr
    obtain ⟨i, hi, j, hj, rfl⟩ := mem_shape_rows.1 hr
    have h1 := linspaceOpen_range hla hi
    have h2 := linspaceOpen_range hlo hj
    exact ⟨h1.1, h1.2.le, h2.1, h2.2.le⟩

/-- The middle element of an axis with an odd number of elements is the middle of the axis. -/
theorem linspace_mid (lo hi : ℚ) (k : ℕ) (hk : 1 ≤ k) : linspace lo hi (2 * k + 1) ((2 * k + 1) / 2) = (lo + hi) / 2 := by
  have e : (2 * k + 1) / 2 = k := by omega
  rw [e]
  have hk' : (k : ℚ) ≠ 0 := by
    have : (1 : ℚ) ≤ k := by exact_mod_cast hk
    intro h; linarith
  unfold linspace
  push_cast
  have : (2 * (k : ℚ) + 1 - 1) = 2 * k := by ring
  rw [this]
  field_simp
  ring

/-! ## C62: circle, rectangle, gradient, checkerboard -/

/-- What the centre of a shape should be: the given coordinate, or the middle of the axis. -/
def Spec.Centre (lo hi : ℚ) : Option ℚ → ℚ
  | some c => c
  | none => (lo + hi) / 2

theorem centreOr_ok {lo hi : ℚ} {n : ℕ} {c : Option ℚ} (h : c ≠ some 0) (hn : c = none → ∃ k, 1 ≤ k ∧ n = 2 * k + 1) :
    centreOr (linspace lo hi n) n c = .ok (Spec.Centre lo hi c) := by
  cases c with
  | some c =>
    have : c ≠ 0 := fun e => h (by rw [e])
    simp only [centreOr, if_neg this, Spec.Centre]
  | none =>
    obtain ⟨k, hk, rfl⟩ := hn rfl
    simp only [centreOr, Spec.Centre]
    rw [if_neg (by omega), linspace_mid lo hi k hk]

theorem centreOr_total {lo hi : ℚ} {n : ℕ} (c : Option ℚ) (hn : 1 ≤ n) : ∃ y, centreOr (linspace lo hi n) n c = .ok y := by
  unfold centreOr
  have : n ≠ 0 := by omega
  cases c with
  | none => simp [this]
  | some c => by_cases h : c = 0 <;> simp [h, this]

/-- C62: the data of a circle is the multiplier at the lattice points in the disc and zero at the others.
Guards: the region does not cross the antimeridian, no centre coordinate is zero, and an axis without a
given centre has an odd number of points. -/
theorem C62_circle_partial (p : Params) (b : Boundary) (ny nx : ℕ) (c : Option ℚ × Option ℚ) (radius m : ℚ)
    (hname : p.name = "circle") (hla : b.latMin < b.latMax) (hlo : b.longMin < b.longMax)
    (hny : p.ny.getD 101 = ny) (hnx : p.nx.getD 101 = nx) (hy : 2 ≤ ny) (hx : 2 ≤ nx)
    (hc : p.centre.getD (none, none) = c) (hr : p.radius.getD 1 = radius) (hr0 : 0 ≤ radius) (hm : p.multiplier.getD 1 = m)
    (h1 : c.1 ≠ some 0) (h2 : c.2 ≠ some 0) (o1 : c.1 = none → ny % 2 = 1) (o2 : c.2 = none → nx % 2 = 1) :
    ∃ l, importData p b = .ok l ∧ Spec.OnLattice b ny nx ((ny : ℚ) - 1) ((nx : ℚ) - 1) l ∧ Spec.InBox b l ∧
      ∀ r ∈ l,
        ((r.long - Spec.Centre b.longMin b.longMax c.2) ^ 2 + (r.lat - Spec.Centre b.latMin b.latMax c.1) ^ 2 ≤ radius ^ 2 → r.val = m) ∧
        (¬ (r.long - Spec.Centre b.longMin b.longMax c.2) ^ 2 + (r.lat - Spec.Centre b.latMin b.latMax c.1) ^ 2 ≤ radius ^ 2 → r.val = 0) := by
  have e : addDefaults p = { p with ny := some ny, nx := some nx, multiplier := some m, radius := some radius, centre := some c } := by
    obtain ⟨pn, pnx, pny, pm, pu, pv, pr, pw, ph, pc, pve, pg⟩ := p
    simp only at hname hny hnx hc hr hm
    subst hname
    cases pnx <;> cases pny <;> cases pm <;> cases pr <;> cases pc <;>
      simp_all [addDefaults]
  have ec1 := centreOr_ok (lo := b.latMin) (hi := b.latMax) (n := ny) h1 (fun h => ⟨ny / 2, by omega, by have := o1 h; omega⟩)
  have ec2 := centreOr_ok (lo := b.longMin) (hi := b.longMax) (n := nx) h2 (fun h => ⟨nx / 2, by omega, by have := o2 h; omega⟩)
  set cy := Spec.Centre b.latMin b.latMax c.1 with hcy
  set cx := Spec.Centre b.longMin b.longMax c.2 with hcx
  have hl := shape_lattice (b := b) (fun i j => ind (inCircle cy cx radius (linspace b.latMin b.latMax ny i)
    (linspace b.longMin b.longMax nx j)) * m) hla hlo hy hx
  refine ⟨_, ?_, hl.2.1, hl.2.2, ?_⟩
  · unfold importData
    rw [e]
    simp only [hname, if_true, genCircle, attr, ec1, ec2, bind, Except.bind, pure, Except.pure]
    exact hl.1
  · intro r hr
    obtain ⟨i, hi, j, hj, rfl⟩ := mem_shape_rows.1 hr
    constructor
    · intro h
      simp only [inCircle, hr0, decide_true, h, Bool.and_self, ind, if_true, one_mul]
    · intro h
      simp only [inCircle, hr0, decide_true, h, decide_false, Bool.and_false, ind, Bool.false_eq_true, if_false, zero_mul]

/-- C62: the data of a rectangle is the multiplier at the lattice points at most `width` (not half of it)
in longitude and `height` in latitude from the centre, and zero at the others.  Same guards. -/
theorem C62_rectangle_partial (p : Params) (b : Boundary) (ny nx : ℕ) (c : Option ℚ × Option ℚ) (w h m : ℚ)
    (hname : p.name = "rectangle") (hla : b.latMin < b.latMax) (hlo : b.longMin < b.longMax)
    (hny : p.ny.getD 101 = ny) (hnx : p.nx.getD 101 = nx) (hy : 2 ≤ ny) (hx : 2 ≤ nx)
    (hc : p.centre.getD (none, none) = c) (hw : p.width.getD 1 = w) (hh : p.height = some h) (hm : p.multiplier.getD 1 = m)
    (h1 : c.1 ≠ some 0) (h2 : c.2 ≠ some 0) (o1 : c.1 = none → ny % 2 = 1) (o2 : c.2 = none → nx % 2 = 1) :
    ∃ l, importData p b = .ok l ∧ Spec.OnLattice b ny nx ((ny : ℚ) - 1) ((nx : ℚ) - 1) l ∧ Spec.InBox b l ∧
      ∀ r ∈ l,
        ((|r.long - Spec.Centre b.longMin b.longMax c.2| ≤ w ∧ |r.lat - Spec.Centre b.latMin b.latMax c.1| ≤ h) → r.val = m) ∧
        (¬ (|r.long - Spec.Centre b.longMin b.longMax c.2| ≤ w ∧ |r.lat - Spec.Centre b.latMin b.latMax c.1| ≤ h) → r.val = 0) := by
  have e : addDefaults p = { p with ny := some ny, nx := some nx, multiplier := some m, width := some w, height := some h, centre := some c } := by
    obtain ⟨pn, pnx, pny, pm, pu, pv, pr, pw, ph, pc, pve, pg⟩ := p
    simp only at hname hny hnx hc hw hh hm
    subst hname
    cases pnx <;> cases pny <;> cases pm <;> cases pw <;> cases pc <;>
      simp_all [addDefaults]
  have ec1 := centreOr_ok (lo := b.latMin) (hi := b.latMax) (n := ny) h1 (fun h => ⟨ny / 2, by omega, by have := o1 h; omega⟩)
  have ec2 := centreOr_ok (lo := b.longMin) (hi := b.longMax) (n := nx) h2 (fun h => ⟨nx / 2, by omega, by have := o2 h; omega⟩)
  set cy := Spec.Centre b.latMin b.latMax c.1 with hcy
  set cx := Spec.Centre b.longMin b.longMax c.2 with hcx
  have hl := shape_lattice (b := b) (fun i j => ind (inRectangle cy cx w h (linspace b.latMin b.latMax ny i)
    (linspace b.longMin b.longMax nx j)) * m) hla hlo hy hx
  refine ⟨_, ?_, hl.2.1, hl.2.2, ?_⟩
  · unfold importData
    rw [e]
    have n1 : ("rectangle" : String) ≠ "circle" := by decide
    have n2 : ("rectangle" : String) ≠ "checkerboard" := by decide
    have n3 : ("rectangle" : String) ≠ "gradient" := by decide
    simp only [hname, n1, n2, n3, if_true, if_false, genRectangle, attr, ec1, ec2, bind, Except.bind, pure, Except.pure]
    exact hl.1
  · intro r hr
    obtain ⟨i, hi, j, hj, rfl⟩ := mem_shape_rows.1 hr
    constructor
    · rintro ⟨ha, hb⟩
      simp only [inRectangle, ha, hb, decide_true, Bool.and_self, ind, if_true, one_mul]
    · intro hn
      have : inRectangle cy cx w h (linspace b.latMin b.latMax ny i) (linspace b.longMin b.longMax nx j) = false := by
        unfold inRectangle
        rw [Bool.and_eq_false_iff, decide_eq_false_iff_not, decide_eq_false_iff_not]
        by_contra hcon
        push Not at hcon
        exact hn hcon
      simp only [this, ind, Bool.false_eq_true, if_false, zero_mul]

/-- C62: a gradient grows evenly from zero on one edge to the multiplier on the opposite one. -/
theorem C62_gradient_partial (p : Params) (b : Boundary) (ny nx : ℕ) (m : ℚ)
    (hname : p.name = "gradient") (hla : b.latMin < b.latMax) (hlo : b.longMin < b.longMax)
    (hny : p.ny.getD 101 = ny) (hnx : p.nx.getD 101 = nx) (hy : 2 ≤ ny) (hx : 2 ≤ nx) (hm : p.multiplier.getD 1 = m) :
    ∃ l, importData p b = .ok l ∧ Spec.OnLattice b ny nx ((ny : ℚ) - 1) ((nx : ℚ) - 1) l ∧ Spec.InBox b l ∧
      ∀ r ∈ l,
        (p.vertical ≠ some false → r.val * (b.latMax - b.latMin) = (r.lat - b.latMin) * m) ∧
        (p.vertical = some false → r.val * (b.longMax - b.longMin) = (r.long - b.longMin) * m) := by
  have e : addDefaults p = { p with ny := some ny, nx := some nx, multiplier := some m, vertical := some (p.vertical.getD true) } := by
    obtain ⟨pn, pnx, pny, pm, pu, pv, pr, pw, ph, pc, pve, pg⟩ := p
    simp only at hname hny hnx hm
    subst hname
    cases pnx <;> cases pny <;> cases pm <;> cases pve <;>
      simp_all [addDefaults]
  have n1 : ("gradient" : String) ≠ "circle" := by decide
  have n2 : ("gradient" : String) ≠ "checkerboard" := by decide
  have key : ∀ (lo hi : ℚ) (n i : ℕ), 2 ≤ n →
      linspace 0 1 n i * m * (hi - lo) = (linspace lo hi n i - lo) * m := by
    intro lo hi n i hn
    have hn' : ((n : ℚ) - 1) ≠ 0 := by
      have : (2 : ℚ) ≤ n := by exact_mod_cast hn
      intro h; linarith
    unfold linspace
    field_simp
    ring
  rcases hv : p.vertical.getD true with _ | _
  · have hv' : p.vertical = some false := by
      rcases hp : p.vertical with _ | v
      · rw [hp] at hv; simp at hv
      · rw [hp] at hv; simp only [Option.getD_some] at hv; rw [hv]
    have hl := shape_lattice (b := b) (fun _ j => linspace 0 1 nx j * m) hla hlo hy hx
    refine ⟨_, ?_, hl.2.1, hl.2.2, ?_⟩
    · unfold importData
      rw [e]
      simp only [hname, n1, n2, if_true, if_false, genGradient, attr, hv, bind, Except.bind, pure, Except.pure, Bool.false_eq_true]
      exact hl.1
    · intro r hr
      obtain ⟨i, hi, j, hj, rfl⟩ := mem_shape_rows.1 hr
      exact ⟨fun h => absurd hv' h, fun _ => key _ _ _ _ hx⟩
  · have hv' : p.vertical ≠ some false := by
      intro h; rw [h] at hv; simp at hv
    have hl := shape_lattice (b := b) (fun i _ => linspace 0 1 ny i * m) hla hlo hy hx
    refine ⟨_, ?_, hl.2.1, hl.2.2, ?_⟩
    · unfold importData
      rw [e]
      simp only [hname, n1, n2, if_true, if_false, genGradient, attr, hv, bind, Except.bind, pure, Except.pure]
      exact hl.1
    · intro r hr
      obtain ⟨i, hi, j, hj, rfl⟩ := mem_shape_rows.1 hr
      exact ⟨fun _ => key _ _ _ _ hy, fun h => absurd h hv'⟩

theorem pyMod_two_int (n : ℤ) : pyMod (n : ℚ) 2 = ((n % 2 : ℤ) : ℚ) := by
  have h1 : ((n / 2 : ℤ) : ℚ) * 2 + ((n % 2 : ℤ) : ℚ) = n := by
    have : n / 2 * 2 + n % 2 = n := by omega
    exact_mod_cast this
  have h2 : (n : ℚ) = ((n % 2 : ℤ) : ℚ) + 2 * ((n / 2 : ℤ) : ℚ) := by linarith
  rw [h2, pyMod_add_int_mul (by norm_num)]
  apply pyMod_of_range
  · have : 0 ≤ n % 2 := by omega
    exact_mod_cast this
  · have : n % 2 < 2 := by omega
    exact_mod_cast this

/-- C62: a checkerboard is constant (0 or 1) on every square of the given size, squares being counted from
the lower left corner, and squares with an edge in common differ.  The multiplier has no effect. -/
theorem C62_checkerboard_partial (p : Params) (b : Boundary) (ny nx : ℕ) (g : ℚ × ℚ)
    (hname : p.name = "checkerboard") (hla : b.latMin < b.latMax) (hlo : b.longMin < b.longMax)
    (hny : p.ny.getD 101 = ny) (hnx : p.nx.getD 101 = nx) (hy : 1 ≤ ny) (hx : 1 ≤ nx) (hg : p.gridsize.getD (1, 1) = g)
    (hg1 : 0 < g.1) (hg2 : 0 < g.2) :
    ∃ l, importData p b = .ok l ∧ Spec.OnLattice b ny nx ny nx l ∧ Spec.InBox b l ∧
      ∀ r ∈ l, ∀ sy sx : ℕ,
        b.latMin + sy * g.2 ≤ r.lat → r.lat < b.latMin + (sy + 1) * g.2 →
        b.longMin + sx * g.1 ≤ r.long → r.long < b.longMin + (sx + 1) * g.1 →
        r.val = if (sy + sx) % 2 = 0 then 0 else 1 := by
  have e : addDefaults p = { p with ny := some ny, nx := some nx, multiplier := some (p.multiplier.getD 1), gridsize := some g } := by
    obtain ⟨pn, pnx, pny, pm, pu, pv, pr, pw, ph, pc, pve, pg⟩ := p
    simp only at hname hny hnx hg
    subst hname
    cases pnx <;> cases pny <;> cases pm <;> cases pg <;>
      simp_all [addDefaults]
  have n1 : ("checkerboard" : String) ≠ "circle" := by decide
  have n2 : ("checkerboard" : String) ≠ "rectangle" := by decide
  have hl := shape_lattice_open (b := b) (fun i j =>
    pyMod (pyMod ((⌊(linspaceOpen b.latMin b.latMax ny i - b.latMin) / g.2⌋ : ℤ) : ℚ) 2 +
      pyMod ((⌊(linspaceOpen b.longMin b.longMax nx j - b.longMin) / g.1⌋ : ℤ) : ℚ) 2) 2) hla hlo hy hx
  refine ⟨_, ?_, hl.2.1, hl.2.2, ?_⟩
  · unfold importData
    rw [e]
    simp only [hname, n1, if_true, if_false, genCheckerboard, attr, bind, Except.bind, pure, Except.pure]
    exact hl.1
  · intro r hr sy sx a1 a2 a3 a4
    obtain ⟨i, hi, j, hj, rfl⟩ := mem_shape_rows.1 hr
    simp only at a1 a2 a3 a4 ⊢
    have f1 : ⌊(linspaceOpen b.latMin b.latMax ny i - b.latMin) / g.2⌋ = (sy : ℤ) := by
      rw [Int.floor_eq_iff, le_div_iff₀ hg2, div_lt_iff₀ hg2]
      push_cast; constructor <;> linarith
    have f2 : ⌊(linspaceOpen b.longMin b.longMax nx j - b.longMin) / g.1⌋ = (sx : ℤ) := by
      rw [Int.floor_eq_iff, le_div_iff₀ hg1, div_lt_iff₀ hg1]
      push_cast; constructor <;> linarith
    rw [f1, f2, pyMod_two_int, pyMod_two_int, ← Int.cast_add, pyMod_two_int]
    have : ((sy : ℤ) % 2 + (sx : ℤ) % 2) % 2 = if (sy + sx) % 2 = 0 then 0 else 1 := by split_ifs <;> omega
    rw [this]
    split_ifs <;> norm_num

/-- A region around the origin, used in the examples. -/
def exShapeBox : Boundary := ⟨-10, 30, -10, 30, []⟩

/-- Values of imported data at a position. -/
def Spec.valueAt {V : Type} (d : Py (List (Row V))) (y x : ℚ) : Py (List V) :=
  d.map (fun l => (l.filter (fun r => r.lat = y ∧ r.long = x)).map Row.val)

example : Spec.valueAt (importData { name := "circle", nx := some 5, ny := some 5, radius := some 10 } exShapeBox) 20 10
    = .ok [1] := by decide +kernel

/-- C62 fails for a centre at zero: a circle requested around `(0, 0)` is drawn around the middle of the
region. -/
theorem C62_centre_false :
    ∃ (p : Params) (b : Boundary), p.name = "circle" ∧ p.centre = some (some 0, some 0) ∧ p.radius = some 1 ∧
      Spec.valueAt (importData p b) 0 0 = .ok [0] ∧ Spec.valueAt (importData p b) 10 10 = .ok [1] :=
  ⟨{ name := "circle", nx := some 5, ny := some 5, radius := some 1, centre := some (some 0, some 0) }, exShapeBox,
   rfl, rfl, rfl, by decide +kernel, by decide +kernel⟩

/-- C62 fails for an even number of points: the default centre is not the middle of the region. -/
theorem C62_even_false :
    ∃ (p : Params) (b : Boundary), p.name = "circle" ∧ p.centre = none ∧ p.radius = some 20 ∧ Spec.Centre b.latMin b.latMax none = 10 ∧
      Spec.valueAt (importData p b) (-10) 30 = .ok [0] ∧ Spec.valueAt (importData p b) (10 / 3) (10 / 3) = .ok [1] ∧
      Spec.valueAt (importData p b) (50 / 3) 30 = .ok [1] ∧ Spec.valueAt (importData p b) (10 / 3) (-10) = .ok [0] :=
  ⟨{ name := "circle", nx := some 4, ny := some 4, radius := some 20 }, exShapeBox, rfl, rfl, rfl, by decide +kernel,
   by decide +kernel, by decide +kernel, by decide +kernel, by decide +kernel⟩

/-- C62 fails for the side lengths of a rectangle: a point 2 degrees away from the centre lies inside a
rectangle with sides of 2 degrees. -/
theorem C62_rectangle_false :
    ∃ (p : Params) (b : Boundary), p.name = "rectangle" ∧ p.width = some 20 ∧ p.height = some 20 ∧ p.centre = some (some 10, some 10) ∧
      Spec.valueAt (importData p b) 10 30 = .ok [1] :=
  ⟨{ name := "rectangle", nx := some 5, ny := some 5, width := some 20, height := some 20, centre := some (some 10, some 10) },
   exShapeBox, rfl, rfl, rfl, rfl, by decide +kernel⟩

/-- C62 fails without a height: every rectangle without one raises `AttributeError`, although a default is
meant to be set. -/
theorem C62_height_false (p : Params) (b : Boundary) (hname : p.name = "rectangle") (hh : p.height = none)
    (hny : p.ny ≠ some 0) (hnx : p.nx ≠ some 0) : importData p b = .error .attributeError := by
  obtain ⟨pn, pnx, pny, pm, pu, pv, pr, pw, ph, pc, pve, pg⟩ := p
  simp only at hname hh hny hnx
  subst hname hh
  have hy : ∀ c : Option ℚ, ∃ y, centreOr (linspace b.latMin b.latMax (pny.getD 101)) (pny.getD 101) c = .ok y := by
    intro c; apply centreOr_total
    cases pny with
    | none => decide
    | some n => simp only [Option.getD_some]; have : n ≠ 0 := fun e => hny (by rw [e]); omega
  have hx : ∀ c : Option ℚ, ∃ y, centreOr (linspace b.longMin b.longMax (pnx.getD 101)) (pnx.getD 101) c = .ok y := by
    intro c; apply centreOr_total
    cases pnx with
    | none => decide
    | some n => simp only [Option.getD_some]; have : n ≠ 0 := fun e => hnx (by rw [e]); omega
  obtain ⟨y, hy'⟩ := hy (pc.getD (none, none)).1
  obtain ⟨x, hx'⟩ := hx (pc.getD (none, none)).2
  have e : addDefaults (⟨"rectangle", pnx, pny, pm, pu, pv, pr, pw, none, pc, pve, pg⟩ : Params) =
      ⟨"rectangle", some (pnx.getD 101), some (pny.getD 101), some (pm.getD 1), pu, pv, pr, some 1, none,
        some (pc.getD (none, none)), pve, pg⟩ := by
    cases pnx <;> cases pny <;> cases pm <;> cases pw <;> cases pc <;> simp [addDefaults]
  unfold importData
  rw [e]
  have n1 : ("rectangle" : String) ≠ "circle" := by decide
  have n2 : ("rectangle" : String) ≠ "checkerboard" := by decide
  have n3 : ("rectangle" : String) ≠ "gradient" := by decide
  simp only [n1, n2, n3, if_true, if_false, genRectangle, attr, hy', hx', bind, Except.bind]

example : importData { name := "rectangle", nx := some 3, ny := some 3, width := some 5 } exShapeBox = .error .attributeError := by
  decide +kernel

/-- C62 fails for the multiplier of a checkerboard. -/
theorem C62_multiplier_false :
    ∃ (p : Params) (b : Boundary), p.name = "checkerboard" ∧ p.multiplier = some 7 ∧
      ∃ l, importData p b = .ok l ∧ (∀ r ∈ l, r.val ≠ 7) ∧ ∃ r ∈ l, r.val = 1 := by
  refine ⟨{ name := "checkerboard", nx := some 2, ny := some 2, multiplier := some 7, gridsize := some (20, 20) }, exShapeBox,
    rfl, rfl, [⟨-10, -10, 0, 0⟩, ⟨-10, 10, 0, 1⟩, ⟨10, -10, 0, 1⟩, ⟨10, 10, 0, 0⟩], by decide +kernel, by decide +kernel, by decide +kernel⟩

/-- C62 fails for a region across the antimeridian: the data lies on the other side of the earth. -/
theorem C62_crossing_false :
    ∃ (p : Params) (b : Boundary), b = ⟨-10, 10, 170, -170, []⟩ ∧ ∃ l, importData p b = .ok l ∧
      ∃ r ∈ l, r.long = 0 :=
  ⟨{ name := "gradient", nx := some 3, ny := some 3 }, ⟨-10, 10, 170, -170, []⟩, rfl,
    (([⟨-10, 170, 0, 0⟩, ⟨-10, 0, 0, 0⟩, ⟨-10, -170, 0, 0⟩, ⟨0, 170, 0, 1/2⟩, ⟨0, 0, 0, 1/2⟩, ⟨0, -170, 0, 1/2⟩,
      ⟨10, 170, 0, 1⟩, ⟨10, 0, 0, 1⟩, ⟨10, -170, 0, 1⟩] : List (Row ℚ))), by decide +kernel, by decide +kernel⟩

example : Spec.valueAt (importData { name := "gradient", nx := some 5, ny := some 5, multiplier := some 8 } exShapeBox) 20 10
    = .ok [6] := by decide +kernel

/-! ## C63: vector shapes -/

/-- C63: with every parameter given, the vector shapes draw what the scalar shapes draw, scaled for each
component. -/
theorem C63_circle_partial (p : Params) (b : Boundary) (ny nx : ℕ) (cy cx radius mu mv : ℚ)
    (hname : p.name = "vector_circle") (hla : b.latMin < b.latMax) (hlo : b.longMin < b.longMax)
    (hny : p.ny.getD 101 = ny) (hnx : p.nx.getD 101 = nx) (hy : 2 ≤ ny) (hx : 2 ≤ nx)
    (hc : p.centre = some (some cy, some cx)) (hr : p.radius = some radius) (hr0 : 0 ≤ radius)
    (hu : p.multiplierU = some mu) (hv : p.multiplierV = some mv) (h1 : cy ≠ 0) (h2 : cx ≠ 0) :
    ∃ l, vecImport p b = .ok l ∧ Spec.OnLattice b ny nx ((ny : ℚ) - 1) ((nx : ℚ) - 1) l ∧ Spec.InBox b l ∧
      ∀ r ∈ l, ((r.long - cx) ^ 2 + (r.lat - cy) ^ 2 ≤ radius ^ 2 → r.val = (mu, mv)) ∧
        (¬ (r.long - cx) ^ 2 + (r.lat - cy) ^ 2 ≤ radius ^ 2 → r.val = (0, 0)) := by
  have e : vecDefaults p = { p with ny := some ny, nx := some nx } := by
    obtain ⟨pn, pnx, pny, pm, pu, pv, pr, pw, ph, pc, pve, pg⟩ := p
    simp only at hname hny hnx hc hr hu hv
    subst hname
    cases pnx <;> cases pny <;> simp_all [vecDefaults]
  have ec1 : centreOr (linspace b.latMin b.latMax ny) ny (some cy) = .ok cy := by simp [centreOr, h1]
  have ec2 : centreOr (linspace b.longMin b.longMax nx) nx (some cx) = .ok cx := by simp [centreOr, h2]
  have hl := shape_lattice (b := b) (fun i j => (ind (inCircle cy cx radius (linspace b.latMin b.latMax ny i)
    (linspace b.longMin b.longMax nx j)) * mu, ind (inCircle cy cx radius (linspace b.latMin b.latMax ny i)
    (linspace b.longMin b.longMax nx j)) * mv)) hla hlo hy hx
  refine ⟨_, ?_, hl.2.1, hl.2.2, ?_⟩
  · unfold vecImport
    rw [e]
    simp only [hname, if_true, vecCircle, attr, hc, ec1, ec2, hr, hu, hv, bind, Except.bind, pure, Except.pure]
    exact hl.1
  · intro r hr
    obtain ⟨i, hi, j, hj, rfl⟩ := mem_shape_rows.1 hr
    constructor
    · intro h
      simp only [inCircle, hr0, decide_true, h, Bool.and_self, ind, if_true, one_mul]
    · intro h
      simp only [inCircle, hr0, decide_true, h, decide_false, Bool.and_false, ind, Bool.false_eq_true, if_false, zero_mul]

/-- C63: a rectangle of vectors with every parameter given. -/
theorem C63_rectangle_partial (p : Params) (b : Boundary) (ny nx : ℕ) (cy cx w h mu mv : ℚ)
    (hname : p.name = "vector_rectangle") (hla : b.latMin < b.latMax) (hlo : b.longMin < b.longMax)
    (hny : p.ny.getD 101 = ny) (hnx : p.nx.getD 101 = nx) (hy : 2 ≤ ny) (hx : 2 ≤ nx)
    (hc : p.centre = some (some cy, some cx)) (hw : p.width = some w) (hh : p.height = some h)
    (hu : p.multiplierU = some mu) (hv : p.multiplierV = some mv) (h1 : cy ≠ 0) (h2 : cx ≠ 0) :
    ∃ l, vecImport p b = .ok l ∧ Spec.OnLattice b ny nx ((ny : ℚ) - 1) ((nx : ℚ) - 1) l ∧ Spec.InBox b l ∧
      ∀ r ∈ l, ((|r.long - cx| ≤ w ∧ |r.lat - cy| ≤ h) → r.val = (mu, mv)) ∧
        (¬ (|r.long - cx| ≤ w ∧ |r.lat - cy| ≤ h) → r.val = (0, 0)) := by
  have e : vecDefaults p = { p with ny := some ny, nx := some nx } := by
    obtain ⟨pn, pnx, pny, pm, pu, pv, pr, pw, ph, pc, pve, pg⟩ := p
    simp only at hname hny hnx hc hw hh hu hv
    subst hname
    cases pnx <;> cases pny <;> simp_all [vecDefaults]
  have ec1 : centreOr (linspace b.latMin b.latMax ny) ny (some cy) = .ok cy := by simp [centreOr, h1]
  have ec2 : centreOr (linspace b.longMin b.longMax nx) nx (some cx) = .ok cx := by simp [centreOr, h2]
  have hl := shape_lattice (b := b) (fun i j => (ind (inRectangle cy cx w h (linspace b.latMin b.latMax ny i)
    (linspace b.longMin b.longMax nx j)) * mu, ind (inRectangle cy cx w h (linspace b.latMin b.latMax ny i)
    (linspace b.longMin b.longMax nx j)) * mv)) hla hlo hy hx
  refine ⟨_, ?_, hl.2.1, hl.2.2, ?_⟩
  · unfold vecImport
    rw [e]
    have n1 : ("vector_rectangle" : String) ≠ "vector_circle" := by decide
    have n2 : ("vector_rectangle" : String) ≠ "vector_gradient" := by decide
    simp only [hname, n1, n2, if_true, if_false, vecRectangle, attr, hc, ec1, ec2, hw, hh, hu, hv, bind, Except.bind, pure, Except.pure]
    exact hl.1
  · intro r hr
    obtain ⟨i, hi, j, hj, rfl⟩ := mem_shape_rows.1 hr
    constructor
    · rintro ⟨ha, hb⟩
      simp only [inRectangle, ha, hb, decide_true, Bool.and_self, ind, if_true, one_mul]
    · intro hn
      have : inRectangle cy cx w h (linspace b.latMin b.latMax ny i) (linspace b.longMin b.longMax nx j) = false := by
        unfold inRectangle
        rw [Bool.and_eq_false_iff, decide_eq_false_iff_not, decide_eq_false_iff_not]
        by_contra hcon
        push Not at hcon
        exact hn hcon
      simp only [this, ind, Bool.false_eq_true, if_false, zero_mul]

/-- C63: a gradient of vectors points along the axis it grows on. -/
theorem C63_gradient_partial (p : Params) (b : Boundary) (ny nx : ℕ) (v : Bool) (mu mv : ℚ)
    (hname : p.name = "vector_gradient") (hla : b.latMin < b.latMax) (hlo : b.longMin < b.longMax)
    (hny : p.ny.getD 101 = ny) (hnx : p.nx.getD 101 = nx) (hy : 2 ≤ ny) (hx : 2 ≤ nx) (hve : p.vertical = some v)
    (hu : p.multiplierU = some mu) (hv : p.multiplierV = some mv) :
    ∃ l, vecImport p b = .ok l ∧ Spec.OnLattice b ny nx ((ny : ℚ) - 1) ((nx : ℚ) - 1) l ∧ Spec.InBox b l ∧
      ∀ r ∈ l,
        (v = true → r.val.1 = 0 ∧ r.val.2 * (b.latMax - b.latMin) = (r.lat - b.latMin) * mv) ∧
        (v = false → r.val.2 = 0 ∧ r.val.1 * (b.longMax - b.longMin) = (r.long - b.longMin) * mu) := by
  have e : vecDefaults p = { p with ny := some ny, nx := some nx } := by
    obtain ⟨pn, pnx, pny, pm, pu, pv, pr, pw, ph, pc, pve, pg⟩ := p
    simp only at hname hny hnx hve hu hv
    subst hname
    cases pnx <;> cases pny <;> simp_all [vecDefaults]
  have key : ∀ (lo hi m : ℚ) (n i : ℕ), 2 ≤ n →
      linspace 0 1 n i * m * (hi - lo) = (linspace lo hi n i - lo) * m := by
    intro lo hi m n i hn
    have hn' : ((n : ℚ) - 1) ≠ 0 := by
      have : (2 : ℚ) ≤ n := by exact_mod_cast hn
      intro h; linarith
    unfold linspace
    field_simp
    ring
  have n1 : ("vector_gradient" : String) ≠ "vector_circle" := by decide
  cases v with
  | true =>
    have hl := shape_lattice (b := b) (fun i _ => (0 * mu, linspace 0 1 ny i * mv)) hla hlo hy hx
    refine ⟨_, ?_, hl.2.1, hl.2.2, ?_⟩
    · unfold vecImport
      rw [e]
      simp only [hname, n1, if_true, if_false, vecGradient, attr, hve, hu, hv, bind, Except.bind, pure, Except.pure]
      exact hl.1
    · intro r hr
      obtain ⟨i, hi, j, hj, rfl⟩ := mem_shape_rows.1 hr
      exact ⟨fun _ => ⟨zero_mul _, key _ _ _ _ _ hy⟩, fun h => by simp at h⟩
  | false =>
    have hl := shape_lattice (b := b) (fun _ j => (linspace 0 1 nx j * mu, 0 * mv)) hla hlo hy hx
    refine ⟨_, ?_, hl.2.1, hl.2.2, ?_⟩
    · unfold vecImport
      rw [e]
      simp only [hname, n1, if_true, if_false, vecGradient, attr, hve, hu, hv, bind, Except.bind, pure, Except.pure, Bool.false_eq_true]
      exact hl.1
    · intro r hr
      obtain ⟨i, hi, j, hj, rfl⟩ := mem_shape_rows.1 hr
      exact ⟨fun h => by simp at h, fun _ => ⟨zero_mul _, key _ _ _ _ _ hx⟩⟩

/-- A vector circle with every parameter given. -/
def exVecCircle : Params where
  name := "vector_circle"
  nx := some 5
  ny := some 5
  radius := some 10
  centre := some (some 10, some 20)
  multiplierU := some 3
  multiplierV := some 4

example : Spec.valueAt (vecImport exVecCircle exShapeBox) 10 30 = .ok [(3, 4)] := by
  decide +kernel

/-- C63 fails for the defaults: without `multiplier_u` or without `multiplier_v` no vector shape is ever
produced, although the code sets out to default them. -/
theorem C63_defaults_false (p : Params) (b : Boundary) (h : p.multiplierU = none ∨ p.multiplierV = none) :
    ¬ ∃ l, vecImport p b = .ok l := by
  rintro ⟨l, hl⟩
  have hU : (vecDefaults p).multiplierU = p.multiplierU ∧ (vecDefaults p).multiplierV = p.multiplierV := by
    unfold vecDefaults
    constructor
    · simp only [apply_ite Params.multiplierU, ite_self]
    · simp only [apply_ite Params.multiplierV, ite_self]
  have hn : attr (vecDefaults p).multiplierU = .error .attributeError ∨ attr (vecDefaults p).multiplierV = .error .attributeError := by
    rw [hU.1, hU.2]
    rcases h with h | h
    · left; rw [h]; rfl
    · right; rw [h]; rfl
  unfold vecImport at hl
  generalize vecDefaults p = q at hl hn
  simp only [bind, Except.bind] at hl
  have hu : ∀ mu mv, ¬ (attr q.multiplierU = .ok mu ∧ attr q.multiplierV = .ok mv) := by
    rintro mu mv ⟨a, c⟩
    rcases hn with hn | hn
    · rw [hn] at a; cases a
    · rw [hn] at c; cases c
  split_ifs at hl
  · cases hc : vecCircle q b with
    | error e => rw [hc] at hl; cases hl
    | ok r =>
      simp only [vecCircle, bind, Except.bind, pure, Except.pure] at hc
      repeat' split at hc
      all_goals first | (cases hc; done) | exact hu _ _ ⟨by assumption, by assumption⟩
  · cases hc : vecGradient q b with
    | error e => rw [hc] at hl; cases hl
    | ok r =>
      simp only [vecGradient, bind, Except.bind, pure, Except.pure] at hc
      repeat' split at hc
      all_goals first | (cases hc; done) | exact hu _ _ ⟨by assumption, by assumption⟩
  · cases hc : vecRectangle q b with
    | error e => rw [hc] at hl; cases hl
    | ok r =>
      simp only [vecRectangle, bind, Except.bind, pure, Except.pure] at hc
      repeat' split at hc
      all_goals first | (cases hc; done) | exact hu _ _ ⟨by assumption, by assumption⟩

example : ¬ ∃ l, vecImport { name := "vector_gradient", vertical := some true } exShapeBox = .ok l :=
  C63_defaults_false _ _ (Or.inl rfl)

end Verif
