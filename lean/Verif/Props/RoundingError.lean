import Verif.Proof.RoundingError
import Verif.Proof.MeshInv
import Verif.Proof.EnvBuild
import Verif.Props.Rounding
import Mathlib.Data.List.Forall2

/-!
# C111: gaps and overlaps of meshes built in floating point
-/

namespace Verif
open Spec

/-- A point of the plane in a rectangle, its western and southern edges included. -/
def Spec.Patch.Has (q : Patch) (y x : ℚ) : Prop := q.y0 ≤ y ∧ y < q.y1 ∧ q.x0 ≤ x ∧ x < q.x1

instance (q : Patch) (y x : ℚ) : Decidable (q.Has y x) := inferInstanceAs (Decidable (_ ∧ _ ∧ _ ∧ _))

/-- How many rectangles of a list a point is in. -/
def Spec.count (l : List Patch) (y x : ℚ) : ℕ := l.countP (fun q => decide (q.Has y x))

/-- A region as a rectangle. -/
def Spec.patchOf (b : Boundary) : Patch := ⟨b.latMin, b.latMax, b.longMin, b.longMin + b.width⟩

/-- The rectangle in row `i` and column `j` of a region divided evenly. -/
def Spec.gridPatch (b : Boundary) (nx ny i j : ℕ) : Patch :=
  ⟨b.latMin + i * (b.height / ny), b.latMin + (i + 1) * (b.height / ny), b.longMin + j * (b.width / nx), b.longMin + (j + 1) * (b.width / nx)⟩

/-- A region divided evenly into rectangles, some of which are divided into quarters again and again: a divided one is replaced by `none` and
its quarters follow at the end. -/
inductive Spec.Divided (b : Boundary) (nx ny : ℕ) : List (Option Patch) → Prop
  | grid : Divided b nx ny ((List.range ny).flatMap (fun i => (List.range nx).map (fun j => some (gridPatch b nx ny i j))))
  | split {t : List (Option Patch)} {k : ℕ} {q : Patch} : Divided b nx ny t → t[k]? = some (some q) →
      Divided b nx ny ((t ++ q.parts.map some).set k none)

/-- A point is in a box enlarged by `e` on all sides. -/
def Spec.WithinOf (e : ℚ) (b : Boundary) (y x : ℚ) : Prop :=
  b.latMin - e ≤ y ∧ y ≤ b.latMax + e ∧ ∃ k : ℤ, b.longMin - e ≤ x + 360 * k ∧ x + 360 * k ≤ b.longMin + b.width + e

/-- A point is more than `e` inside of a box. -/
def Spec.DeepIn (e : ℚ) (b : Boundary) (y x : ℚ) : Prop :=
  b.latMin + e < y ∧ y < b.latMax - e ∧ ∃ k : ℤ, b.longMin + e < x + 360 * k ∧ x + 360 * k < b.longMin + b.width - e

section Tiling

theorem count_parts (q : Patch) (h : q.y0 ≤ q.y1) (h' : q.x0 ≤ q.x1) (y x : ℚ) : count q.parts y x = if q.Has y x then 1 else 0 := by
  unfold count Patch.parts Patch.Has
  simp only [List.countP_cons, List.countP_nil]
  rcases lt_or_ge y ((q.y0 + q.y1) / 2) with hy | hy <;> rcases lt_or_ge x ((q.x0 + q.x1) / 2) with hx | hx
  · have e1 : ¬ (q.y0 + q.y1) / 2 ≤ y := not_le.2 hy
    have e2 : ¬ (q.x0 + q.x1) / 2 ≤ x := not_le.2 hx
    have e3 : y < q.y1 := by linarith
    have e4 : x < q.x1 := by linarith
    simp [hy, hx, e1, e2, e3, e4]
  · have e1 : ¬ (q.y0 + q.y1) / 2 ≤ y := not_le.2 hy
    have e2 : ¬ x < (q.x0 + q.x1) / 2 := not_lt.2 hx
    have e3 : y < q.y1 := by linarith
    have e4 : q.x0 ≤ x := by linarith
    simp [hy, hx, e1, e2, e3, e4]
  · have e1 : ¬ y < (q.y0 + q.y1) / 2 := not_lt.2 hy
    have e2 : ¬ (q.x0 + q.x1) / 2 ≤ x := not_le.2 hx
    have e3 : q.y0 ≤ y := by linarith
    have e4 : x < q.x1 := by linarith
    simp [hy, hx, e1, e2, e3, e4]
  · have e1 : ¬ y < (q.y0 + q.y1) / 2 := not_lt.2 hy
    have e2 : ¬ x < (q.x0 + q.x1) / 2 := not_lt.2 hx
    have e3 : q.y0 ≤ y := by linarith
    have e4 : q.x0 ≤ x := by linarith
    simp [hy, hx, e1, e2, e3, e4]

theorem count_set (t : List (Option Patch)) (k : ℕ) (q : Patch) (h : t[k]? = some (some q)) (y x : ℚ) :
    count ((t.set k none).filterMap id) y x + (if q.Has y x then 1 else 0) = count (t.filterMap id) y x := by
  unfold count
  induction t generalizing k with
  | nil => simp at h
  | cons a t ih =>
    cases k with
    | zero =>
      simp at h
      subst h
      simp [List.countP_cons]
    | succ k =>
      simp at h
      have := ih k h
      cases a with
      | none => simpa [List.filterMap_cons] using this
      | some a =>
        rw [List.set_cons_succ, List.filterMap_cons_some (f := id) rfl, List.filterMap_cons_some (f := id) rfl, List.countP_cons, List.countP_cons]
        omega

theorem count_row (n : ℕ) (a s : ℚ) (hs : 0 ≤ s) (x : ℚ) :
    (List.range n).countP (fun j : ℕ => decide (a + j * s ≤ x ∧ x < a + (j + 1) * s)) = if a ≤ x ∧ x < a + n * s then 1 else 0 := by
  induction n with
  | zero => simp
  | succ n ih =>
    rw [List.range_succ, List.countP_append, ih]
    simp only [List.countP_cons, List.countP_nil, decide_eq_true_eq]
    have hn : (0 : ℚ) ≤ n * s := by positivity
    push_cast
    rcases lt_or_ge x (a + n * s) with h | h
    · have h1 : ¬ a + n * s ≤ x := not_le.2 h
      have h2 : x < a + (n + 1) * s := by linarith
      simp [h, h1, h2]
    · have h1 : ¬ x < a + n * s := not_lt.2 h
      have h2 : a ≤ x := by linarith
      simp [h, h1, h2]

theorem count_grid (b : Boundary) (nx ny : ℕ) (hh : 0 ≤ b.height) (hw : 0 ≤ b.width) (hx : 0 < nx) (hy : 0 < ny) (y x : ℚ) :
    count (((List.range ny).flatMap (fun i => (List.range nx).map (fun j => some (gridPatch b nx ny i j)))).filterMap id) y x =
      if (patchOf b).Has y x then 1 else 0 := by
  have hx' : (nx : ℚ) ≠ 0 := by positivity
  have hy' : (ny : ℚ) ≠ 0 := by positivity
  have sx : 0 ≤ b.width / nx := by positivity
  have sy : 0 ≤ b.height / ny := by positivity
  have e0 : ((List.range ny).flatMap (fun i => (List.range nx).map (fun j => some (gridPatch b nx ny i j)))).filterMap id =
      (List.range ny).flatMap (fun i => (List.range nx).map (fun j => gridPatch b nx ny i j)) := by
    rw [List.filterMap_flatMap]
    congr 1
    funext i
    rw [List.filterMap_map]
    exact congrFun List.filterMap_eq_map _
  have row : ∀ i : ℕ, ((List.range nx).map (fun j => gridPatch b nx ny i j)).countP (fun q => decide (q.Has y x)) =
      if b.latMin + i * (b.height / ny) ≤ y ∧ y < b.latMin + (i + 1) * (b.height / ny) then
        (if b.longMin ≤ x ∧ x < b.longMin + nx * (b.width / nx) then 1 else 0) else 0 := by
    intro i
    rw [← count_row nx b.longMin _ sx x, List.countP_map]
    split_ifs with h
    · apply List.countP_congr
      intro j _
      simp [Patch.Has, gridPatch, h.1, h.2]
    · apply List.countP_eq_zero.2
      intro j _ hj
      have hj := of_decide_eq_true hj
      exact h ⟨hj.1, hj.2.1⟩
  have all : ∀ (l : List ℕ) (c : ℕ), (l.map (fun i : ℕ => if b.latMin + i * (b.height / ny) ≤ y ∧ y < b.latMin + (i + 1) * (b.height / ny) then c else 0)).sum =
      c * l.countP (fun i : ℕ => decide (b.latMin + i * (b.height / ny) ≤ y ∧ y < b.latMin + (i + 1) * (b.height / ny))) := by
    intro l c
    induction l with
    | nil => simp
    | cons i l ih =>
      rw [List.map_cons, List.sum_cons, ih, List.countP_cons]
      simp only [decide_eq_true_eq]
      split_ifs <;> ring
  unfold count
  rw [e0, List.countP_flatMap]
  have e1 : (List.map (List.countP (fun q => decide (q.Has y x)) ∘ fun i => (List.range nx).map (fun j => gridPatch b nx ny i j)) (List.range ny)) =
      (List.range ny).map (fun i : ℕ => if b.latMin + i * (b.height / ny) ≤ y ∧ y < b.latMin + (i + 1) * (b.height / ny) then
        (if b.longMin ≤ x ∧ x < b.longMin + nx * (b.width / nx) then 1 else 0) else 0) := by
    apply List.map_congr_left
    intro i _
    exact row i
  rw [e1, all, count_row ny b.latMin _ sy y, mul_div_cancel₀ _ hx', mul_div_cancel₀ _ hy']
  have e2 : b.latMin + b.height = b.latMax := by unfold Boundary.height; ring
  rw [e2]
  have hH : (patchOf b).Has y x ↔ (b.latMin ≤ y ∧ y < b.latMax) ∧ (b.longMin ≤ x ∧ x < b.longMin + b.width) := by
    unfold Patch.Has patchOf
    dsimp only
    tauto
  simp only [hH]
  by_cases c1 : b.latMin ≤ y ∧ y < b.latMax <;> by_cases c2 : b.longMin ≤ x ∧ x < b.longMin + b.width <;> simp only [c1, c2, and_self, and_true, and_false, if_true, if_false, mul_one, mul_zero]

/-- The rectangles of a divided region are ordered and tile it. -/
theorem divided_tiles {b : Boundary} {nx ny : ℕ} (hh : 0 ≤ b.height) (hw : 0 ≤ b.width) (hx : 0 < nx) (hy : 0 < ny)
    {t : List (Option Patch)} (h : Divided b nx ny t) :
    (∀ q, some q ∈ t → (q.y0 ≤ q.y1 ∧ q.x0 ≤ q.x1) ∧ b.latMin ≤ q.y0 ∧ q.y1 ≤ b.latMax ∧ b.longMin ≤ q.x0 ∧ q.x1 ≤ b.longMin + b.width) ∧
      ∀ y x, count (t.filterMap id) y x = if (patchOf b).Has y x then 1 else 0 := by
  induction h with
  | grid =>
    refine ⟨?_, count_grid b nx ny hh hw hx hy⟩
    intro q hq
    simp only [List.mem_flatMap, List.mem_map, Option.some.injEq] at hq
    obtain ⟨i, hi, j, hj, rfl⟩ := hq
    rw [List.mem_range] at hi hj
    have sx : 0 ≤ b.width / nx := by positivity
    have sy : 0 ≤ b.height / ny := by positivity
    have nx0 : (nx : ℚ) ≠ 0 := by exact_mod_cast hx.ne'
    have ny0 : (ny : ℚ) ≠ 0 := by exact_mod_cast hy.ne'
    have fx : (nx : ℚ) * (b.width / nx) = b.width := mul_div_cancel₀ _ nx0
    have fy : (ny : ℚ) * (b.height / ny) = b.height := mul_div_cancel₀ _ ny0
    have hi' : (i : ℚ) + 1 ≤ ny := by exact_mod_cast hi
    have hj' : (j : ℚ) + 1 ≤ nx := by exact_mod_cast hj
    have ex : ((j : ℚ) + 1) * (b.width / nx) ≤ nx * (b.width / nx) := mul_le_mul_of_nonneg_right hj' sx
    have ey : ((i : ℚ) + 1) * (b.height / ny) ≤ ny * (b.height / ny) := mul_le_mul_of_nonneg_right hi' sy
    have gx : 0 ≤ (j : ℚ) * (b.width / nx) := by positivity
    have gy : 0 ≤ (i : ℚ) * (b.height / ny) := by positivity
    have hh' : b.height = b.latMax - b.latMin := rfl
    unfold gridPatch
    dsimp only
    refine ⟨⟨?_, ?_⟩, ?_, ?_, ?_, ?_⟩ <;> linarith
  | @split t k q hd hk ih =>
    obtain ⟨o, c⟩ := ih
    obtain ⟨hq, hq2, hq3, hq4, hq5⟩ := o q (List.mem_of_getElem? hk)
    constructor
    · intro p hp
      rcases List.mem_or_eq_of_mem_set hp with hp | hp
      · rcases List.mem_append.1 hp with hp | hp
        · exact o p hp
        · rw [List.mem_map] at hp
          obtain ⟨p', hp, e⟩ := hp
          cases e
          unfold Patch.parts at hp
          simp only [List.mem_cons, List.not_mem_nil, or_false] at hp
          rcases hp with rfl | rfl | rfl | rfl <;> dsimp only <;> refine ⟨⟨?_, ?_⟩, ?_, ?_, ?_, ?_⟩ <;> linarith [hq.1, hq.2]
      · cases hp
    · intro y x
      have hlt : k < t.length := (List.getElem?_eq_some_iff.1 hk).1
      have h1 := count_set (t ++ q.parts.map some) k q (by rw [List.getElem?_append_left hlt]; exact hk) y x
      have h2 : count ((t ++ q.parts.map some).filterMap id) y x = count (t.filterMap id) y x + count q.parts y x := by
        unfold count
        rw [List.filterMap_append, List.countP_append, List.filterMap_map]
        congr 2
      rw [h2, count_parts q hq.1 hq.2, c y x] at h1
      omega

end Tiling

section Simulation

variable {r : ℚ → ℚ} {u : ℚ} {D : Type}

theorem forall₂_range {α β γ : Type} {P : α → β → Prop} {S : β → γ → Prop} {g : α → γ} {a : List α} {l : List β} (h : List.Forall₂ P a l) :
    (∀ i ∈ a, ∀ x, P i x → S x (g i)) → List.Forall₂ S l (a.map g) := by
  induction h with
  | nil => intro _; exact .nil
  | cons h1 _ ih => intro hs; exact .cons (hs _ (by simp) _ h1) (ih (fun i hi => hs i (by simp [hi])))

theorem forall₂_set {α β : Type} {R : α → β → Prop} {l : List α} {l' : List β} (h : List.Forall₂ R l l') {a : α} {b : β} (hab : R a b) :
    ∀ k, List.Forall₂ R (l.set k a) (l'.set k b) := by
  induction h with
  | nil => intro k; exact .nil
  | cons h1 h2 ih =>
    intro k
    cases k with
    | zero => exact .cons hab h2
    | succ k => exact .cons h1 (ih k)

theorem forall₂_getElem? {α β : Type} {R : α → β → Prop} {l : List α} {l' : List β} (h : List.Forall₂ R l l') :
    ∀ {k : ℕ} {a : α}, l[k]? = some a → ∃ b, l'[k]? = some b ∧ R a b := by
  induction h with
  | nil => intro k a h; simp at h
  | cons h1 _ ih =>
    intro k a h
    cases k with
    | zero => simp at h; subst h; exact ⟨_, rfl, h1⟩
    | succ k => simpa using ih (by simpa using h)

/-- By how much the edges of initial cells can be wrong, if `nx` columns and `ny` rows make up the region but for `η`. -/
def Spec.startError (u η : ℚ) (nx ny : ℕ) : ℚ := 2 * u * (nx + ny + 4) + η

/-- One initial cell. -/
theorem gridCell_near (hr : Accurate r u) (hu : 0 ≤ u) {b : Boundary} (hlat : -90 ≤ b.latMin) (hlat' : b.latMax ≤ 90) (hh : 0 ≤ b.height)
    {W H η : ℚ} (hW : 0 < W) (hW4 : W ≤ 400) (hH : 0 < H) (hH4 : H ≤ 400) (hη : 0 ≤ η) {nx ny i j : ℕ}
    (hsmall : 2 * u * (nx + ny + 4) + η ≤ 1) (hi : i < ny) (hj : j < nx)
    (kx : (nx : ℚ) * |W - b.width / nx| ≤ η) (ky : (ny : ℚ) * |H - b.height / ny| ≤ η) {t : List ℤ} {lat long : ℚ} {cb : Boundary}
    (hcb : Fl.initialCell r t W H lat long = .ok cb) (fi : |lat - (b.latMin + i * H)| ≤ 2 * u * (i + 1)) {k : ℤ}
    (gk : |long - (b.longMin + j * W) - 360 * k| ≤ 2 * u * (j + 1) + 3 * u) (gm : long ≤ 180 + 2 * u) :
    NearCell u (2 * u * (nx + ny + 4) + η) cb (gridPatch b nx ny i j) := by
  have hi' : (i : ℚ) + 1 ≤ ny := by exact_mod_cast hi
  have hj' : (j : ℚ) + 1 ≤ nx := by exact_mod_cast hj
  have hi0 : (0 : ℚ) ≤ i := Nat.cast_nonneg i
  have hj0 : (0 : ℚ) ≤ j := Nat.cast_nonneg j
  have isy : (i : ℚ) * (b.height / ny) ≤ b.height := by
    rw [← mul_div_assoc]
    exact div_le_of_le_mul₀ (by linarith) hh (by nlinarith)
  have isy0 : 0 ≤ (i : ℚ) * (b.height / ny) := mul_nonneg hi0 (div_nonneg hh (by linarith))
  have uj : u * ((j : ℚ) + 1) ≤ u * nx := mul_le_mul_of_nonneg_left hj' hu
  have ui : u * ((i : ℚ) + 1) ≤ u * ny := mul_le_mul_of_nonneg_left hi' hu
  have uj0 : 0 ≤ u * ((j : ℚ) + 1) := mul_nonneg hu (by linarith)
  have ui0 : 0 ≤ u * ((i : ℚ) + 1) := mul_nonneg hu (by linarith)
  have hh' : b.height = b.latMax - b.latMin := rfl
  unfold gridPatch
  generalize b.width / nx = sx at kx ⊢
  generalize b.height / ny = sy at ky isy isy0 ⊢
  have κ1 : ((j : ℚ) + 1) * |W - sx| ≤ η := le_trans (mul_le_mul_of_nonneg_right hj' (abs_nonneg _)) kx
  have μ1 : ((i : ℚ) + 1) * |H - sy| ≤ η := le_trans (mul_le_mul_of_nonneg_right hi' (abs_nonneg _)) ky
  have hshiftx : |(j : ℚ) * W - j * sx| ≤ j * |W - sx| := by rw [← mul_sub, abs_mul, abs_of_nonneg hj0]
  have hshifty : |(i : ℚ) * H - i * sy| ≤ i * |H - sy| := by rw [← mul_sub, abs_mul, abs_of_nonneg hi0]
  have e1 : b.latMin + i * sy + H - (b.latMin + (i + 1) * sy) = H - sy := by ring
  have e2 : b.longMin + j * sx + W - (b.longMin + (j + 1) * sx) = W - sx := by ring
  have κ0 := abs_nonneg (W - sx)
  have μ0 := abs_nonneg (H - sy)
  generalize hκ : |W - sx| = κ at *
  generalize hμ : |H - sy| = μ at *
  rw [abs_le] at fi gk hshiftx hshifty
  refine initialCell_near hr hu (by linarith) hcb hW hW4 hH hH4 (y := b.latMin + i * sy) (x := b.longMin + j * sx) (by linarith) (by linarith)
    (α := 2 * u * (i + 1) + i * μ) (β := 2 * u * (j + 1) + 3 * u + j * κ) ?_ ⟨k, ?_⟩ gm ?_ ?_ ?_ ?_ ?_
  · rw [abs_le]; constructor <;> linarith [fi.1, fi.2, hshifty.1, hshifty.2]
  · rw [abs_le]; constructor <;> linarith [gk.1, gk.2, hshiftx.1, hshiftx.2]
  · linarith
  · linarith
  · linarith
  · rw [e1, hμ]
    linarith
  · rw [e2, hκ]
    linarith

/-- The initial cells are where exact arithmetic has them, but for the errors of rounding. -/
theorem initializeCells_near (hr : Accurate r u) (hu : 0 ≤ u) {b : Boundary} (hv : Valid b) (hlat : -90 ≤ b.latMin) (hlat' : b.latMax ≤ 90)
    {W H η : ℚ} (hW : 0 < W) (hH : 0 < H) (hη : 0 ≤ η) {nx ny : ℕ} (hnx : (Fl.longStarts r b W).length = nx)
    (hny : (Fl.arange r b.latMin b.latMax H).length = ny) (hx0 : 0 < nx) (hy0 : 0 < ny) (hx : |nx * W - b.width| ≤ η) (hy : |ny * H - b.height| ≤ η)
    (hsmall : startError u η nx ny ≤ 1) {boxes : List Boundary} (h : Fl.initializeCells r b W H = .ok boxes) :
    List.Forall₂ (NearCell u (startError u η nx ny)) boxes
      ((List.range ny).flatMap (fun i => (List.range nx).map (fun j => gridPatch b nx ny i j))) := by
  obtain ⟨v1, v2, v3, v4, v5, -⟩ := hv
  unfold startError at hsmall ⊢
  have hnxq : (1 : ℚ) ≤ nx := by exact_mod_cast hx0
  have hnyq : (1 : ℚ) ≤ ny := by exact_mod_cast hy0
  have un1 : 0 ≤ u * nx := by positivity
  have un2 : 0 ≤ u * ny := by positivity
  have hu1 : u ≤ 1 / 8 := by nlinarith
  have hη1 : η ≤ 1 := by nlinarith
  have hwr : 0 ≤ b.width ∧ b.width ≤ 360 := by
    unfold Boundary.width
    split_ifs with hc
    · constructor <;> linarith
    · have := not_lt.1 hc
      constructor <;> linarith
  have hhr : 0 ≤ b.height ∧ b.height ≤ 180 := by unfold Boundary.height; constructor <;> linarith
  have hx' := abs_le.1 hx
  have hy' := abs_le.1 hy
  have hW4 : W ≤ 400 := by nlinarith [hx'.2]
  have hH4 : H ≤ 400 := by nlinarith [hy'.2]
  obtain ⟨rows, rfl, hrows⟩ := initializeCells_list h
  -- latitudes
  obtain ⟨f, f1, f2⟩ := arange_near (b := b.latMax) hr hu (by linarith) (a := b.latMin) (s := H) (by linarith) (by linarith) hH
    (by rw [hny]; linarith [hy'.2]) (by rw [hny]; nlinarith)
  rw [hny] at f1 f2
  -- longitudes
  have hlongs : ∃ g : ℕ → ℚ, Fl.longStarts r b W = (List.range nx).map g ∧ ∀ j, j < nx → g j ≤ 180 + 2 * u ∧
      ∃ k : ℤ, |g j - (b.longMin + j * W) - 360 * k| ≤ 2 * u * (j + 1) + 3 * u := by
    have gen : ∀ stop, Fl.longStarts r b W = (Fl.arange r b.longMin stop W).map (Fl.domain r) → ∃ g : ℕ → ℚ, Fl.longStarts r b W = (List.range nx).map g ∧
        ∀ j, j < nx → g j ≤ 180 + 2 * u ∧ ∃ k : ℤ, |g j - (b.longMin + j * W) - 360 * k| ≤ 2 * u * (j + 1) + 3 * u := by
      intro stop e
      have hl : (Fl.arange r b.longMin stop W).length = nx := by rw [← hnx, e, List.length_map]
      obtain ⟨g, g1, g2⟩ := arange_near (b := stop) hr hu (by linarith) (a := b.longMin) (s := W) (by linarith) (by linarith) hW
        (by rw [hl]; linarith [hx'.2]) (by rw [hl]; nlinarith)
      rw [hl] at g1 g2
      refine ⟨fun j => Fl.domain r (g j), by rw [e, g1, List.map_map]; rfl, fun j hj => ?_⟩
      have hj' : (j : ℚ) + 1 ≤ nx := by exact_mod_cast hj
      have hj0 : (0 : ℚ) ≤ j := Nat.cast_nonneg j
      have a1 := abs_le.1 (g2 j hj)
      have a2 : (j : ℚ) * W ≤ 361 := by nlinarith [hx'.2]
      have a3 : 0 ≤ (j : ℚ) * W := by positivity
      have a4 : 2 * u * ((j : ℚ) + 1) ≤ 1 := by nlinarith
      obtain ⟨⟨k, d1⟩, -, d3⟩ := domain_near hr hu (by linarith) (x := g j) (by linarith [a1.1]) (by linarith [a1.2])
      refine ⟨d3, k, ?_⟩
      rw [abs_le] at d1 ⊢
      constructor <;> linarith [a1.1, a1.2, d1.1, d1.2]
    unfold Fl.longStarts at gen ⊢
    split_ifs at gen ⊢ with hc
    · exact gen _ rfl
    · exact gen _ rfl
  obtain ⟨g, g1, g2⟩ := hlongs
  have kx : (nx : ℚ) * |W - b.width / nx| ≤ η := by
    have e : (nx : ℚ) * |W - b.width / nx| = |nx * W - b.width| := by
      rw [← abs_of_pos (show (0 : ℚ) < nx by linarith), ← abs_mul, abs_of_pos (show (0 : ℚ) < nx by linarith), mul_sub, mul_div_cancel₀ _ (by positivity)]
    rw [e]; exact hx
  have ky : (ny : ℚ) * |H - b.height / ny| ≤ η := by
    have e : (ny : ℚ) * |H - b.height / ny| = |ny * H - b.height| := by
      rw [← abs_of_pos (show (0 : ℚ) < ny by linarith), ← abs_mul, abs_of_pos (show (0 : ℚ) < ny by linarith), mul_sub, mul_div_cancel₀ _ (by positivity)]
    rw [e]; exact hy
  rw [f1, List.forall₂_map_left_iff] at hrows
  rw [List.flatMap_def]
  apply List.rel_flatten
  refine forall₂_range hrows (fun i hi row hrow => ?_)
  rw [g1, List.forall₂_map_left_iff] at hrow
  refine forall₂_range hrow (fun j hj cb hcb => ?_)
  rw [List.mem_range] at hi hj
  obtain ⟨gm, k, gk⟩ := g2 j hj
  exact gridCell_near hr hu hlat hlat' hhr.1 hW hW4 hH hH4 hη hsmall hi hj kx ky hcb (f2 i hi) gk gm

/-- A cell stands for a rectangle of a divided region. -/
structure StandsFor (u δ w : ℚ) (sd : ℕ) (c : CellBox D) (q : Patch) : Prop where
  near : NearCell u (δ + 7 * u * c.depth) c.bounds q
  wide : (q.x1 - q.x0) * 2 ^ c.depth = w
  depth : c.depth ≤ sd

theorem fl_splitAndReplace_inv {ops : DataOps D} {m m' : MeshState D} {k : ℕ} (h : Fl.splitAndReplace r ops m k = .ok m') :
    ∃ c new, Live m k c ∧ Fl.split r ops c m.cells.length = .ok new ∧ m'.cells = (m.cells ++ new.map some).set k none := by
  unfold Fl.splitAndReplace at h
  simp only [bind, Except.bind, pure, Except.pure] at h
  split at h
  · cases h
  · rename_i c hc
    split at h
    · cases h
    · rename_i new hn
      split at h
      · cases h
      · cases h
        exact ⟨c, new, cellAt_ok_iff.1 hc, hn, rfl⟩

theorem fl_splitPass_induct {ops : DataOps D} {sd index : ℕ} {P : MeshState D → Prop}
    (step : ∀ m k c m1, P m → Live m k c → c.depth < sd → Fl.splitAndReplace r ops m k = .ok m1 → P m1) :
    ∀ (fuel i : ℕ) (m m' : MeshState D), P m → Fl.splitPass r ops sd index fuel i m = .ok m' → P m' := by
  intro fuel
  induction fuel with
  | zero => intro i m m' _ h; cases h
  | succ fuel ih =>
    intro i m m' hP h
    unfold Fl.splitPass at h
    rcases hi : m.cells[i]? with _ | _ | c
    · rw [hi] at h; cases h; exact hP
    · rw [hi] at h; exact ih (i + 1) m m' hP h
    · rw [hi] at h
      simp only [bind, Except.bind] at h
      rcases hs : ops.shouldSplit (index + 1) c.bounds c.data with e | b
      · rw [hs] at h; cases h
      · rw [hs] at h
        simp only at h
        split at h
        · rename_i hcond
          rcases hp : Fl.splitAndReplace r ops m i with e | m1
          · rw [hp] at h; cases h
          · rw [hp] at h
            exact ih (i + 1) m1 m' (step m i c m1 hP hi hcond.1 hp) h
        · exact ih (i + 1) m m' hP h

theorem fl_splitSources_induct {ops : DataOps D} {sd fuel : ℕ} {P : MeshState D → Prop}
    (step : ∀ m k c m1, P m → Live m k c → c.depth < sd → Fl.splitAndReplace r ops m k = .ok m1 → P m1) :
    ∀ (conds : List ℕ) (index : ℕ) (m m' : MeshState D), P m → Fl.splitSources r ops sd fuel conds index m = .ok m' → P m' := by
  intro conds
  induction conds with
  | nil => intro index m m' hP h; cases h; exact hP
  | cons n rest ih =>
    intro index m m' hP h
    unfold Fl.splitSources at h
    simp only [bind, Except.bind] at h
    by_cases hn : n > 0
    · simp only [hn, if_true] at h
      rcases hp : Fl.splitPass r ops sd index fuel 0 m with e | m1
      · rw [hp] at h; cases h
      · rw [hp] at h
        exact ih (index + 1) m1 m' (fl_splitPass_induct step fuel 0 m m1 hP hp) h
    · simp only [hn, if_false] at h
      exact ih (index + 1) m m' hP h

/-- The quarters of a cell stand for the quarters of its rectangle. -/
theorem split_standsFor (hr : Accurate r u) (hu : 0 ≤ u) {ops : DataOps D} {c : CellBox D} {q : Patch} {δ w : ℚ} {sd : ℕ}
    (hδ0 : 0 ≤ δ) (hδ : δ + 7 * u * sd ≤ 1) (hu1 : u ≤ 1)
    (hw1 : (2 * (δ + 7 * u * sd) + 4 * u) * 2 ^ sd < w) (hw2 : w + 2 * (δ + 7 * u * sd) + 4 * u < 360)
    (hc : StandsFor u δ w sd c q) (hy0 : -180 ≤ q.y0) (hy : q.y0 ≤ q.y1) (hy1 : q.y1 ≤ 180) (hd : c.depth < sd) {n : ℕ}
    {new : List (CellBox D)} (h : Fl.split r ops c n = .ok new) : List.Forall₂ (StandsFor u δ w sd) new q.parts := by
  unfold Fl.split at h
  simp only [bind, Except.bind, pure, Except.pure] at h
  split at h
  · cases h
  · rename_i boxes hb
    cases h
    obtain ⟨hn, hw, -⟩ := hc
    have hdq : (c.depth : ℚ) ≤ sd := by exact_mod_cast hd.le
    have h7 : u * (c.depth : ℚ) ≤ u * sd := mul_le_mul_of_nonneg_left hdq hu
    have p1 : (2 : ℚ) ^ c.depth ≤ 2 ^ sd := pow_le_pow_right₀ (by norm_num) hd.le
    have p2 : (1 : ℚ) ≤ 2 ^ c.depth := one_le_pow₀ (by norm_num)
    have u0 : 0 ≤ u * (sd : ℚ) := by positivity
    have e0 : 0 ≤ 2 * (δ + 7 * u * sd) + 4 * u := by linarith
    have k1 : 2 * (δ + 7 * u * c.depth) + 4 * u < q.x1 - q.x0 := by
      have : (2 * (δ + 7 * u * sd) + 4 * u) * 2 ^ c.depth < (q.x1 - q.x0) * 2 ^ c.depth := by
        rw [hw]
        exact lt_of_le_of_lt (mul_le_mul_of_nonneg_left p1 e0) hw1
      have := lt_of_mul_lt_mul_right this (by positivity)
      linarith
    have k2 : q.x1 - q.x0 ≤ w := by
      rw [← hw]
      refine le_mul_of_one_le_right ?_ p2
      have : 0 ≤ u * (c.depth : ℚ) := by positivity
      linarith
    obtain ⟨l, -⟩ := createSplitted_near hr hu hu1 (by linarith) hn hy0 hy hy1 k1 (by linarith) hb
    rw [List.forall₂_map_left_iff]
    have wide : ∀ p ∈ q.parts, (p.x1 - p.x0) * 2 ^ (c.depth + 1) = w := by
      intro p hp
      unfold Patch.parts at hp
      simp only [List.mem_cons, List.not_mem_nil, or_false] at hp
      rw [← hw, pow_succ]
      rcases hp with rfl | rfl | rfl | rfl <;> dsimp only <;> ring
    have l' := (List.forall₂_and_left _ _).2 ⟨fun p hp => wide p hp, l.flip⟩
    refine l'.flip.imp ?_
    rintro p q' ⟨h1, h2⟩
    refine ⟨?_, h1, hd⟩
    have e : δ + 7 * u * ((c.depth + 1 : ℕ) : ℚ) = δ + 7 * u * c.depth + 7 * u := by push_cast; ring
    rw [e]
    exact h2

/-- The cells of a mesh stand for the rectangles of a divided region, those that were split included. -/
def Simulates (u δ w : ℚ) (sd : ℕ) (b : Boundary) (nx ny : ℕ) (m : MeshState D) : Prop :=
  ∃ t, Divided b nx ny t ∧ List.Forall₂ (Option.Rel (StandsFor u δ w sd)) m.cells t

theorem simulates_step (hr : Accurate r u) (hu : 0 ≤ u) (hu1 : u ≤ 1) {ops : DataOps D} {b : Boundary} {nx ny sd : ℕ} {δ w : ℚ}
    (hδ0 : 0 ≤ δ) (hδ : δ + 7 * u * sd ≤ 1) (hw1 : (2 * (δ + 7 * u * sd) + 4 * u) * 2 ^ sd < w)
    (hw2 : w + 2 * (δ + 7 * u * sd) + 4 * u < 360) (hlat : -90 ≤ b.latMin) (hlat' : b.latMax ≤ 90)
    (hh : 0 ≤ b.height) (hw : 0 ≤ b.width) (hx : 0 < nx) (hy : 0 < ny) {m m1 : MeshState D} {k : ℕ} {c : CellBox D}
    (hP : Simulates u δ w sd b nx ny m) (hk : Live m k c) (hd : c.depth < sd) (h : Fl.splitAndReplace r ops m k = .ok m1) :
    Simulates u δ w sd b nx ny m1 := by
  obtain ⟨t, ht, hs⟩ := hP
  obtain ⟨c', new, hk', hsp, e⟩ := fl_splitAndReplace_inv h
  have : c' = c := by
    have := hk'.symm.trans hk
    injection this with this
    injection this
  subst this
  obtain ⟨o, ho, hrel⟩ := forall₂_getElem? hs hk
  cases hrel with
  | some hc =>
    rename_i q
    obtain ⟨⟨d1, -⟩, d2, d3, -⟩ := (divided_tiles hh hw hx hy ht).1 q (List.mem_of_getElem? ho)
    have hnew := split_standsFor hr hu hδ0 hδ hu1 hw1 hw2 hc (by linarith) d1 (by linarith) hd hsp
    refine ⟨_, .split ht ho, ?_⟩
    rw [e]
    apply forall₂_set _ Option.Rel.none
    apply List.rel_append hs
    rw [List.forall₂_map_left_iff, List.forall₂_map_right_iff]
    exact hnew.imp (fun _ _ h => Option.Rel.some h)

theorem forall₂_filterMap {α β : Type} {R : α → β → Prop} {l : List (Option α)} {l' : List (Option β)} (h : List.Forall₂ (Option.Rel R) l l') :
    List.Forall₂ R (l.filterMap id) (l'.filterMap id) := by
  induction h with
  | nil => exact .nil
  | cons h1 _ ih =>
    cases h1 with
    | none => rw [List.filterMap_cons_none rfl, List.filterMap_cons_none rfl]; exact ih
    | some h => rw [List.filterMap_cons_some (f := id) rfl, List.filterMap_cons_some (f := id) rfl]; exact .cons h ih

theorem forall₂_mapIdx {α β γ : Type} {R : α → β → Prop} {S : γ → β → Prop} {l : List α} {l' : List β} (h : List.Forall₂ R l l') :
    ∀ {f : ℕ → α → γ}, (∀ i a b, R a b → S (f i a) b) → List.Forall₂ S (l.mapIdx f) l' := by
  induction h with
  | nil => intro f _; exact .nil
  | cons h1 _ ih =>
    intro f hf
    rw [List.mapIdx_cons]
    exact .cons (hf _ _ _ h1) (ih (fun i => hf (i + 1)))

theorem forall₂_comp {α β γ : Type} {R : α → β → Prop} {S : β → γ → Prop} {T : α → γ → Prop} {l : List α} {l' : List β} (h : List.Forall₂ R l l') :
    ∀ {l'' : List γ}, List.Forall₂ S l' l'' → (∀ a b c, R a b → S b c → T a c) → List.Forall₂ T l l'' := by
  induction h with
  | nil => intro l'' h _; cases h; exact .nil
  | cons h1 _ ih =>
    intro l'' h ht
    cases h with
    | cons h2 h3 => exact .cons (ht _ _ _ h1 h2) (ih h3 ht)

namespace Spec

/-- The circumstances of a build in floating point: `nx` columns and `ny` rows of cells `W` by `H` make up the region but for `η`, and the
errors of rounding stay below the widths of the smallest cells.  `eps` is how far edges can be wrong after `sd` splits. -/
structure Resolved (r : ℚ → ℚ) (u η : ℚ) (b : Boundary) (W H : ℚ) (nx ny sd : ℕ) (eps : ℚ) : Prop where
  valid : Valid b
  south : -90 ≤ b.latMin
  north : b.latMax ≤ 90
  unit : 0 ≤ u
  wpos : 0 < W
  hpos : 0 < H
  cols : (Fl.longStarts r b W).length = nx
  rows : (Fl.arange r b.latMin b.latMax H).length = ny
  cols_pos : 0 < nx
  rows_pos : 0 < ny
  slack : 0 ≤ η
  fits_x : |nx * W - b.width| ≤ η
  fits_y : |ny * H - b.height| ≤ η
  eps_eq : eps = startError u η nx ny + 7 * u * sd
  small : eps ≤ 1
  seen : (2 * eps + 4 * u) * 2 ^ sd < b.width / nx
  apart : b.width / nx + 2 * eps + 4 * u < 360

end Spec

theorem Spec.Resolved.basic {η : ℚ} {b : Boundary} {W H : ℚ} {nx ny sd : ℕ} {eps : ℚ} (hR : Resolved r u η b W H nx ny sd eps) :
    0 ≤ startError u η nx ny ∧ 0 ≤ u * sd ∧ u ≤ 1 ∧ 0 ≤ b.height ∧ 0 ≤ b.width ∧ b.width ≤ 360 := by
  obtain ⟨⟨v1, v2, v3, v4, v5, -⟩, -, -, hu, -, -, -, -, -, -, hη, -, -, he, hs, -, -⟩ := hR
  have u1 : 0 ≤ u * nx := by positivity
  have u2 : 0 ≤ u * ny := by positivity
  have u3 : 0 ≤ u * sd := by positivity
  unfold startError at he ⊢
  refine ⟨by linarith, u3, by linarith, by unfold Boundary.height; linarith, ?_, ?_⟩ <;> unfold Boundary.width <;> split_ifs <;> linarith

/-- A cell that stands for a rectangle has its edges within `eps` of it. -/
theorem StandsFor.box {η : ℚ} {b : Boundary} {W H : ℚ} {nx ny sd : ℕ} {eps : ℚ} (hR : Resolved r u η b W H nx ny sd eps) {c : CellBox D}
    {q : Patch} (h : StandsFor u (startError u η nx ny) (b.width / nx) sd c q) :
    NearCell u eps c.bounds q ∧ 2 * eps + 4 * u < q.x1 - q.x0 ∧ q.x1 - q.x0 < 360 - 2 * eps - 4 * u := by
  obtain ⟨b1, b2, b3, -⟩ := hR.basic
  have hu := hR.unit
  obtain ⟨⟨⟨s, n, ⟨k, w⟩, ⟨l, e⟩⟩, hm⟩, hw, hd⟩ := h
  have hdq : (c.depth : ℚ) ≤ sd := by exact_mod_cast hd
  have h7 : u * (c.depth : ℚ) ≤ u * sd := mul_le_mul_of_nonneg_left hdq hu
  have le : startError u η nx ny + 7 * u * c.depth ≤ eps := by rw [hR.eps_eq]; linarith
  have p1 : (2 : ℚ) ^ c.depth ≤ 2 ^ sd := pow_le_pow_right₀ (by norm_num) hd
  have p2 : (1 : ℚ) ≤ 2 ^ c.depth := one_le_pow₀ (by norm_num)
  have e0 : 0 ≤ 2 * eps + 4 * u := by rw [hR.eps_eq]; linarith
  have k1 : 2 * eps + 4 * u < q.x1 - q.x0 := by
    have : (2 * eps + 4 * u) * 2 ^ c.depth < (q.x1 - q.x0) * 2 ^ c.depth := by
      rw [hw]
      exact lt_of_le_of_lt (mul_le_mul_of_nonneg_left p1 e0) hR.seen
    exact lt_of_mul_lt_mul_right this (by positivity)
  have k2 : q.x1 - q.x0 ≤ b.width / nx := by
    rw [← hw]
    exact le_mul_of_one_le_right (by linarith) p2
  exact ⟨⟨⟨s.trans le, n.trans le, ⟨k, w.trans le⟩, ⟨l, e.trans le⟩⟩, hm⟩, k1, by linarith [hR.apart]⟩

theorem fl_build_simulates (hr : Accurate r u) {η : ℚ} {b : Boundary} {W H : ℚ} {nx ny sd : ℕ} {eps : ℚ}
    (hR : Resolved r u η b W H nx ny sd eps) {initData : Boundary → D} {ops : DataOps D} {aggregate : CellBox D → Py (Dict String Val)}
    {fuel : ℕ} {config : MeshConfig} {m : MeshState D} {em : EnvMesh} (h0 : Fl.init r b W H initData sd = .ok m)
    (h : Fl.buildEnvironmentalMesh r ops aggregate fuel config m = .ok em) :
    ∃ t, Divided b nx ny t ∧ List.Forall₂ (fun (a : AggCell) q => NearCell u eps a.bounds q ∧ 2 * eps + 4 * u < q.x1 - q.x0 ∧
      q.x1 - q.x0 < 360 - 2 * eps - 4 * u) em.cells (t.filterMap id) := by
  obtain ⟨b1, b2, b3, b4, b5, -⟩ := hR.basic
  have hu := hR.unit
  have hse : startError u η nx ny ≤ 1 := by have := hR.small; rw [hR.eps_eq] at this; linarith
  have hstart : Simulates u (startError u η nx ny) (b.width / nx) sd b nx ny m ∧ m.maxDepth = sd := by
    unfold Fl.init at h0
    simp only [bind, Except.bind, pure, Except.pure] at h0
    split at h0
    · cases h0
    · split at h0
      · cases h0
      · rename_i boxes hb
        split at h0
        · cases h0
        · cases h0
          refine ⟨⟨_, .grid, ?_⟩, rfl⟩
          have l := initializeCells_near hr hu hR.valid hR.south hR.north hR.wpos hR.hpos hR.slack hR.cols hR.rows hR.cols_pos hR.rows_pos
            hR.fits_x hR.fits_y hse hb
          have e : ((List.range ny).flatMap (fun i => (List.range nx).map (fun j => some (gridPatch b nx ny i j)))) =
              ((List.range ny).flatMap (fun i => (List.range nx).map (fun j => gridPatch b nx ny i j))).map some := by
            rw [List.map_flatMap]
            congr 1
            funext i
            rw [List.map_map]
            rfl
          rw [e, List.forall₂_map_right_iff]
          have hw : ∀ q ∈ (List.range ny).flatMap (fun i => (List.range nx).map (fun j => gridPatch b nx ny i j)),
              (q.x1 - q.x0) * 2 ^ 0 = b.width / nx := by
            intro q hq
            simp only [List.mem_flatMap, List.mem_map] at hq
            obtain ⟨i, -, j, -, rfl⟩ := hq
            unfold gridPatch
            dsimp only
            ring
          have l' := ((List.forall₂_and_left _ _).2 ⟨hw, l.flip⟩).flip
          refine forall₂_mapIdx l' ?_
          rintro i cb q ⟨h1, h2⟩
          refine Option.Rel.some ⟨?_, h1, Nat.zero_le _⟩
          simpa using h2
  unfold Fl.buildEnvironmentalMesh Fl.splitToDepth at h
  simp only [bind, Except.bind] at h
  split at h
  · cases h
  · rename_i m' hm'
    split at hm'
    · cases hm'
    · rw [hstart.2] at hm'
      have hend := fl_splitSources_induct (P := Simulates u (startError u η nx ny) (b.width / nx) sd b nx ny)
        (fun m k c m1 => simulates_step hr hu b3 b1 (by rw [← hR.eps_eq]; exact hR.small) (by rw [← hR.eps_eq]; exact hR.seen)
          (by rw [← hR.eps_eq]; exact hR.apart) hR.south hR.north b4 b5 hR.cols_pos hR.rows_pos) _ _ _ _ hstart.1 hm'
      obtain ⟨t, ht, hs⟩ := hend
      refine ⟨t, ht, ?_⟩
      obtain ⟨hem, -⟩ := toEnvMesh_spec h
      refine forall₂_comp hem.flip (forall₂_filterMap hs) ?_
      rintro a c q ⟨-, e, -⟩ hc
      rw [e]
      exact hc.box hR

/-- Two places of a list that hold a point count twice. -/
theorem count_two {l : List Patch} {y x : ℚ} {i j : ℕ} {p q : Patch} (hij : i < j) (hi : l[i]? = some p) (hj : l[j]? = some q)
    (hp : p.Has y x) (hq : q.Has y x) : 2 ≤ count l y x := by
  unfold count
  rw [← List.take_append_drop j l, List.countP_append]
  have h1 : 0 < (l.take j).countP (fun q => decide (q.Has y x)) := by
    rw [List.countP_pos_iff]
    exact ⟨p, List.mem_of_getElem? (by rw [List.getElem?_take_of_lt hij]; exact hi), by simpa using hp⟩
  have h2 : 0 < (l.drop j).countP (fun q => decide (q.Has y x)) := by
    rw [List.countP_pos_iff]
    exact ⟨q, List.mem_of_getElem? (i := 0) (by rw [List.getElem?_drop]; exact hj), by simpa using hq⟩
  omega

/-- **C111 (cells).**  A mesh built in floating point has as many cells as the region divided exactly in the same way, and every edge of
a cell is within `eps` degrees of the edge in exact arithmetic. -/
theorem C111_cells (hr : Accurate r u) {η : ℚ} {b : Boundary} {W H : ℚ} {nx ny sd : ℕ} {eps : ℚ}
    (hR : Resolved r u η b W H nx ny sd eps) {initData : Boundary → D} {ops : DataOps D} {aggregate : CellBox D → Py (Dict String Val)}
    {fuel : ℕ} {config : MeshConfig} {m : MeshState D} {em : EnvMesh} (h0 : Fl.init r b W H initData sd = .ok m)
    (h : Fl.buildEnvironmentalMesh r ops aggregate fuel config m = .ok em) :
    ∃ t, Divided b nx ny t ∧ List.Forall₂ (fun (a : AggCell) q => NearBox eps a.bounds q) em.cells (t.filterMap id) := by
  obtain ⟨t, ht, hs⟩ := fl_build_simulates hr hR h0 h
  exact ⟨t, ht, hs.imp (fun _ _ h => h.1.toNearBox)⟩

/-- **C111 (gaps and overlaps).**  In a mesh built in floating point every point of the region is in a cell or within `eps` degrees of one,
no point is more than `eps` degrees inside of two cells, and no cell reaches more than `eps` degrees out of the region. -/
theorem C111_tiles (hr : Accurate r u) {η : ℚ} {b : Boundary} {W H : ℚ} {nx ny sd : ℕ} {eps : ℚ}
    (hR : Resolved r u η b W H nx ny sd eps) {initData : Boundary → D} {ops : DataOps D} {aggregate : CellBox D → Py (Dict String Val)}
    {fuel : ℕ} {config : MeshConfig} {m : MeshState D} {em : EnvMesh} (h0 : Fl.init r b W H initData sd = .ok m)
    (h : Fl.buildEnvironmentalMesh r ops aggregate fuel config m = .ok em) :
    (∀ y x, (patchOf b).Has y x → ∃ a ∈ em.cells, WithinOf eps a.bounds y x) ∧
    (∀ (i j : ℕ) (a c : AggCell), em.cells[i]? = some a → em.cells[j]? = some c → i ≠ j → ∀ y x, ¬ (DeepIn eps a.bounds y x ∧ DeepIn eps c.bounds y x)) ∧
    (∀ a ∈ em.cells, ∀ y x, WithinOf 0 a.bounds y x → WithinOf eps b y x) := by
  obtain ⟨b1, b2, b3, b4, b5, b6⟩ := hR.basic
  have hu := hR.unit
  obtain ⟨t, ht, hs⟩ := fl_build_simulates hr hR h0 h
  obtain ⟨hin, hcount⟩ := divided_tiles b4 b5 hR.cols_pos hR.rows_pos ht
  have deep : ∀ a q, NearCell u eps a q ∧ 2 * eps + 4 * u < q.x1 - q.x0 ∧ q.x1 - q.x0 < 360 - 2 * eps - 4 * u → ∀ y x,
      DeepIn eps a y x → ∃ k : ℤ, q.Has y (x + 360 * k) := by
    rintro a q ⟨⟨⟨s, n, ⟨k, w⟩, ⟨l, e⟩⟩, hm⟩, h1, h2⟩ y x ⟨d1, d2, j, d3, d4⟩
    rw [width_lift hu hm w e h1 h2] at d4
    rw [abs_le] at s n w e
    refine ⟨j - k, ?_, ?_, ?_, ?_⟩ <;> push_cast <;> linarith [s.1, s.2, n.1, n.2, w.1, w.2, e.1, e.2]
  refine ⟨?_, ?_, ?_⟩
  · intro y x hyx
    have h1 := hcount y x
    rw [if_pos hyx] at h1
    have h2 : 0 < count (t.filterMap id) y x := by omega
    unfold count at h2
    rw [List.countP_pos_iff] at h2
    obtain ⟨q, hq, hqh⟩ := h2
    obtain ⟨i, hi⟩ := List.mem_iff_getElem?.1 hq
    obtain ⟨a, ha, ⟨⟨⟨s, n, ⟨k, w⟩, ⟨l, e⟩⟩, hm⟩, h1, h2⟩⟩ := forall₂_getElem? hs.flip hi
    refine ⟨a, List.mem_of_getElem? ha, ?_⟩
    obtain ⟨p1, p2, p3, p4⟩ := of_decide_eq_true hqh
    have hw := width_lift hu hm w e h1 h2
    rw [abs_le] at s n w e
    refine ⟨by linarith [s.2], by linarith [n.1], k, by linarith [w.2], ?_⟩
    rw [hw]
    linarith [e.1]
  · have key : ∀ (i j : ℕ) (a c : AggCell), em.cells[i]? = some a → em.cells[j]? = some c → i < j → ∀ y x,
        ¬ (DeepIn eps a.bounds y x ∧ DeepIn eps c.bounds y x) := by
      rintro i j a c hi hj hij y x ⟨da, dc⟩
      obtain ⟨p, hp, np⟩ := forall₂_getElem? hs hi
      obtain ⟨q, hq, nq⟩ := forall₂_getElem? hs hj
      obtain ⟨k, hk⟩ := deep _ _ np _ _ da
      obtain ⟨l, hl⟩ := deep _ _ nq _ _ dc
      have mem : ∀ {i : ℕ} {q : Patch}, (t.filterMap id)[i]? = some q → some q ∈ t := by
        intro i q h
        have := List.mem_of_getElem? h
        rw [List.mem_filterMap] at this
        obtain ⟨o, ho, e⟩ := this
        simp only [id_eq] at e
        exact e ▸ ho
      obtain ⟨-, -, -, p4, p5⟩ := hin p (mem hp)
      obtain ⟨-, -, -, q4, q5⟩ := hin q (mem hq)
      have hkl : k = l := by
        obtain ⟨-, -, x1, x2⟩ := hk
        obtain ⟨-, -, x3, x4⟩ := hl
        have f1 : ((k - l : ℤ) : ℚ) < 1 := by push_cast; linarith
        have f2 : (-1 : ℚ) < ((k - l : ℤ) : ℚ) := by push_cast; linarith
        have g1 : k - l < 1 := by exact_mod_cast f1
        have g2 : -1 < k - l := by exact_mod_cast f2
        omega
      subst hkl
      have h2 := count_two hij hp hq hk hl
      rw [hcount] at h2
      split_ifs at h2 <;> omega
    intro i j a c hi hj hij y x hd
    rcases lt_or_gt_of_ne hij with hlt | hlt
    · exact key i j a c hi hj hlt y x hd
    · exact key j i c a hj hi hlt y x hd.symm
  · rintro a ha y x ⟨d1, d2, j, d3, d4⟩
    obtain ⟨i, hi⟩ := List.mem_iff_getElem?.1 ha
    obtain ⟨q, hq, ⟨⟨⟨s, n, ⟨k, w⟩, ⟨l, e⟩⟩, hm⟩, h1, h2⟩⟩ := forall₂_getElem? hs hi
    have hmem : some q ∈ t := by
      have := List.mem_of_getElem? hq
      rw [List.mem_filterMap] at this
      obtain ⟨o, ho, e⟩ := this
      simp only [id_eq] at e
      exact e ▸ ho
    obtain ⟨-, p2, p3, p4, p5⟩ := hin q hmem
    rw [width_lift hu hm w e h1 h2] at d4
    rw [abs_le] at s n w e
    refine ⟨by linarith [s.1], by linarith [n.2], j - k, ?_, ?_⟩ <;> push_cast
    · linarith [w.1]
    · linarith [e.2]

/-- **C111 (accepted sizes fit).**  In a region that does not cross the antimeridian, is more than a rounding error wide and as much less than
360 degrees, accepted cell sizes make up the region but for one rounding. -/
theorem C111_fits (hf : Faithful r) (hr : Accurate r u) {b : Boundary} {W H : ℚ} (hv : Valid b) (hW : 0 < W) (hH : 0 < H)
    (hcr : b.longMin < b.longMax) (h1 : u < b.longMax - b.longMin) (h2 : b.longMax - b.longMin + u < 360) (h3 : u < b.latMax - b.latMin)
    (h4 : b.latMax - b.latMin + u < 360)
    (hx : 360 ≤ 2 ^ 53 * W) (hy : 360 ≤ 2 ^ 53 * H) (hacc : Fl.validateBounds r b W H = .ok ()) :
    |((Fl.longStarts r b W).length : ℚ) * W - b.width| ≤ u ∧ |((Fl.arange r b.latMin b.latMax H).length : ℚ) * H - b.height| ≤ u := by
  have mod0 : ∀ {a s : ℚ}, 0 ≤ a → a < 360 → 0 < s → 360 ≤ 2 ^ 53 * s → Fl.fmod r a s = 0 → ((⌈r (a / s)⌉.toNat : ℕ) : ℚ) * s = a := by
    intro a s ha hlt hs hs2 h0
    have hd : 0 ≤ a / s := div_nonneg ha hs.le
    have hm : a - s * (⌊a / s⌋ : ℤ) = 0 := by
      unfold Fl.fmod at h0
      have hi : pyInt (a / s) = ⌊a / s⌋ := by simp [pyInt, hd]
      dsimp only at h0
      rw [hi] at h0
      have hnn : 0 ≤ a - s * (⌊a / s⌋ : ℤ) := pyMod_nonneg hs
      rwa [if_neg] at h0
      rintro ⟨-, h2⟩
      apply h2
      simp only [eq_iff_iff]
      exact iff_of_false (not_lt.2 hnn) (not_lt.2 hs.le)
    have hk0 : 0 ≤ ⌊a / s⌋ := Int.floor_nonneg.2 hd
    obtain ⟨k, hk⟩ := Int.eq_ofNat_of_zero_le hk0
    rw [hk] at hm
    have ha' : a = k * s := by push_cast at hm; linarith
    have hks : a / s = k := by rw [ha']; field_simp
    have hkb : k ≤ 2 ^ 53 := by
      have : (k : ℚ) * s ≤ 2 ^ 53 * s := by linarith
      exact_mod_cast le_of_mul_le_mul_right this hs
    rw [hks, hf _ (IsDouble.nat hkb)]
    simp only [Int.ceil_natCast, Int.toNat_natCast]
    exact ha'.symm
  obtain ⟨v1, v2, v3, v4, v5, -⟩ := hv
  have ax := hr.bounds (q := b.longMax - b.longMin) (by linarith) (by linarith)
  have ay := hr.bounds (q := b.latMax - b.latMin) (by linarith) (by linarith)
  have hid : Fl.fmod r (r (b.longMax - b.longMin)) 360 = r (b.longMax - b.longMin) := by
    have hd0 : 0 ≤ r (b.longMax - b.longMin) / 360 := div_nonneg (by linarith [ax.1]) (by norm_num)
    have hfl : ⌊r (b.longMax - b.longMin) / 360⌋ = 0 := by
      rw [Int.floor_eq_zero_iff]
      exact ⟨hd0, by rw [div_lt_one (by norm_num)]; linarith [ax.2]⟩
    have hi : pyInt (r (b.longMax - b.longMin) / 360) = 0 := by simp [pyInt, hd0, hfl]
    unfold Fl.fmod
    dsimp only
    rw [hi, if_neg]
    · simp
    · rintro ⟨-, h2⟩
      apply h2
      simp only [eq_iff_iff]
      refine iff_of_false (not_lt.2 ?_) (by norm_num)
      simp only [Int.cast_zero, mul_zero, sub_zero]
      linarith [ax.1]
  unfold Fl.validateBounds at hacc
  rw [if_neg hW.ne', if_neg hH.ne', hid] at hacc
  split_ifs at hacc with c1 c2
  have kx := mod0 (by linarith [ax.1]) (by linarith [ax.2]) hW hx (not_not.1 c1)
  have ky := mod0 (by linarith [ay.1]) (by linarith [ay.2]) hH hy (not_not.1 c2)
  have lx : (Fl.longStarts r b W).length = ⌈r (r (b.longMax - b.longMin) / W)⌉.toNat := by
    unfold Fl.longStarts Fl.arange
    rw [if_pos hcr]
    simp
  have ly : (Fl.arange r b.latMin b.latMax H).length = ⌈r (r (b.latMax - b.latMin) / H)⌉.toNat := by
    unfold Fl.arange
    simp
  rw [lx, ly, kx, ky]
  have hwd : b.width = b.longMax - b.longMin := by unfold Boundary.width; rw [if_pos hcr]
  rw [hwd]
  unfold Boundary.height
  constructor <;> rw [abs_le] <;> constructor <;> linarith [ax.1, ax.2, ay.1, ay.2]

end Simulation

/-- **C111 (double precision).**  Rounding to double precision moves no number up to 1024 by more than `2 ^ -44`. -/
theorem C111_round64 : Accurate Fl.round64 (1 / 2 ^ 44) := by
  intro q hq
  have hq' := abs_le.1 hq
  have h1 := abs_sub_round (q * 2 ^ 43)
  have h2 : -(2 : ℚ) ^ 53 ≤ q * 2 ^ 43 := by norm_num; linarith [hq'.1]
  have h3 : q * 2 ^ 43 ≤ (2 : ℚ) ^ 53 := by norm_num; linarith [hq'.2]
  generalize hR : round (q * 2 ^ 43) = R at h1
  have hm : |R| ≤ 2 ^ 53 := by
    have h1' := abs_le.1 h1
    rw [abs_le]
    constructor
    · have : (((-2 ^ 53 - 1 : ℤ)) : ℚ) < R := by push_cast; linarith [h1'.2]
      have := Int.cast_lt.1 this
      omega
    · have : (R : ℚ) < ((2 ^ 53 + 1 : ℤ) : ℚ) := by push_cast; linarith [h1'.1]
      have := Int.cast_lt.1 this
      omega
  refine (round64_nearest q R (-43) hm).trans ?_
  have e : (R : ℚ) * 2 ^ (-43 : ℤ) - q = -(q * 2 ^ 43 - R) / 2 ^ 43 := by
    rw [zpow_neg]
    norm_num
    ring
  rw [e, abs_div, abs_neg, abs_of_pos (by positivity : (0 : ℚ) < 2 ^ 43), div_le_iff₀ (by positivity)]
  refine h1.trans ?_
  norm_num

theorem withinOf_mono {e e' : ℚ} (h : e ≤ e') {b : Boundary} {y x : ℚ} (hb : WithinOf e b y x) : WithinOf e' b y x := by
  obtain ⟨h1, h2, k, h3, h4⟩ := hb
  exact ⟨by linarith, by linarith, k, by linarith, by linarith⟩

theorem deepIn_anti {e e' : ℚ} (h : e ≤ e') {b : Boundary} {y x : ℚ} (hb : DeepIn e' b y x) : DeepIn e b y x := by
  obtain ⟨h1, h2, k, h3, h4⟩ := hb
  exact ⟨by linarith, by linarith, k, by linarith, by linarith⟩

/-- **C111 (accepted configurations).**  In double precision, for a region that does not cross the antimeridian and is at most 359 degrees wide,
with cells of at least 1/64 of a degree that are split at most ten times: if the mesh is built, gaps, overlaps and what reaches out of the
region are no wider than a hundred-millionth of a degree (about a millimetre), whatever the sizes, the data and the conditions of
splitting. -/
theorem C111_double {D : Type} {b : Boundary} {W H : ℚ} (hv : Valid b) (hs : -90 ≤ b.latMin) (hn : b.latMax ≤ 90) (hcr : b.longMin < b.longMax)
    (h359 : b.longMax - b.longMin ≤ 359) (hW : 1 / 64 ≤ W) (hH : 1 / 64 ≤ H) (hW1 : W ≤ b.width) (hH1 : H ≤ b.height) {sd : ℕ} (hsd : sd ≤ 10)
    {initData : Boundary → D} {ops : DataOps D} {aggregate : CellBox D → Py (Dict String Val)} {fuel : ℕ} {config : MeshConfig}
    {m : MeshState D} {em : EnvMesh} (h0 : Fl.init Fl.round64 b W H initData sd = .ok m)
    (h : Fl.buildEnvironmentalMesh Fl.round64 ops aggregate fuel config m = .ok em) :
    (∀ y x, (patchOf b).Has y x → ∃ a ∈ em.cells, WithinOf (1 / 10 ^ 8) a.bounds y x) ∧
    (∀ (i j : ℕ) (a c : AggCell), em.cells[i]? = some a → em.cells[j]? = some c → i ≠ j → ∀ y x,
      ¬ (DeepIn (1 / 10 ^ 8) a.bounds y x ∧ DeepIn (1 / 10 ^ 8) c.bounds y x)) ∧
    (∀ a ∈ em.cells, ∀ y x, WithinOf 0 a.bounds y x → WithinOf (1 / 10 ^ 8) b y x) := by
  have hwd : b.width = b.longMax - b.longMin := by unfold Boundary.width; rw [if_pos hcr]
  have hht : b.height = b.latMax - b.latMin := rfl
  have hacc : Fl.validateBounds Fl.round64 b W H = .ok () := by
    unfold Fl.init at h0
    simp only [bind, Except.bind] at h0
    split at h0
    · cases h0
    · assumption
  obtain ⟨fx, fy⟩ := C111_fits round64_faithful C111_round64 hv (by linarith) (by linarith) hcr (by rw [← hwd]; norm_num; linarith)
    (by norm_num; linarith) (by rw [← hht]; norm_num; linarith) (by norm_num; linarith) (by norm_num; linarith) (by norm_num; linarith) hacc
  generalize hnx : (Fl.longStarts Fl.round64 b W).length = nx at fx
  generalize hny : (Fl.arange Fl.round64 b.latMin b.latMax H).length = ny at fy
  have ax := abs_le.1 fx
  have ay := abs_le.1 fy
  have ub : (1 / 2 ^ 44 : ℚ) ≤ 1 / 10 ^ 13 := by norm_num
  have u0 : (0 : ℚ) ≤ 1 / 2 ^ 44 := by norm_num
  have hr := C111_round64
  generalize (1 / 2 ^ 44 : ℚ) = u at hr ax ay ub u0 fx fy
  have hnx0 : 0 < nx := by
    rcases Nat.eq_zero_or_pos nx with h | h
    · exfalso
      rw [h] at ax
      simp only [Nat.cast_zero, zero_mul] at ax
      linarith [ax.1]
    · exact h
  have hny0 : 0 < ny := by
    rcases Nat.eq_zero_or_pos ny with h | h
    · exfalso
      rw [h] at ay
      simp only [Nat.cast_zero, zero_mul] at ay
      linarith [ay.1]
    · exact h
  have nx1 : (1 : ℚ) ≤ nx := by exact_mod_cast hnx0
  have ny1 : (1 : ℚ) ≤ ny := by exact_mod_cast hny0
  have gx : (nx : ℚ) * (1 / 64) ≤ nx * W := mul_le_mul_of_nonneg_left hW (by linarith)
  have gy : (ny : ℚ) * (1 / 64) ≤ ny * H := mul_le_mul_of_nonneg_left hH (by linarith)
  have nx2 : (nx : ℚ) ≤ 23040 := by linarith [ax.2]
  have ny2 : (ny : ℚ) ≤ 11600 := by linarith [ay.2]
  have sd2 : (sd : ℚ) ≤ 10 := by exact_mod_cast hsd
  have e1 : u * nx ≤ 1 / 10 ^ 13 * 23040 := mul_le_mul ub nx2 (by linarith) (by norm_num)
  have e2 : u * ny ≤ 1 / 10 ^ 13 * 11600 := mul_le_mul ub ny2 (by linarith) (by norm_num)
  have e3 : u * sd ≤ 1 / 10 ^ 13 * 10 := mul_le_mul ub sd2 (Nat.cast_nonneg _) (by norm_num)
  have heps : startError u u nx ny + 7 * u * sd ≤ 1 / 10 ^ 8 := by
    unfold startError
    norm_num at e1 e2 e3 ub ⊢
    linarith
  have p10 : (2 : ℚ) ^ sd ≤ 1024 := by
    have : (2 : ℚ) ^ sd ≤ 2 ^ 10 := pow_le_pow_right₀ (by norm_num) hsd
    norm_num at this ⊢
    exact this
  have col1 : 1 / 65 < b.width / nx := by
    rw [lt_div_iff₀ (by linarith)]
    norm_num at ub
    linarith [ax.2]
  have col2 : b.width / nx ≤ 359 := by
    rw [div_le_iff₀ (by linarith)]
    linarith
  have u2 : 0 ≤ u * (nx : ℚ) := by positivity
  have u3 : 0 ≤ u * (ny : ℚ) := by positivity
  have u4 : 0 ≤ u * (sd : ℚ) := by positivity
  have hp : (0 : ℚ) < 2 ^ sd := by positivity
  have se : 0 ≤ startError u u nx ny + 7 * u * sd := by unfold startError; linarith
  have hR : Resolved Fl.round64 u u b W H nx ny sd (startError u u nx ny + 7 * u * sd) := by
    refine ⟨hv, hs, hn, u0, by linarith, by linarith, hnx, hny, hnx0, hny0, u0, fx, fy, rfl, ?_, ?_, ?_⟩
    · norm_num at heps ⊢
      linarith
    · refine lt_of_le_of_lt (mul_le_mul (b := 3 / 10 ^ 8) ?_ p10 hp.le (by norm_num)) (lt_trans ?_ col1)
      · norm_num at heps ub ⊢
        linarith
      · norm_num
    · norm_num at heps ub ⊢
      linarith
  obtain ⟨t1, t2, t3⟩ := C111_tiles hr hR h0 h
  refine ⟨fun y x hyx => ?_, fun i j a c hi hj hij y x hd => ?_, fun a ha y x hb => withinOf_mono heps (t3 a ha y x hb)⟩
  · obtain ⟨a, ha, hb⟩ := t1 y x hyx
    exact ⟨a, ha, withinOf_mono heps hb⟩
  · exact t2 i j a c hi hj hij y x ⟨deepIn_anti heps hd.1, deepIn_anti heps hd.2⟩

/-- **C111 (over the antimeridian it fails).**  A region over the antimeridian and cells of one degree, all numbers of double precision: the
checks accept them and the region is two degrees wide but for `2 ^ -45`, yet it gets three columns of cells, the last of them outside of it. -/
theorem C111_crossing_false :
    ∃ b : Boundary, Valid b ∧ IsDouble b.longMin ∧ b.longMax = -179 ∧ b.width = 2 + 1 / 2 ^ 45 ∧
    Fl.assertValidCellsize Fl.round64 b.longMin b.longMax 1 = .ok () ∧ Fl.validateBounds Fl.round64 b 1 1 = .ok () ∧
    Fl.initializeCells Fl.round64 b 1 1 = .ok [⟨0, 1, 179, 180, []⟩, ⟨0, 1, -180, -179, []⟩, ⟨0, 1, -179, -178, []⟩] := by
  refine ⟨⟨0, 1, 179 - 1 / 2 ^ 45, -179, []⟩, ?_, ⟨179 * 2 ^ 45 - 1, -45, ?_, ?_, ?_, ?_⟩, rfl, ?_, ?_, ?_, ?_⟩
  · unfold Valid; norm_num
  · norm_num
  · norm_num
  · norm_num
  · norm_num
  · unfold Boundary.width; norm_num
  all_goals decide +kernel

namespace RoundingErrorEx

/-- Two columns of cells 0.1 degrees wide, of which one is split: gaps and overlaps are there (`C101_decimal_false`) but no wider than the bound. -/
example (em : EnvMesh) (h : tenthFloat = .ok em) :
    (∀ y x, 0 ≤ y → y < 1 → 0 ≤ x → x < Fl.round64 (1 / 5) → ∃ a ∈ em.cells, WithinOf (1 / 10 ^ 8) a.bounds y x) := by
  unfold tenthFloat at h
  cases h0 : Fl.init Fl.round64 tenthRegion (Fl.round64 (1 / 10)) 1 (fun _ => ()) 1 with
  | error e => rw [h0] at h; cases h
  | ok m =>
    rw [h0] at h
    have e5 : Fl.round64 (1 / 5) = 3602879701896397 / 18014398509481984 := by decide +kernel
    have e10 : Fl.round64 (1 / 10) = 3602879701896397 / 36028797018963968 := by decide +kernel
    obtain ⟨t, -⟩ := C111_double (b := tenthRegion) (by unfold Valid tenthRegion; rw [e5]; norm_num) (by norm_num [tenthRegion]) (by norm_num [tenthRegion])
      (by unfold tenthRegion; rw [e5]; norm_num) (by unfold tenthRegion; rw [e5]; norm_num) (by rw [e10]; norm_num) (by norm_num)
      (by unfold Boundary.width tenthRegion; rw [e5, e10]; norm_num) (by norm_num [Boundary.height, tenthRegion]) (by norm_num) h0 h
    intro y x h1 h2 h3 h4
    refine t y x ⟨h1, h2, h3, ?_⟩
    unfold patchOf Boundary.width tenthRegion
    rw [e5] at h4 ⊢
    norm_num
    exact h4

/-- The mesh exists. -/
example : cellCount tenthFloat = some 5 := by decide +kernel

/-- Its circumstances: two columns, one row, nothing left over. -/
theorem tenth_resolved : Resolved Fl.round64 (1 / 2 ^ 44) 0 tenthRegion (Fl.round64 (1 / 10)) 1 2 1 1 (21 / 2 ^ 44) := by
  have e5 : Fl.round64 (1 / 5) = 3602879701896397 / 18014398509481984 := by decide +kernel
  have e10 : Fl.round64 (1 / 10) = 3602879701896397 / 36028797018963968 := by decide +kernel
  constructor
  · unfold Valid tenthRegion; rw [e5]; norm_num
  · norm_num [tenthRegion]
  · norm_num [tenthRegion]
  · norm_num
  · rw [e10]; norm_num
  · norm_num
  · decide +kernel
  · decide +kernel
  · norm_num
  · norm_num
  · norm_num
  · unfold Boundary.width tenthRegion; rw [e5, e10]; norm_num
  · unfold Boundary.height tenthRegion; norm_num
  · unfold startError; norm_num
  · norm_num
  · unfold Boundary.width tenthRegion; rw [e5]; norm_num
  · unfold Boundary.width tenthRegion; rw [e5]; norm_num

/-- Its edges are within 21 roundings of the exact ones, if its data split what they like. -/
example {D : Type} (initData : Boundary → D) (ops : DataOps D) (aggregate : CellBox D → Py (Dict String Val)) (fuel : ℕ) (config : MeshConfig)
    (m : MeshState D) (em : EnvMesh) (h0 : Fl.init Fl.round64 tenthRegion (Fl.round64 (1 / 10)) 1 initData 1 = .ok m)
    (h : Fl.buildEnvironmentalMesh Fl.round64 ops aggregate fuel config m = .ok em) :
    (∃ t, Divided tenthRegion 2 1 t ∧ List.Forall₂ (fun (a : AggCell) q => NearBox (21 / 2 ^ 44) a.bounds q) em.cells (t.filterMap id)) ∧
    ∀ a ∈ em.cells, ∀ y x, WithinOf 0 a.bounds y x → WithinOf (21 / 2 ^ 44) tenthRegion y x :=
  ⟨C111_cells C111_round64 tenth_resolved h0 h, (C111_tiles C111_round64 tenth_resolved h0 h).2.2⟩

/-- A region from 0 to 0.3 degrees in cells of 0.3 by 0.7 degrees, all as numbers of double precision. -/
example : |((Fl.longStarts Fl.round64 ⟨0, Fl.round64 (7 / 10), 0, Fl.round64 (3 / 10), []⟩ (Fl.round64 (3 / 10))).length : ℚ) * Fl.round64 (3 / 10) -
    Boundary.width ⟨0, Fl.round64 (7 / 10), 0, Fl.round64 (3 / 10), []⟩| ≤ 1 / 2 ^ 44 := by
  have e3 : Fl.round64 (3 / 10) = 5404319552844595 / 18014398509481984 := by decide +kernel
  have e7 : Fl.round64 (7 / 10) = 6305039478318694 / 9007199254740992 := by decide +kernel
  refine (C111_fits round64_faithful C111_round64 (H := Fl.round64 (7 / 10)) ?_ ?_ ?_ ?_ ?_ ?_ ?_ ?_ ?_ ?_ (by decide +kernel)).1
  all_goals first | (unfold Valid; rw [e3, e7]; norm_num) | (dsimp only; rw [e3]; norm_num) | (dsimp only; rw [e7]; norm_num) | (rw [e3]; norm_num) | (rw [e7]; norm_num)

end RoundingErrorEx


end Verif
