import Verif.Props.CellSplit
import Verif.Model.MeshBuilder

/-!
# The initial grid as an explicit list
-/

namespace Verif
open Spec

theorem foldlM_append_ok {α β : Type} (f : α → Py β) (g : α → β) (l : List α) (h : ∀ x ∈ l, f x = .ok (g x)) (acc : List β) :
    l.foldlM (fun acc x => do let y ← f x; return acc ++ [y]) acc = (.ok (acc ++ l.map g) : Py (List β)) := by
  induction l generalizing acc with
  | nil => simp [pure, Except.pure]
  | cons a l ih =>
    rw [List.foldlM_cons]
    simp only [h a (by simp), bind, Except.bind, pure, Except.pure]
    have := ih (fun x hx => h x (by simp [hx])) (acc ++ [g a])
    simp only [bind, Except.bind, pure, Except.pure] at this
    rw [this]; simp

theorem foldlM_flat_ok {α β : Type} (f : List β → α → Py (List β)) (g : α → List β) (l : List α)
    (h : ∀ x ∈ l, ∀ acc, f acc x = .ok (acc ++ g x)) (acc : List β) :
    l.foldlM f acc = (.ok (acc ++ l.flatMap g) : Py (List β)) := by
  induction l generalizing acc with
  | nil => simp [pure, Except.pure]
  | cons a l ih =>
    rw [List.foldlM_cons, h a (by simp)]
    simp only [bind, Except.bind]
    rw [ih (fun x hx => h x (by simp [hx]))]; simp

theorem flatMap_range {β : Type} (ny nx : ℕ) (f : ℕ → ℕ → β) :
    (List.range ny).flatMap (fun r => (List.range nx).map (fun c => f r c)) =
      (List.range (ny * nx)).map (fun i => f (i / nx) (i % nx)) := by
  induction ny with
  | zero => simp
  | succ n ih =>
    rw [List.range_succ, List.flatMap_append, ih, Nat.succ_mul, List.range_add, List.map_append]
    congr 1
    simp only [List.flatMap_cons, List.flatMap_nil, List.append_nil, List.map_map]
    apply List.map_congr_left
    intro c hc
    have hc' : c < nx := List.mem_range.1 hc
    have hnx : 0 < nx := by omega
    simp only [Function.comp]
    congr 1
    · rw [Nat.mul_comm, Nat.mul_add_div hnx]
      simp [Nat.div_eq_of_lt hc']
    · rw [Nat.mul_comm, Nat.mul_add_mod]
      exact (Nat.mod_eq_of_lt hc').symm

theorem arange_eq {a b s : ℚ} (hs : 0 < s) (n : ℕ) (h : b - a = n * s) :
    arange a b s = (List.range n).map (fun i : ℕ => a + i * s) := by
  unfold arange arangeLen
  rw [h]
  have : (n : ℚ) * s / s = n := by field_simp
  rw [this]; simp

/-- Cell number `i` of the initial grid with `nx` columns. -/
def gridCell (b : Boundary) (W H : ℚ) (nx i : ℕ) : Boundary :=
  { latMin := b.latMin + ((i / nx : ℕ) : ℚ) * H
    latMax := b.latMin + ((i / nx : ℕ) : ℚ) * H + H
    longMin := longitudeDomain (b.longMin + ((i % nx : ℕ) : ℚ) * W)
    longMax := if longitudeDomain (b.longMin + ((i % nx : ℕ) : ℚ) * W) + W ≤ 180 then
        longitudeDomain (b.longMin + ((i % nx : ℕ) : ℚ) * W) + W
      else longitudeDomain (b.longMin + ((i % nx : ℕ) : ℚ) * W) + W - 360
    time := b.time }

theorem mk?_ok {a a' c d : ℚ} {t : List ℤ} (ha : a ≤ a') (hc : -180 ≤ c) (hd : d ≤ 180)
    (ht : t = [] ∨ ∃ t0 t1, t = [t0, t1] ∧ t0 ≤ t1) :
    Boundary.mk? [a, a'] [c, d] t = .ok ⟨a, a', c, d, t⟩ :=
  (C03_construction_table _ _ _ _).2 ⟨_, _, [], _, _, [], rfl, rfl, ha, hc, hd, ht, rfl⟩

theorem initialCell_ok {W H lat long : ℚ} {t : List ℤ} (hH : 0 < H) (hW1 : W ≤ 360)
    (ht : t = [] ∨ ∃ t0 t1, t = [t0, t1] ∧ t0 ≤ t1) (h0 : -180 ≤ long) (h1 : long ≤ 180) :
    MeshBuilder.initialCell t W H lat long =
      .ok ⟨lat, lat + H, long, if long + W ≤ 180 then long + W else long + W - 360, t⟩ := by
  unfold MeshBuilder.initialCell
  split
  · exact mk?_ok (by linarith) h0 (by assumption) ht
  · exact mk?_ok (by linarith) h0 (by linarith) ht

/-- The initial grid, for every valid region that is a whole number of cells wide and high. -/
theorem initializeCells_eq (b : Boundary) (hv : Valid b) {W H : ℚ} (hW : 0 < W) (hH : 0 < H) (hW1 : W ≤ 360) (nx ny : ℕ)
    (hx : eastEdge b - b.longMin = nx * W) (hy : b.latMax - b.latMin = ny * H) :
    MeshBuilder.initializeCells b W H = .ok ((List.range (ny * nx)).map (gridCell b W H nx)) := by
  unfold MeshBuilder.initializeCells
  have hl : MeshBuilder.longStarts b W = (List.range nx).map (fun c : ℕ => longitudeDomain (b.longMin + c * W)) := by
    unfold MeshBuilder.longStarts longitudeDomainList
    have : (if b.longMin < b.longMax then arange b.longMin b.longMax W else arange b.longMin (b.longMax + 360) W)
        = arange b.longMin (eastEdge b) W := by
      unfold eastEdge; split <;> rfl
    rw [this, arange_eq hW nx hx, List.map_map]; rfl
  rw [hl, arange_eq hH ny hy]
  rw [foldlM_flat_ok _ (fun lat => (List.range nx).map (fun c : ℕ =>
    (⟨lat, lat + H, longitudeDomain (b.longMin + c * W), if longitudeDomain (b.longMin + c * W) + W ≤ 180 then
      longitudeDomain (b.longMin + c * W) + W else longitudeDomain (b.longMin + c * W) + W - 360, b.time⟩ : Boundary)))]
  · rw [List.flatMap_map, List.nil_append]
    congr 1
    exact flatMap_range ny nx (fun r c =>
      (⟨b.latMin + r * H, b.latMin + r * H + H, longitudeDomain (b.longMin + c * W), if longitudeDomain (b.longMin + c * W) + W ≤ 180 then
      longitudeDomain (b.longMin + c * W) + W else longitudeDomain (b.longMin + c * W) + W - 360, b.time⟩ : Boundary))
  · intro lat _ acc
    rw [foldlM_append_ok _ (fun long : ℚ => (⟨lat, lat + H, long, if long + W ≤ 180 then long + W else long + W - 360, b.time⟩ : Boundary))]
    · rw [List.map_map]; rfl
    · intro long hlong
      obtain ⟨c, -, rfl⟩ := List.mem_map.1 hlong
      obtain ⟨⟨h0, h1⟩, -⟩ := C01_longitude_domain (b.longMin + c * W)
      exact initialCell_ok hH hW1 hv.2.2.2.2.2 h0 h1

/-- Whole-number position of a real in a row of `n` half-open cells of size `s`. -/
theorem exists_slot {s t : ℚ} (hs : 0 < s) (n : ℕ) : (0 < t ∧ t ≤ n * s) ↔ ∃ c : ℕ, c < n ∧ c * s < t ∧ t ≤ c * s + s := by
  constructor
  · induction n with
    | zero => rintro ⟨h0, h1⟩; simp at h1; linarith
    | succ n ih =>
      rintro ⟨h0, h1⟩
      by_cases h : t ≤ n * s
      · obtain ⟨c, hc, h2⟩ := ih ⟨h0, h⟩
        exact ⟨c, by omega, h2⟩
      · push Not at h
        exact ⟨n, by omega, h, by push_cast at h1; linarith⟩
  · rintro ⟨c, hc, h1, h2⟩
    have hc' : (c : ℚ) + 1 ≤ n := by exact_mod_cast hc
    have : ((c : ℚ) + 1) * s ≤ n * s := mul_le_mul_of_nonneg_right hc' hs.le
    have h0 : (0 : ℚ) ≤ c * s := by positivity
    exact ⟨by linarith, by linarith⟩

theorem slot_unique {s t : ℚ} (hs : 0 < s) {c c' : ℕ} (h1 : c * s < t) (h2 : t ≤ c * s + s) (h1' : c' * s < t)
    (h2' : t ≤ c' * s + s) : c = c' := by
  have a1 : (c : ℚ) * s < (c' + 1) * s := by linarith
  have a2 : (c' : ℚ) * s < (c + 1) * s := by linarith
  have b1 := lt_of_mul_lt_mul_right a1 hs.le
  have b2 := lt_of_mul_lt_mul_right a2 hs.le
  have c1 : c < c' + 1 := by exact_mod_cast b1
  have c2 : c' < c + 1 := by exact_mod_cast b2
  omega

theorem eastEdge_gridCell (b : Boundary) {W H : ℚ} (hW : 0 < W) (hW1 : W ≤ 360) (nx i : ℕ) :
    eastEdge (gridCell b W H nx i) = (gridCell b W H nx i).longMin + W := by
  unfold eastEdge gridCell
  simp only
  split <;> split <;> linarith

/-- Membership in a grid cell. -/
theorem hcovers_gridCell (b : Boundary) {W H : ℚ} (hW : 0 < W) (hW1 : W ≤ 360) (nx i : ℕ) (x y : ℚ) :
    HCovers (gridCell b W H nx i) x y ↔
      (∃ n : ℤ, ((i % nx : ℕ) : ℚ) * W < x + 360 * n - b.longMin ∧ x + 360 * n - b.longMin ≤ ((i % nx : ℕ) : ℚ) * W + W) ∧
      ((i / nx : ℕ) : ℚ) * H < y - b.latMin ∧ y - b.latMin ≤ ((i / nx : ℕ) : ℚ) * H + H := by
  unfold HCovers
  rw [eastEdge_gridCell b hW hW1]
  obtain ⟨-, ⟨k, hk⟩, -, -⟩ := C01_longitude_domain (b.longMin + ((i % nx : ℕ) : ℚ) * W)
  have e : (gridCell b W H nx i).longMin = b.longMin + ((i % nx : ℕ) : ℚ) * W + 360 * k := hk
  rw [e]
  apply and_congr
  · constructor
    · rintro ⟨n, h1, h2⟩
      exact ⟨n - k, by push_cast; linarith, by push_cast; linarith⟩
    · rintro ⟨n, h1, h2⟩
      exact ⟨n + k, by push_cast; linarith, by push_cast; linarith⟩
  · simp only [gridCell]
    constructor <;> rintro ⟨h1, h2⟩ <;> constructor <;> linarith

end Verif
