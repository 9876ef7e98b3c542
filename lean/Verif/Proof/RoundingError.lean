import Verif.Proof.Rounding
import Verif.Proof.Grid

/-!
# Errors of rounding in the geometry of a mesh

How far the edges of cells calculated with a rounding `r` are from those of exact arithmetic (for C111).
-/

namespace Verif

/-- `r` moves no number of size at most 1024 by more than `u`. -/
def Accurate (r : ℚ → ℚ) (u : ℚ) : Prop := ∀ q, |q| ≤ 1024 → |r q - q| ≤ u

/-- A rectangle of the plane, latitudes `y0` to `y1`, longitudes `x0` to `x1` counted on without regard to the antimeridian. -/
structure Spec.Patch where
  y0 : ℚ
  y1 : ℚ
  x0 : ℚ
  x1 : ℚ

/-- The edges of a box are within `δ` of those of a rectangle, longitudes up to whole turns. -/
structure Spec.NearBox (δ : ℚ) (b : Boundary) (q : Spec.Patch) : Prop where
  south : |b.latMin - q.y0| ≤ δ
  north : |b.latMax - q.y1| ≤ δ
  west : ∃ k : ℤ, |b.longMin - q.x0 - 360 * k| ≤ δ
  east : ∃ k : ℤ, |b.longMax - q.x1 - 360 * k| ≤ δ

/-- The longitudes of a box are those of the map but for rounding. -/
structure OnMap (u : ℚ) (b : Boundary) : Prop where
  west : -180 ≤ b.longMin
  west' : b.longMin ≤ 180 + 2 * u
  east : -180 - 2 * u ≤ b.longMax
  east' : b.longMax ≤ 180

open Spec

theorem mk?_fields {x y v w : ℚ} {t : List ℤ} {b : Boundary} (h : Boundary.mk? [x, y] [v, w] t = .ok b) :
    b = ⟨x, y, v, w, t⟩ ∧ -180 ≤ v ∧ w ≤ 180 := by
  obtain ⟨a, a', _, c, d, _, e1, e2, -, h1, h2, -, rfl⟩ := (C03_construction_table _ _ _ _).1 h
  cases e1; cases e2
  exact ⟨rfl, h1, h2⟩

section

variable {r : ℚ → ℚ} {u : ℚ}

theorem Accurate.bounds (hr : Accurate r u) {q : ℚ} (h1 : -1024 ≤ q) (h2 : q ≤ 1024) : q - u ≤ r q ∧ r q ≤ q + u := by
  have := abs_le.1 (hr q (abs_le.2 ⟨h1, h2⟩))
  constructor <;> linarith [this.1, this.2]

/-- `longitude_domain` moves a meridian by at most three roundings. -/
theorem domain_near (hr : Accurate r u) (hu : 0 ≤ u) (hu1 : u ≤ 1) {x : ℚ} (h1 : -800 ≤ x) (h2 : x ≤ 800) :
    (∃ k : ℤ, |Fl.domain r x - x - 360 * k| ≤ 3 * u) ∧ -180 - 2 * u ≤ Fl.domain r x ∧ Fl.domain r x ≤ 180 + 2 * u := by
  unfold Fl.domain
  split_ifs with h
  · refine ⟨⟨0, by simp; linarith⟩, ?_⟩
    rcases h with h | h <;> rw [h] <;> constructor <;> linarith
  · have a1 := hr.bounds (q := x + 180) (by linarith) (by linarith)
    set a := r (x + 180) with ha
    have key : ∃ k : ℤ, |Fl.fmod r a 360 - a - 360 * k| ≤ u ∧ -u ≤ Fl.fmod r a 360 ∧ Fl.fmod r a 360 ≤ 360 + u := by
      unfold Fl.fmod
      set m := a - 360 * (pyInt (a / 360) : ℤ) with hm
      have hm2 : -360 ≤ m ∧ m ≤ 360 := by
        rw [hm]
        unfold pyInt
        split_ifs
        · have f1 := Int.floor_le (a / 360)
          have f2 := Int.lt_floor_add_one (a / 360)
          rw [le_div_iff₀ (by norm_num)] at f1
          rw [div_lt_iff₀ (by norm_num)] at f2
          constructor <;> linarith
        · have f1 := Int.le_ceil (a / 360)
          have f2 := Int.ceil_lt_add_one (a / 360)
          rw [div_le_iff₀ (by norm_num)] at f1
          rw [← sub_lt_iff_lt_add, lt_div_iff₀ (by norm_num)] at f2
          constructor <;> linarith
      dsimp only
      split_ifs with hs
      · have hneg : m < 0 := by
          by_contra hc
          exact hs.2 (by simp [hc])
        have b1 := hr.bounds (q := m + 360) (by linarith) (by linarith)
        refine ⟨1 - pyInt (a / 360), ?_, by linarith, by linarith⟩
        have : r (m + 360) - a - 360 * ((1 - pyInt (a / 360) : ℤ) : ℚ) = r (m + 360) - (m + 360) := by rw [hm]; push_cast; ring
        rw [this, abs_le]
        constructor <;> linarith
      · have hpos : 0 ≤ m := by
          by_contra hc
          refine hs ⟨by intro e; exact hc e.ge, ?_⟩
          have : m < 0 := not_le.1 hc
          simp [this]
        refine ⟨-pyInt (a / 360), ?_, by linarith, by linarith⟩
        have : m - a - 360 * ((-pyInt (a / 360) : ℤ) : ℚ) = 0 := by rw [hm]; push_cast; ring
        rw [this, abs_zero]; exact hu
    obtain ⟨k, k1, k2, k3⟩ := key
    set f := Fl.fmod r a 360
    have c1 := hr.bounds (q := f - 180) (by linarith) (by linarith)
    refine ⟨⟨k, ?_⟩, by linarith, by linarith⟩
    rw [abs_le] at k1 ⊢
    constructor <;> linarith [k1.1, k1.2]

/-- The width of a box that is near a rectangle. -/
theorem width_lift (hu : 0 ≤ u) {b : Boundary} {q : Patch} {δ : ℚ} (hb : OnMap u b) {k l : ℤ}
    (hw : |b.longMin - q.x0 - 360 * k| ≤ δ) (he : |b.longMax - q.x1 - 360 * l| ≤ δ)
    (h1 : 2 * δ + 4 * u < q.x1 - q.x0) (h2 : q.x1 - q.x0 < 360 - 2 * δ - 4 * u) :
    b.width = (b.longMax - 360 * l) - (b.longMin - 360 * k) := by
  obtain ⟨m1, m2, m3, m4⟩ := hb
  rw [abs_le] at hw he
  have unique : ∀ j : ℤ, -4 * u ≤ b.longMax - b.longMin + 360 * j → b.longMax - b.longMin + 360 * j ≤ 360 + 4 * u → j = k - l := by
    intro j j1 j2
    rcases lt_trichotomy j (k - l) with h | h | h
    · exfalso
      have : j ≤ k - l - 1 := by omega
      have : (j : ℚ) ≤ k - l - 1 := by exact_mod_cast this
      linarith [hw.1, hw.2, he.1, he.2]
    · exact h
    · exfalso
      have : k - l + 1 ≤ j := by omega
      have : (k : ℚ) - l + 1 ≤ j := by exact_mod_cast this
      linarith [hw.1, hw.2, he.1, he.2]
  unfold Boundary.width
  split_ifs with hc
  · have := unique 0 (by push_cast; linarith) (by push_cast; linarith)
    have hk : (k : ℚ) - l = 0 := by exact_mod_cast this.symm
    linarith
  · have hc := not_lt.1 hc
    have := unique 1 (by push_cast; linarith) (by push_cast; linarith)
    have hk : (k : ℚ) - l = 1 := by exact_mod_cast this.symm
    linarith

/-- The rounded width of a box. -/
theorem width_near (hr : Accurate r u) (hu1 : u ≤ 1) {b : Boundary} (hb : OnMap u b) : |Fl.width r b - b.width| ≤ 3 * u := by
  obtain ⟨m1, m2, m3, m4⟩ := hb
  unfold Fl.width Boundary.width
  split_ifs with hc
  · have a1 := hr.bounds (q := b.longMax - b.longMin) (by linarith) (by linarith)
    rw [abs_le]
    constructor <;> linarith
  · have hc := not_lt.1 hc
    have a1 := hr.bounds (q := 180 - b.longMin) (by linarith) (by linarith)
    have a2 := hr.bounds (q := b.longMax + 180) (by linarith) (by linarith)
    have a3 := hr.bounds (q := r (180 - b.longMin) + r (b.longMax + 180)) (by linarith) (by linarith)
    rw [abs_le]
    constructor <;> linarith

/-- The quarters of a rectangle in the order of `create_splitted_cell_boxes`. -/
def Spec.Patch.parts (q : Patch) : List Patch :=
  [⟨(q.y0 + q.y1) / 2, q.y1, q.x0, (q.x0 + q.x1) / 2⟩, ⟨(q.y0 + q.y1) / 2, q.y1, (q.x0 + q.x1) / 2, q.x1⟩,
   ⟨q.y0, (q.y0 + q.y1) / 2, q.x0, (q.x0 + q.x1) / 2⟩, ⟨q.y0, (q.y0 + q.y1) / 2, (q.x0 + q.x1) / 2, q.x1⟩]

/-- A box with the properties that splitting keeps. -/
structure NearCell (u δ : ℚ) (b : Boundary) (q : Patch) : Prop extends NearBox δ b q where
  map : OnMap u b

/-- Splitting moves each edge by at most seven roundings. -/
theorem createSplitted_near (hr : Accurate r u) (hu : 0 ≤ u) (hu1 : u ≤ 1) {b : Boundary} {q : Patch} {δ : ℚ} (hδ : δ ≤ 10)
    (hb : NearCell u δ b q) (hy0 : -180 ≤ q.y0) (hy : q.y0 ≤ q.y1) (hy1 : q.y1 ≤ 180)
    (h1 : 2 * δ + 4 * u < q.x1 - q.x0) (h2 : q.x1 - q.x0 < 360 - 2 * δ - 4 * u) {i : ℕ} {l : List (Boundary × ℕ)}
    (h : Fl.createSplitted r b i = .ok l) :
    List.Forall₂ (fun p q => NearCell u (δ + 7 * u) p.1 q) l q.parts ∧ l.map Prod.snd = [i, i + 1, i + 2, i + 3] := by
  obtain ⟨⟨s, n, ⟨k, w⟩, ⟨j, e⟩⟩, hm⟩ := hb
  have hwd := width_near hr hu1 hm
  rw [width_lift hu hm w e h1 h2] at hwd
  obtain ⟨m1, m2, m3, m4⟩ := hm
  rw [abs_le] at s n w e hwd
  unfold Fl.createSplitted Fl.height at h
  simp only [bind, Except.bind, pure, Except.pure] at h
  set W := Fl.width r b with hW
  have hh := hr.bounds (q := b.latMax - b.latMin) (by linarith) (by linarith)
  set hgt := r (b.latMax - b.latMin) with hhgt
  have hh2 := hr.bounds (q := hgt / 2) (by linarith) (by linarith)
  have hmid := hr.bounds (q := b.latMin + r (hgt / 2)) (by linarith) (by linarith)
  have htop := hr.bounds (q := b.latMin + hgt) (by linarith) (by linarith)
  have hw2 := hr.bounds (q := W / 2) (by linarith) (by linarith)
  have hx := hr.bounds (q := b.longMin + r (W / 2)) (by linarith) (by linarith)
  have hx' := hr.bounds (q := b.longMin + W) (by linarith) (by linarith)
  obtain ⟨⟨c, d1⟩, d2, d3⟩ := domain_near hr hu hu1 (x := r (b.longMin + r (W / 2))) (by linarith) (by linarith)
  obtain ⟨⟨c', f1⟩, f2, f3⟩ := domain_near hr hu hu1 (x := r (b.longMin + W)) (by linarith) (by linarith)
  rw [abs_le] at d1 f1
  have hmidEdge : ∃ z : ℤ, |Fl.domain r (r (b.longMin + r (W / 2))) - (q.x0 + q.x1) / 2 - 360 * z| ≤ δ + 7 * u :=
    ⟨c + k, by push_cast; rw [abs_le]; constructor <;> linarith⟩
  have heastEdge : ∃ z : ℤ, |Fl.domain r (r (b.longMin + W)) - q.x1 - 360 * z| ≤ δ + 7 * u :=
    ⟨c' + k, by push_cast; rw [abs_le]; constructor <;> linarith⟩
  have hwestEdge : ∃ z : ℤ, |b.longMin - q.x0 - 360 * z| ≤ δ + 7 * u := ⟨k, by rw [abs_le]; constructor <;> linarith⟩
  have hs : |b.latMin - q.y0| ≤ δ + 7 * u := by rw [abs_le]; constructor <;> linarith
  have hc : |r (b.latMin + r (hgt / 2)) - (q.y0 + q.y1) / 2| ≤ δ + 7 * u := by rw [abs_le]; constructor <;> linarith
  have hn : |r (b.latMin + hgt) - q.y1| ≤ δ + 7 * u := by rw [abs_le]; constructor <;> linarith
  split at h
  · cases h
  rename_i nw hnw
  split at h
  · cases h
  rename_i ne hne
  split at h
  · cases h
  rename_i sw hsw
  split at h
  · cases h
  rename_i se hse
  cases h
  obtain ⟨rfl, p1, p2⟩ := mk?_fields hnw
  obtain ⟨rfl, p3, p4⟩ := mk?_fields hne
  obtain ⟨rfl, p5, p6⟩ := mk?_fields hsw
  obtain ⟨rfl, p7, p8⟩ := mk?_fields hse
  refine ⟨.cons ⟨⟨hc, hn, hwestEdge, hmidEdge⟩, p1, m2, d2, p2⟩ (.cons ⟨⟨hc, hn, hmidEdge, heastEdge⟩, p3, d3, f2, p4⟩
    (.cons ⟨⟨hs, hc, hwestEdge, hmidEdge⟩, p5, m2, d2, p6⟩ (.cons ⟨⟨hs, hc, hmidEdge, heastEdge⟩, p7, d3, f2, p8⟩ .nil))), rfl⟩

/-- The elements of `np.arange` in floating point. -/
theorem arange_near (hr : Accurate r u) (hu : 0 ≤ u) (hu1 : u ≤ 1) {a b s : ℚ} (ha1 : -182 ≤ a) (ha2 : a ≤ 182) (hs : 0 < s)
    (hn : ((Fl.arange r a b s).length : ℚ) * s ≤ 400) (hn' : 2 * u * (Fl.arange r a b s).length ≤ 100) :
    ∃ f : ℕ → ℚ, Fl.arange r a b s = (List.range (Fl.arange r a b s).length).map f ∧
      ∀ i : ℕ, i < (Fl.arange r a b s).length → |f i - (a + i * s)| ≤ 2 * u * (i + 1) := by
  refine ⟨fun i : ℕ => if i = 0 then a else if i = 1 then r (a + s) else r (a + r (i * r (r (a + s) - a))), ?_, ?_⟩
  · unfold Fl.arange
    simp
  · intro i hi
    set n := (Fl.arange r a b s).length
    have hi' : (i : ℚ) + 1 ≤ n := by exact_mod_cast hi
    have hi0 : (0 : ℚ) ≤ i := Nat.cast_nonneg i
    have hs4 : s ≤ 400 := by nlinarith
    have his : (i : ℚ) * s ≤ 400 := by nlinarith
    have his0 : (0 : ℚ) ≤ i * s := by positivity
    have hui : 2 * u * i ≤ 100 := by nlinarith
    have hui0 : (0 : ℚ) ≤ 2 * u * i := by positivity
    have a1 := hr.bounds (q := a + s) (by linarith) (by linarith)
    have a2 := hr.bounds (q := r (a + s) - a) (by linarith) (by linarith)
    dsimp only
    split_ifs with h0 h1
    · subst h0; simp; linarith
    · subst h1
      rw [abs_le]
      push_cast
      constructor <;> linarith
    · set d := r (r (a + s) - a)
      have d1 : (i : ℚ) * s - 2 * u * i ≤ i * d := by nlinarith
      have d2 : (i : ℚ) * d ≤ i * s + 2 * u * i := by nlinarith
      have a3 := hr.bounds (q := i * d) (by linarith) (by linarith)
      have a4 := hr.bounds (q := a + r (i * d)) (by linarith) (by linarith)
      rw [abs_le]
      constructor <;> linarith

/-- The boundary of an initial cell. -/
theorem initialCell_near (hr : Accurate r u) (hu : 0 ≤ u) (hu1 : u ≤ 1) {t : List ℤ} {W H lat long y x α β δ : ℚ} {b : Boundary}
    (h : Fl.initialCell r t W H lat long = .ok b) (hW : 0 < W) (hW4 : W ≤ 400) (hH : 0 < H) (hH4 : H ≤ 400) (hy1 : -182 ≤ y) (hy2 : y ≤ 182)
    (hy : |lat - y| ≤ α) (hx : ∃ k : ℤ, |long - x - 360 * k| ≤ β) (hl2 : long ≤ 180 + 2 * u) {y' x' : ℚ}
    (hα : α ≤ 10) (hα' : α ≤ δ) (hβ : β ≤ δ) (hy' : α + u + |y + H - y'| ≤ δ) (hx' : β + 2 * u + |x + W - x'| ≤ δ) :
    NearCell u δ b ⟨y, y', x, x'⟩ := by
  obtain ⟨k, hx⟩ := hx
  have e1 := abs_nonneg (y + H - y')
  have e2 := neg_abs_le (y + H - y')
  have e3 := le_abs_self (y + H - y')
  have g1 := abs_nonneg (x + W - x')
  have g2 := neg_abs_le (x + W - x')
  have g3 := le_abs_self (x + W - x')
  rw [abs_le] at hy hx
  have a1 := hr.bounds (q := lat + H) (by linarith) (by linarith)
  unfold Fl.initialCell at h
  split_ifs at h with hc
  · obtain ⟨rfl, b1, b2⟩ := mk?_fields h
    have a2 := hr.bounds (q := long + W) (by linarith) (by linarith)
    exact ⟨⟨abs_le.2 ⟨by linarith, by linarith⟩, abs_le.2 ⟨by dsimp only; linarith, by dsimp only; linarith⟩,
      ⟨k, abs_le.2 ⟨by linarith, by linarith⟩⟩, ⟨k, abs_le.2 ⟨by dsimp only; linarith, by dsimp only; linarith⟩⟩⟩,
      b1, hl2, by dsimp only; linarith, b2⟩
  · obtain ⟨rfl, b1, b2⟩ := mk?_fields h
    have hc := not_le.1 hc
    have a2 := hr.bounds (q := long + W) (by linarith) (by linarith)
    have a3 := hr.bounds (q := r (long + W) - 360) (by linarith) (by linarith)
    refine ⟨⟨abs_le.2 ⟨by linarith, by linarith⟩, abs_le.2 ⟨by dsimp only; linarith, by dsimp only; linarith⟩,
      ⟨k, abs_le.2 ⟨by linarith, by linarith⟩⟩, ⟨k - 1, abs_le.2 ⟨by push_cast; linarith, by push_cast; linarith⟩⟩⟩,
      b1, hl2, by dsimp only; linarith, b2⟩

end

theorem foldlM_collect {α β : Type} {f : α → Py β} : ∀ (l : List α) (acc res : List β),
    l.foldlM (fun acc x => do let y ← f x; return acc ++ [y]) acc = .ok res → ∃ ys, List.Forall₂ (fun x y => f x = .ok y) l ys ∧ res = acc ++ ys
  | [], acc, res, h => by cases h; exact ⟨[], .nil, by simp⟩
  | a :: l, acc, res, h => by
    rw [List.foldlM_cons] at h
    simp only [bind, Except.bind, pure, Except.pure] at h
    cases hf : f a with
    | error e => rw [hf] at h; cases h
    | ok y =>
      rw [hf] at h
      obtain ⟨ys, h1, rfl⟩ := foldlM_collect l _ _ h
      exact ⟨y :: ys, .cons hf h1, by simp⟩

/-- The cells of an initial grid, row by row. -/
theorem initializeCells_list {r : ℚ → ℚ} {b : Boundary} {W H : ℚ} {boxes : List Boundary} (h : Fl.initializeCells r b W H = .ok boxes) :
    ∃ rows : List (List Boundary), boxes = rows.flatten ∧ List.Forall₂ (fun lat row =>
      List.Forall₂ (fun long cb => Fl.initialCell r b.time W H lat long = .ok cb) (Fl.longStarts r b W) row) (Fl.arange r b.latMin b.latMax H) rows := by
  unfold Fl.initializeCells at h
  have key : ∀ (lats : List ℚ) (acc res : List Boundary),
      lats.foldlM (fun acc lat => (Fl.longStarts r b W).foldlM (fun acc long => do
        let cb ← Fl.initialCell r b.time W H lat long
        return acc ++ [cb]) acc) acc = .ok res → ∃ rows : List (List Boundary), res = acc ++ rows.flatten ∧ List.Forall₂ (fun lat row =>
        List.Forall₂ (fun long cb => Fl.initialCell r b.time W H lat long = .ok cb) (Fl.longStarts r b W) row) lats rows := by
    intro lats
    induction lats with
    | nil => intro acc res h; cases h; exact ⟨[], by simp, .nil⟩
    | cons lat lats ih =>
      intro acc res h
      rw [List.foldlM_cons] at h
      cases hi : (Fl.longStarts r b W).foldlM (fun acc long => do
        let cb ← Fl.initialCell r b.time W H lat long
        return acc ++ [cb]) acc with
      | error e => rw [hi] at h; cases h
      | ok acc' =>
        rw [hi] at h
        obtain ⟨row, h1, rfl⟩ := foldlM_collect _ _ _ hi
        obtain ⟨rows, h2, h3⟩ := ih _ _ h
        exact ⟨row :: rows, by rw [h2]; simp, .cons h1 h3⟩
  obtain ⟨rows, h1, h2⟩ := key _ _ _ h
  exact ⟨rows, by simpa using h1, h2⟩

end Verif
