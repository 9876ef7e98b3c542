import Verif.Model.Tif
import Verif.Props.EnvQuery
import Mathlib.Tactic.FieldSimp

/-!
# C43: the GeoTIFF export
-/

namespace Verif
open Spec EnvMesh.Tif

theorem arange_exact {a b : ℚ} {n : ℕ} (hn : 0 < n) (hab : a ≠ b) :
    arange a b ((b - a) / n) = (List.range n).map (fun i : ℕ => a + i * ((b - a) / n)) := by
  unfold arange arangeLen
  have hn' : (n : ℚ) ≠ 0 := by exact_mod_cast hn.ne'
  have h1 : (b - a) / ((b - a) / n) = (n : ℤ) := by
    have : b - a ≠ 0 := sub_ne_zero.2 hab.symm
    push_cast; field_simp
  rw [h1, Int.ceil_intCast, Int.toNat_natCast]

theorem flatMap_range_getElem {α β γ : Type} (l : List α) (r : List β) (f : α → β → γ) (i j : ℕ) (hj : j < r.length) :
    (l.flatMap (fun a => r.map (f a)))[i * r.length + j]? = (l[i]?).bind (fun a => (r[j]?).map (f a)) := by
  induction l generalizing i with
  | nil => simp
  | cons a l ih =>
    rw [List.flatMap_cons]
    cases i with
    | zero => rw [List.getElem?_append_left (by simpa using hj)]; simp
    | succ i =>
      rw [List.getElem?_append_right (by simp; nlinarith)]
      have : (i + 1) * r.length + j - (r.map (f a)).length = i * r.length + j := by rw [List.length_map]; ring_nf; omega
      rw [this, ih]
      simp

/-- The samples of `to_tif`: how many there are, and where. -/
theorem samples_ok (b : Boundary) (nlines ncols : ℕ) (hl : 0 < nlines) (hc : 0 < ncols) (hlat : b.latMin ≠ b.latMax) (hlong : b.longMin ≠ b.longMax) :
    ∃ s, samples b nlines ncols = .ok s ∧ s.length = nlines * ncols ∧ ∀ i j, i < ncols → j < nlines →
      s[i * nlines + j]? = some (b.latMax - (i + 1 / 2) * ((b.latMax - b.latMin) / ncols), b.longMin + (j + 1 / 2) * ((b.longMax - b.longMin) / nlines)) := by
  have hl' : (nlines : ℚ) ≠ 0 := by exact_mod_cast hl.ne'
  have hc' : (ncols : ℚ) ≠ 0 := by exact_mod_cast hc.ne'
  have e1 : -1 * ((b.latMax - b.latMin) / ncols) = (b.latMin - b.latMax) / ncols := by ring
  have hph : (b.latMax - b.latMin) / ncols ≠ 0 := div_ne_zero (sub_ne_zero.2 hlat.symm) hc'
  have hpw : (b.longMax - b.longMin) / nlines ≠ 0 := div_ne_zero (sub_ne_zero.2 hlong.symm) hl'
  have hlen : ((arange b.latMax b.latMin (-1 * ((b.latMax - b.latMin) / ncols))).flatMap (fun lat =>
        (arange b.longMin b.longMax ((b.longMax - b.longMin) / nlines)).map (fun long =>
          (lat - 1 / 2 * ((b.latMax - b.latMin) / ncols), long + 1 / 2 * ((b.longMax - b.longMin) / nlines))))).length = nlines * ncols := by
    rw [e1, arange_exact hc hlat.symm, arange_exact hl hlong]
    simp only [List.length_flatMap, List.map_map, List.length_map, List.length_range, Function.comp_def, List.map_const', List.sum_replicate]
    exact mul_comm ncols nlines
  refine ⟨_, ?_, hlen, ?_⟩
  · unfold samples
    rw [if_neg (by omega)]
    simp only [hph, hpw, or_self, if_false]
    rw [if_pos hlen]
  · intro i j hi hj
    rw [e1, arange_exact hc hlat.symm, arange_exact hl hlong]
    have := flatMap_range_getElem ((List.range ncols).map (fun i : ℕ => b.latMax + i * ((b.latMin - b.latMax) / ncols)))
      ((List.range nlines).map (fun i : ℕ => b.longMin + i * ((b.longMax - b.longMin) / nlines)))
      (fun lat long => (lat - 1 / 2 * ((b.latMax - b.latMin) / ncols), long + 1 / 2 * ((b.longMax - b.longMin) / nlines))) i j (by simpa using hj)
    rw [List.length_map, List.length_range] at this
    rw [this]
    simp only [List.getElem?_map, List.getElem?_range hi, List.getElem?_range hj, Option.map_some, Option.bind_some, Option.some.injEq, Prod.mk.injEq]
    constructor <;> ring

/-- `v` is the value of the mesh at the point of longitude `x` and latitude `y`: that of the data of the
cell that has the point inside, or no value if there is no such cell or no such data. -/
def Spec.MeshValueAt (m : EnvMesh) (name : String) (x y : ℚ) (v : Option ℚ) : Prop :=
  (∃ c ∈ m.cells, StrictIn c.bounds x y ∧ ∀ w : Option ℚ, w = v ↔ c.data.get? name = some (.num w) ∨ (c.data.get? name = none ∧ w = none)) ∨
  ((∀ c ∈ m.cells, ¬ StrictIn c.bounds x y) ∧ v = none)

/-- The centre of the pixel in row `r` and column `c` of an image with the geotransform `gt`. -/
def Spec.pixelCentre (gt : List ℚ) (r c : ℕ) : ℚ × ℚ :=
  (gt.getD 0 0 + (c + 1 / 2) * gt.getD 1 0 + (r + 1 / 2) * gt.getD 2 0, gt.getD 3 0 + (c + 1 / 2) * gt.getD 4 0 + (r + 1 / 2) * gt.getD 5 0)

theorem sampleValue_ok (m : EnvMesh) (name : String) (hv : ∀ c ∈ m.cells, Valid c.bounds)
    (hnum : ∀ c ∈ m.cells, ∀ s, c.data.get? name ≠ some (.str s)) (x y : ℚ) (hx : -180 ≤ x ∧ x ≤ 180)
    (hx' : (∀ c ∈ m.cells, c.bounds.longMin < c.bounds.longMax) ∨ (-180 < x ∧ x < 180)) :
    ∃ v, sampleValue m name (y, x) = .ok v ∧ Spec.MeshValueAt m name x y v := by
  have hc : ∀ c ∈ m.cells, (c.containsPoint y x = true ↔ StrictIn c.bounds x y) := fun c hc =>
    containsPoint_iff c (hv c hc) x y hx (hx'.imp (fun h => h c hc) id)
  unfold sampleValue
  rcases hf : m.cells.find? (fun c => c.containsPoint y x) with _ | c
  · refine ⟨none, by simp only [hf], Or.inr ⟨fun c h1 h2 => ?_, rfl⟩⟩
    have := List.find?_eq_none.1 hf c h1
    exact this ((hc c h1).2 h2)
  · have hmem := List.mem_of_find?_eq_some hf
    have hp := (hc c hmem).1 (by simpa using List.find?_some hf)
    simp only [hf]
    rcases hd : c.data.get? name with _ | v
    · exact ⟨none, rfl, Or.inl ⟨c, hmem, hp, fun w => by rw [hd]; simp⟩⟩
    · cases v with
      | num q => exact ⟨q, rfl, Or.inl ⟨c, hmem, hp, fun w => by rw [hd]; simp [eq_comm]⟩⟩
      | str s => exact absurd hd (hnum c hmem s)

theorem mapM_total {α β : Type} (f : α → Py β) (l : List α) (h : ∀ a ∈ l, ∃ b, f a = .ok b) :
    ∃ r, l.mapM f = .ok r ∧ ∀ i : ℕ, ∀ a, l[i]? = some a → ∃ b, f a = .ok b ∧ r[i]? = some b := by
  induction l with
  | nil => exact ⟨[], rfl, by simp⟩
  | cons a l ih =>
    obtain ⟨r, hr, hi⟩ := ih (fun x hx => h x (List.mem_cons_of_mem _ hx))
    obtain ⟨b, hb⟩ := h a (List.mem_cons_self ..)
    refine ⟨b :: r, ?_, ?_⟩
    · rw [List.mapM_cons, hb, hr]; rfl
    · intro i x hx
      cases i with
      | zero => simp at hx; subst hx; exact ⟨b, hb, rfl⟩
      | succ i => simp at hx ⊢; exact hi i x hx

/-- C43, the number of samples: rows times columns, for every resolution. -/
theorem C43_count (b : Boundary) (nlines ncols : ℕ) (hl : 0 < nlines) (hc : 0 < ncols) (hlat : b.latMin ≠ b.latMax) (hlong : b.longMin ≠ b.longMax) :
    ∃ s, samples b nlines ncols = .ok s ∧ s.length = nlines * ncols :=
  let ⟨s, h1, h2, _⟩ := samples_ok b nlines ncols hl hc hlat hlong
  ⟨s, h1, h2⟩

/-- C43, the extent: the geotransform places the corners of the image at the corners of the region. -/
theorem C43_extent (b : Boundary) (nlines ncols : ℕ) (hl : 0 < nlines) (hc : 0 < ncols) :
    let gt := geoTransform b nlines ncols
    gt.getD 0 0 = b.longMin ∧ gt.getD 0 0 + ncols * gt.getD 1 0 = b.longMax ∧ gt.getD 2 0 = 0 ∧ gt.getD 4 0 = 0 ∧
    gt.getD 3 0 = b.latMax ∧ gt.getD 3 0 + nlines * gt.getD 5 0 = b.latMin := by
  have hl' : (nlines : ℚ) ≠ 0 := by exact_mod_cast hl.ne'
  have hc' : (ncols : ℚ) ≠ 0 := by exact_mod_cast hc.ne'
  simp only [geoTransform, List.getD_cons_zero, List.getD_cons_succ, true_and]
  constructor
  · field_simp; ring
  · field_simp; ring

/-- C43 (partial): with as many rows as columns, every pixel has the value of the mesh at the centre of the
rectangle that the geotransform gives to it.  Missing: other resolutions, for which the claim is false. -/
theorem C43_square_partial (m : EnvMesh) (name : String) (n : ℕ) (hn : 0 < n) (hv : ∀ c ∈ m.cells, Valid c.bounds) (hb : Valid m.bounds)
    (hlat : m.bounds.latMin ≠ m.bounds.latMax) (hlong : m.bounds.longMin < m.bounds.longMax)
    (hnum : ∀ c ∈ m.cells, ∀ s, c.data.get? name ≠ some (.str s)) :
    ∃ img, image m name n n = .ok img ∧ img.length = n ∧ (∀ row ∈ img, row.length = n) ∧
      ∀ r c, r < n → c < n → ∃ row v, img[r]? = some row ∧ row[c]? = some v ∧
        Spec.MeshValueAt m name (Spec.pixelCentre (geoTransform m.bounds n n) r c).1 (Spec.pixelCentre (geoTransform m.bounds n n) r c).2 v := by
  obtain ⟨s, hs, hlen, hi⟩ := samples_ok m.bounds n n hn hn hlat hlong.ne
  obtain ⟨-, b1, b2, b3, b4, -⟩ := hb
  have hn' : (0 : ℚ) < n := by exact_mod_cast hn
  have hw : 0 < (m.bounds.longMax - m.bounds.longMin) / n := div_pos (by linarith) hn'
  have hin : ∀ j : ℕ, j < n → -180 < m.bounds.longMin + (j + 1 / 2) * ((m.bounds.longMax - m.bounds.longMin) / n) ∧
      m.bounds.longMin + (j + 1 / 2) * ((m.bounds.longMax - m.bounds.longMin) / n) < 180 := by
    intro j hj
    have hj0 : (0 : ℚ) ≤ j := Nat.cast_nonneg j
    have hj1 : (j : ℚ) + 1 ≤ n := by exact_mod_cast hj
    have e : (n : ℚ) * ((m.bounds.longMax - m.bounds.longMin) / n) = m.bounds.longMax - m.bounds.longMin := by field_simp
    constructor
    · have : 0 < ((j : ℚ) + 1 / 2) * ((m.bounds.longMax - m.bounds.longMin) / n) := mul_pos (by linarith) hw
      linarith
    · have : ((j : ℚ) + 1 / 2) * ((m.bounds.longMax - m.bounds.longMin) / n) < n * ((m.bounds.longMax - m.bounds.longMin) / n) :=
        mul_lt_mul_of_pos_right (by linarith) hw
      linarith
  have hval : ∀ p ∈ s, ∃ v, sampleValue m name p = .ok v ∧ Spec.MeshValueAt m name p.2 p.1 v := by
    intro p hp
    obtain ⟨k, hk, rfl⟩ := List.mem_iff_getElem.1 hp
    rw [hlen] at hk
    have hdm : k / n * n + k % n = k := Nat.div_add_mod' k n
    have := hi (k / n) (k % n) (Nat.div_lt_of_lt_mul hk) (Nat.mod_lt _ hn)
    rw [hdm, List.getElem?_eq_getElem (by rw [hlen]; exact hk)] at this
    injection this with this
    rw [this]
    obtain ⟨l1, l2⟩ := hin (k % n) (Nat.mod_lt _ hn)
    exact sampleValue_ok m name hv hnum _ _ ⟨l1.le, l2.le⟩ (Or.inr ⟨l1, l2⟩)
  obtain ⟨vals, hvals, hvi⟩ := mapM_total (sampleValue m name) s (fun p hp => let ⟨v, h, _⟩ := hval p hp; ⟨v, h⟩)
  refine ⟨reshape vals n n, ?_, by simp [reshape], ?_, ?_⟩
  · unfold image
    rw [hs]
    simp only [bind, Except.bind, hvals, pure, Except.pure]
  · intro row hrow
    simp only [reshape, List.mem_map] at hrow
    obtain ⟨r, -, rfl⟩ := hrow
    simp
  · intro r c hr hc
    have h1 := hi r c hr hc
    obtain ⟨v, hv1, hv2⟩ := hvi _ _ h1
    refine ⟨(List.range n).map (fun c => vals.getD (r * n + c) none), v, ?_, ?_, ?_⟩
    · simp [reshape, List.getElem?_range hr]
    · rw [List.getElem?_map, List.getElem?_range hc, Option.map_some, List.getD_eq_getElem?_getD, hv2, Option.getD_some]
    · obtain ⟨v', hv', hat⟩ := hval _ (List.mem_of_getElem? h1)
      rw [hv1] at hv'
      injection hv' with hv'
      subst hv'
      have e : Spec.pixelCentre (geoTransform m.bounds n n) r c =
          (m.bounds.longMin + (c + 1 / 2) * ((m.bounds.longMax - m.bounds.longMin) / n), m.bounds.latMax - (r + 1 / 2) * ((m.bounds.latMax - m.bounds.latMin) / n)) := by
        simp only [Spec.pixelCentre, geoTransform, List.getD_cons_zero, List.getD_cons_succ, Prod.mk.injEq]
        constructor <;> ring
      rw [e]
      exact hat

/-- Two cells side by side, the right one twice as wide. -/
def exTif : EnvMesh :=
  { bounds := ⟨0, 2, 0, 3, []⟩,
    cells := [⟨⟨0, 2, 0, 1, []⟩, [("SIC", .num (some 10))], 0⟩, ⟨⟨0, 2, 1, 3, []⟩, [("SIC", .num (some 20))], 1⟩],
    graph := ⟨[], false⟩, strNodes := true, strDirs := true,
    config := { region := ⟨0, 2, 0, 3, []⟩, cellWidth := 1, cellHeight := 2, splitDepth := none } }

/-- C43 is false in general: with one row of two columns, the centre of the left pixel is inside the left
cell, and its value is that of the right one.  The heights of the pixels are computed from the number of
columns and their widths from the number of rows. -/
theorem C43_false : image exTif "SIC" 1 2 = .ok [[some 20, some 20]] ∧
    ¬ Spec.MeshValueAt exTif "SIC" (Spec.pixelCentre (geoTransform exTif.bounds 1 2) 0 0).1 (Spec.pixelCentre (geoTransform exTif.bounds 1 2) 0 0).2 (some 20) := by
  refine ⟨by decide +kernel, ?_⟩
  have e : Spec.pixelCentre (geoTransform exTif.bounds 1 2) 0 0 = (3 / 4, 1) := by decide +kernel
  rw [e]
  rintro (⟨c, hc, ⟨⟨n, h1, h2⟩, -, -⟩, h4⟩ | ⟨-, h⟩)
  · simp only [exTif, List.mem_cons, List.not_mem_nil, or_false] at hc
    rcases hc with rfl | rfl
    · have := (h4 (some 20)).1 rfl
      revert this; decide
    · norm_num [eastEdge] at h1 h2
      have a : (0 : ℚ) < n := by linarith
      have b : (n : ℚ) < 1 := by linarith
      have a' : 0 < n := by exact_mod_cast a
      have b' : n < 1 := by exact_mod_cast b
      omega
  · cases h

/-- A pixel whose centre is on an edge between two cells has no value, although it is inside the mesh. -/
theorem C43_edge_false : ∃ m : EnvMesh, (∃ c ∈ m.cells, HCovers c.bounds 1 1 ∧ c.data.get? "SIC" = some (.num (some 10))) ∧
    Spec.pixelCentre (geoTransform m.bounds 1 1) 0 0 = (1, 1) ∧ image m "SIC" 1 1 = .ok [[none]] := by
  refine ⟨{ exTif with bounds := ⟨0, 2, 0, 2, []⟩, cells := [⟨⟨0, 2, 0, 1, []⟩, [("SIC", .num (some 10))], 0⟩, ⟨⟨0, 2, 1, 2, []⟩, [("SIC", .num (some 20))], 1⟩] },
    ⟨_, List.mem_cons_self .., ⟨⟨0, ?_, ?_⟩, ?_, ?_⟩, by decide⟩, by decide +kernel, by decide +kernel⟩ <;> norm_num [eastEdge]

example : (∀ c ∈ exTif.cells, Valid c.bounds) ∧ Valid exTif.bounds ∧ (∀ c ∈ exTif.cells, ∀ s, c.data.get? "SIC" ≠ some (.str s)) ∧
    image exTif "SIC" 2 2 = .ok [[some 10, some 20], [some 10, some 20]] := by
  refine ⟨?_, ?_, ?_, by decide +kernel⟩
  · intro c hc
    simp only [exTif, List.mem_cons, List.not_mem_nil, or_false] at hc
    rcases hc with rfl | rfl <;> norm_num [Valid]
  · norm_num [Valid, exTif]
  · intro c hc s
    simp only [exTif, List.mem_cons, List.not_mem_nil, or_false] at hc
    rcases hc with rfl | rfl <;> simp [Dict.get?]

end Verif
