import Verif.Props.Shifted
import Verif.Props.Sizes

/-!
# C128: other scales, and mirror images

A mesh does not depend on the scale of the coordinates, if the cells are scaled with them.  Nor does it on their direction, if no datapoint
lies on an edge of cells: these belong to the cell to the south and west of the edge.
-/

namespace Verif
open Spec

/-! ## Specification -/

/-- A latitude or longitude stretched by `s`, mirrored if that is negative, and moved by `d`. -/
def Spec.stretch (s d x : ℚ) : ℚ := s * x + d

/-- The image of a box, with the time range `T`. -/
def Spec.image (sy dy sx dx : ℚ) (T : List ℤ) (q : Boundary) : Boundary :=
  ⟨min (stretch sy dy q.latMin) (stretch sy dy q.latMax), max (stretch sy dy q.latMin) (stretch sy dy q.latMax),
   min (stretch sx dx q.longMin) (stretch sx dx q.longMax), max (stretch sx dx q.longMin) (stretch sx dx q.longMax), T⟩

/-- The datapoints `l'` are the images of the datapoints `l`, in any order and of any times. -/
def Spec.ImageRows {V : Type} (sy dy sx dx : ℚ) (l l' : List (Row V)) : Prop :=
  (l.map (fun r => (stretch sy dy r.lat, stretch sx dx r.long, r.val))).Perm (l'.map (fun r => (r.lat, r.long, r.val)))

/-- `x` is not on an edge of the cells of height or width `W` from `a` on, or of halves, quarters and so on of them. -/
def Spec.OffEdges (a W x : ℚ) : Prop := ∀ k n : ℕ, x ≠ a + k * (W / 2 ^ n)

/-- Where the directions are reversed, the datapoints are not on edges. -/
def Spec.ClearRows {V : Type} (sy sx : ℚ) (b : Boundary) (W H : ℚ) (l : List (Row V)) : Prop :=
  ∀ r ∈ l, (sy < 0 → OffEdges b.latMin H r.lat) ∧ (sx < 0 → OffEdges b.longMin W r.long)

/-- The source `s'` has the same parameters as `s`, and its datapoints in the region and time range of `b'` are the images of those of `s` in `b`.
Vectors are taken by their mean or number and split by distances from the mean. -/
inductive Spec.ImageSource (sy dy sx dx : ℚ) (b b' : Boundary) (W H : ℚ) : Source AnyData AnyCond → Source AnyData AnyCond → Prop
  | scalar {s s' : Source (Dataset (Option ℚ)) Cond} : s'.loader = s.loader → s'.conds = s.conds → s'.fill = s.fill →
      s'.subset.isGrid = s.subset.isGrid → ImageRows sy dy sx dx (rowsIn s.subset b) (rowsIn s'.subset b') →
      ClearRows sy sx b W H (rowsIn s.subset b) → ImageSource sy dy sx dx b b' W H (.ofScalar s) (.ofScalar s')
  | vector {s s' : Source (Dataset Vec) VectorHom.Conds} {id name agg minDp} :
      s.loader = vectorLoader id name agg (fun b c _ => VectorHom.hom minDp c b s.subset) →
      s'.loader = vectorLoader id name agg (fun b c _ => VectorHom.hom minDp c b s'.subset) → agg = .mean ∨ agg = .count →
      (∀ c ∈ s.conds, ∃ d, c = ⟨none, some d⟩) → s'.conds = s.conds → s'.fill = s.fill → s'.subset.isGrid = s.subset.isGrid →
      ImageRows sy dy sx dx (rowsIn s.subset b) (rowsIn s'.subset b') → ClearRows sy sx b W H (rowsIn s.subset b) →
      ImageSource sy dy sx dx b b' W H (.ofVector s) (.ofVector s')

/-! ## Intervals -/

section
variable {s d : ℚ}

theorem stretch_ends (hs : s ≠ 0) {l h : ℚ} (hlh : l < h) :
    min (stretch s d l) (stretch s d h) < max (stretch s d l) (stretch s d h) := by
  rcases lt_or_gt_of_ne hs with h0 | h0
  · have : stretch s d h < stretch s d l := by unfold stretch; nlinarith
    rw [min_eq_right this.le, max_eq_left this.le]; exact this
  · have : stretch s d l < stretch s d h := by unfold stretch; nlinarith
    rw [min_eq_left this.le, max_eq_right this.le]; exact this

theorem stretch_length (hs : s ≠ 0) {l h : ℚ} (hlh : l ≤ h) :
    max (stretch s d l) (stretch s d h) - min (stretch s d l) (stretch s d h) = |s| * (h - l) := by
  rcases lt_or_gt_of_ne hs with h0 | h0
  · have : stretch s d h ≤ stretch s d l := by unfold stretch; nlinarith
    rw [min_eq_right this, max_eq_left this, abs_of_neg h0]; unfold stretch; ring
  · have : stretch s d l ≤ stretch s d h := by unfold stretch; nlinarith
    rw [min_eq_left this, max_eq_right this, abs_of_pos h0]; unfold stretch; ring

/-- The halves of an interval. -/
def Half (a b l h : ℚ) : Prop := l = a ∧ h = (a + b) / 2 ∨ l = (a + b) / 2 ∧ h = b

/-- The pieces of length `W` of an interval that starts at `a`. -/
def Piece (a b W l h : ℚ) : Prop := ∃ i : ℕ, l = a + i * W ∧ h = a + i * W + W ∧ h ≤ b

theorem half_stretch (hs : s ≠ 0) {a b : ℚ} (hab : a < b) (l' h' : ℚ) :
    Half (min (stretch s d a) (stretch s d b)) (max (stretch s d a) (stretch s d b)) l' h' ↔
      ∃ l h, Half a b l h ∧ l' = min (stretch s d l) (stretch s d h) ∧ h' = max (stretch s d l) (stretch s d h) := by
  rcases lt_or_gt_of_ne hs with h0 | h0
  · have mono : ∀ {x y : ℚ}, x < y → stretch s d y ≤ stretch s d x := by intro x y h; unfold stretch; nlinarith
    rw [min_eq_right (mono hab), max_eq_left (mono hab)]
    have m1 := mono (show a < (a + b) / 2 by linarith)
    have m2 := mono (show (a + b) / 2 < b by linarith)
    have e : stretch s d ((a + b) / 2) = (stretch s d b + stretch s d a) / 2 := by unfold stretch; ring
    constructor
    · rintro (⟨rfl, rfl⟩ | ⟨rfl, rfl⟩)
      · exact ⟨_, _, Or.inr ⟨rfl, rfl⟩, by rw [min_eq_right m2], by rw [max_eq_left m2, e]⟩
      · exact ⟨_, _, Or.inl ⟨rfl, rfl⟩, by rw [min_eq_right m1, e], by rw [max_eq_left m1]⟩
    · rintro ⟨l, h, ⟨rfl, rfl⟩ | ⟨rfl, rfl⟩, rfl, rfl⟩
      · rw [min_eq_right m1, max_eq_left m1, e]; exact Or.inr ⟨rfl, rfl⟩
      · rw [min_eq_right m2, max_eq_left m2, e]; exact Or.inl ⟨rfl, rfl⟩
  · have mono : ∀ {x y : ℚ}, x < y → stretch s d x ≤ stretch s d y := by intro x y h; unfold stretch; nlinarith
    rw [min_eq_left (mono hab), max_eq_right (mono hab)]
    have m1 := mono (show a < (a + b) / 2 by linarith)
    have m2 := mono (show (a + b) / 2 < b by linarith)
    have e : stretch s d ((a + b) / 2) = (stretch s d a + stretch s d b) / 2 := by unfold stretch; ring
    constructor
    · rintro (⟨rfl, rfl⟩ | ⟨rfl, rfl⟩)
      · exact ⟨_, _, Or.inl ⟨rfl, rfl⟩, by rw [min_eq_left m1], by rw [max_eq_right m1, e]⟩
      · exact ⟨_, _, Or.inr ⟨rfl, rfl⟩, by rw [min_eq_left m2, e], by rw [max_eq_right m2]⟩
    · rintro ⟨l, h, ⟨rfl, rfl⟩ | ⟨rfl, rfl⟩, rfl, rfl⟩
      · rw [min_eq_left m1, max_eq_right m1, e]; exact Or.inl ⟨rfl, rfl⟩
      · rw [min_eq_left m2, max_eq_right m2, e]; exact Or.inr ⟨rfl, rfl⟩

theorem piece_stretch (hs : s ≠ 0) {a b W : ℚ} (hW : 0 < W) {n : ℕ} (hab : b = a + n * W) (l' h' : ℚ) :
    Piece (min (stretch s d a) (stretch s d b)) (max (stretch s d a) (stretch s d b)) (|s| * W) l' h' ↔
      ∃ l h, Piece a b W l h ∧ l' = min (stretch s d l) (stretch s d h) ∧ h' = max (stretch s d l) (stretch s d h) := by
  have hle : a ≤ b := by rw [hab]; have : 0 ≤ (n : ℚ) * W := by positivity
                         linarith
  have hW' : 0 < |s| * W := mul_pos (abs_pos.2 hs) hW
  rcases lt_or_gt_of_ne hs with h0 | h0
  · have mono : ∀ {x y : ℚ}, x ≤ y → stretch s d y ≤ stretch s d x := by intro x y h; unfold stretch; nlinarith
    rw [min_eq_right (mono hle), max_eq_left (mono hle)]
    have e : stretch s d a = stretch s d b + n * (|s| * W) := by rw [hab, abs_of_neg h0]; unfold stretch; ring
    have sub : ∀ i j : ℕ, i + j + 1 = n → stretch s d b + i * (|s| * W) = stretch s d (a + j * W + W) ∧
        stretch s d b + i * (|s| * W) + |s| * W = stretch s d (a + j * W) := by
      intro i j hij
      have : (n : ℚ) = i + j + 1 := by rw [← hij]; push_cast; ring
      rw [hab, abs_of_neg h0, this]; unfold stretch
      constructor <;> ring
    have m : ∀ j : ℕ, stretch s d (a + j * W + W) ≤ stretch s d (a + j * W) := fun j => mono (by linarith)
    constructor
    · rintro ⟨i, rfl, rfl, h⟩
      rw [e, step_le hW'] at h
      obtain ⟨j, hj⟩ : ∃ j, i + j + 1 = n := ⟨n - 1 - i, by omega⟩
      refine ⟨_, _, ⟨j, rfl, rfl, ?_⟩, ?_, ?_⟩
      · rw [hab, step_le hW]; omega
      · rw [min_eq_right (m j)]; exact (sub i j hj).1
      · rw [max_eq_left (m j)]; exact (sub i j hj).2
    · rintro ⟨l, h, ⟨j, rfl, rfl, hj⟩, rfl, rfl⟩
      rw [hab, step_le hW] at hj
      obtain ⟨i, hi⟩ : ∃ i, i + j + 1 = n := ⟨n - 1 - j, by omega⟩
      refine ⟨i, ?_, ?_, ?_⟩
      · rw [min_eq_right (m j)]; exact (sub i j hi).1.symm
      · rw [max_eq_left (m j)]; exact (sub i j hi).2.symm
      · rw [max_eq_left (m j)]
        apply mono
        have : 0 ≤ (j : ℚ) * W := by positivity
        linarith
  · have mono : ∀ {x y : ℚ}, x ≤ y → stretch s d x ≤ stretch s d y := by intro x y h; unfold stretch; nlinarith
    rw [min_eq_left (mono hle), max_eq_right (mono hle)]
    have sub : ∀ i : ℕ, stretch s d a + i * (|s| * W) = stretch s d (a + i * W) ∧
        stretch s d a + i * (|s| * W) + |s| * W = stretch s d (a + i * W + W) := by
      intro i
      rw [abs_of_pos h0]; unfold stretch
      constructor <;> ring
    have e : stretch s d b = stretch s d a + n * (|s| * W) := by rw [(sub n).1, hab]
    have m : ∀ j : ℕ, stretch s d (a + j * W) ≤ stretch s d (a + j * W + W) := fun j => mono (by linarith)
    constructor
    · rintro ⟨i, rfl, rfl, h⟩
      rw [e, step_le hW'] at h
      refine ⟨_, _, ⟨i, rfl, rfl, ?_⟩, ?_, ?_⟩
      · rw [hab, step_le hW]; exact h
      · rw [min_eq_left (m i)]; exact (sub i).1
      · rw [max_eq_right (m i)]; exact (sub i).2
    · rintro ⟨l, h, ⟨j, rfl, rfl, hj⟩, rfl, rfl⟩
      refine ⟨j, ?_, ?_, ?_⟩
      · rw [min_eq_left (m j)]; exact (sub j).1.symm
      · rw [max_eq_right (m j)]; exact (sub j).2.symm
      · rw [max_eq_right (m j)]
        exact mono hj

/-- Of what lies off the edges, what is in an interval is mapped into its image. -/
theorem stretch_mem (hs : s ≠ 0) {l h x : ℚ} (hlh : l < h) (hx : s < 0 → x ≠ l ∧ x ≠ h) :
    (l < x ∧ x ≤ h) ↔ min (stretch s d l) (stretch s d h) < stretch s d x ∧ stretch s d x ≤ max (stretch s d l) (stretch s d h) := by
  rcases lt_or_gt_of_ne hs with h0 | h0
  · have : stretch s d h ≤ stretch s d l := by unfold stretch; nlinarith
    rw [min_eq_right this, max_eq_left this]
    obtain ⟨n1, n2⟩ := hx h0
    unfold stretch
    constructor
    · rintro ⟨h1, h2⟩
      have := lt_of_le_of_ne h2 n2
      exact ⟨by nlinarith, by nlinarith⟩
    · rintro ⟨h1, h2⟩
      have i1 : x < h := by by_contra hc; rw [not_lt] at hc; nlinarith
      have i2 : l ≤ x := by by_contra hc; rw [not_le] at hc; nlinarith
      exact ⟨lt_of_le_of_ne i2 (Ne.symm n1), i1.le⟩
  · have : stretch s d l ≤ stretch s d h := by unfold stretch; nlinarith
    rw [min_eq_left this, max_eq_right this]
    unfold stretch
    constructor
    · rintro ⟨h1, h2⟩
      exact ⟨by nlinarith, by nlinarith⟩
    · rintro ⟨h1, h2⟩
      exact ⟨by by_contra hc; rw [not_lt] at hc; nlinarith, by by_contra hc; rw [not_le] at hc; nlinarith⟩

end

/-! ## Boxes -/

theorem mem_quarters_iff (q p : Boundary) :
    p ∈ quarters q ↔ Half q.latMin q.latMax p.latMin p.latMax ∧ Half q.longMin q.longMax p.longMin p.longMax ∧ p.time = q.time := by
  obtain ⟨y, y', x, x', t⟩ := p
  simp only [quarters, List.mem_cons, List.not_mem_nil, or_false, Boundary.mk.injEq, Half]
  tauto

theorem gridBox_pieces (b q : Boundary) (W H : ℚ) :
    GridBox b W H q ↔ Piece b.latMin b.latMax H q.latMin q.latMax ∧ Piece b.longMin b.longMax W q.longMin q.longMax ∧ q.time = b.time := by
  obtain ⟨y, y', x, x', t⟩ := q
  constructor
  · rintro ⟨i, j, e, h1, h2⟩
    simp only [Boundary.mk.injEq] at e
    obtain ⟨rfl, rfl, rfl, rfl, rfl⟩ := e
    exact ⟨⟨j, rfl, rfl, h1⟩, ⟨i, rfl, rfl, h2⟩, rfl⟩
  · rintro ⟨⟨j, e1, e2, h1⟩, ⟨i, e3, e4, h2⟩, e5⟩
    refine ⟨i, j, ?_, h1, h2⟩
    simp only at e1 e2 e3 e4 e5
    rw [e2, e4, e1, e3, e5]

theorem quarters_image {sy dy sx dx : ℚ} (hy : sy ≠ 0) (hx : sx ≠ 0) (T : List ℤ) {q : Boundary} (h1 : q.latMin < q.latMax) (h2 : q.longMin < q.longMax)
    (p' : Boundary) : p' ∈ quarters (image sy dy sx dx T q) ↔ ∃ p ∈ quarters q, p' = image sy dy sx dx T p := by
  rw [mem_quarters_iff]
  simp only [image]
  rw [half_stretch hy h1, half_stretch hx h2]
  constructor
  · rintro ⟨⟨l, h, k1, e1, e2⟩, ⟨l', h', k2, e3, e4⟩, e5⟩
    refine ⟨⟨l, h, l', h', q.time⟩, (mem_quarters_iff _ _).2 ⟨k1, k2, rfl⟩, ?_⟩
    obtain ⟨y, y', x, x', t⟩ := p'
    simp only at e1 e2 e3 e4 e5
    rw [e1, e2, e3, e4, e5]
  · rintro ⟨p, hp, rfl⟩
    obtain ⟨k1, k2, -⟩ := (mem_quarters_iff _ _).1 hp
    exact ⟨⟨_, _, k1, rfl, rfl⟩, ⟨_, _, k2, rfl, rfl⟩, rfl⟩

theorem gridBox_image {sy dy sx dx : ℚ} (hy : sy ≠ 0) (hx : sx ≠ 0) (T : List ℤ) {b : Boundary} {W H : ℚ} (hW : 0 < W) (hH : 0 < H)
    (hb : WholeCells b W H) (q' : Boundary) :
    GridBox (image sy dy sx dx T b) (|sx| * W) (|sy| * H) q' ↔ ∃ q, GridBox b W H q ∧ q' = image sy dy sx dx T q := by
  obtain ⟨nx, ny, e1, e2⟩ := hb
  rw [gridBox_pieces]
  simp only [image]
  rw [piece_stretch hy hH e2, piece_stretch hx hW e1]
  constructor
  · rintro ⟨⟨l, h, k1, e1, e2⟩, ⟨l', h', k2, e3, e4⟩, e5⟩
    refine ⟨⟨l, h, l', h', b.time⟩, (gridBox_pieces _ _ _ _).2 ⟨k1, k2, rfl⟩, ?_⟩
    obtain ⟨y, y', x, x', t⟩ := q'
    simp only at e1 e2 e3 e4 e5
    rw [e1, e2, e3, e4, e5]
  · rintro ⟨p, hp, rfl⟩
    obtain ⟨k1, k2, -⟩ := (gridBox_pieces _ _ _ _).1 hp
    exact ⟨⟨_, _, k1, rfl, rfl⟩, ⟨_, _, k2, rfl, rfl⟩, rfl⟩

/-- The edges are among those of the cells, of halves of them and so on. -/
def OnEdges (a W x : ℚ) : Prop := ∃ k n : ℕ, x = a + k * (W / 2 ^ n)

theorem onEdges_half {a W l h l' h' : ℚ} (h1 : OnEdges a W l) (h2 : OnEdges a W h) (hh : Half l h l' h') : OnEdges a W l' ∧ OnEdges a W h' := by
  have mid : OnEdges a W ((l + h) / 2) := by
    obtain ⟨k, n, rfl⟩ := h1
    obtain ⟨k', n', rfl⟩ := h2
    refine ⟨k * 2 ^ n' + k' * 2 ^ n, n + n' + 1, ?_⟩
    push_cast
    rw [pow_succ, pow_add]
    field_simp
    ring
  rcases hh with ⟨rfl, rfl⟩ | ⟨rfl, rfl⟩
  · exact ⟨h1, mid⟩
  · exact ⟨mid, h2⟩

/-- A box in the region whose edges are edges of cells, of halves of them and so on. -/
def InnerEdges (b : Boundary) (W H : ℚ) (q : Boundary) : Prop :=
  Inner b q ∧ (OnEdges b.latMin H q.latMin ∧ OnEdges b.latMin H q.latMax) ∧ OnEdges b.longMin W q.longMin ∧ OnEdges b.longMin W q.longMax

theorem innerEdges_start {b : Boundary} {W H : ℚ} (hp : ProperGrid b W H) (hcr : b.longMin < b.longMax) {q : Boundary} (h : GridBox b W H q) :
    InnerEdges b W H q := by
  refine ⟨gridBox_proper hp hcr h, ?_⟩
  obtain ⟨i, j, rfl, -, -⟩ := h
  refine ⟨⟨⟨j, 0, by simp⟩, ⟨j + 1, 0, by simp; ring⟩⟩, ⟨i, 0, by simp⟩, ⟨i + 1, 0, by simp; ring⟩⟩

theorem innerEdges_quarter {b : Boundary} {W H : ℚ} {p q : Boundary} (h : InnerEdges b W H p) (hq : q ∈ quarters p) : InnerEdges b W H q := by
  obtain ⟨h0, ⟨h1, h2⟩, h3, h4⟩ := h
  obtain ⟨k1, k2, -⟩ := (mem_quarters_iff _ _).1 hq
  exact ⟨(inner_quarter h0 hq).trans h0, onEdges_half h1 h2 k1, onEdges_half h3 h4 k2⟩

theorem lineage_edges {b : Boundary} {W H : ℚ} (hp : ProperGrid b W H) (hcr : b.longMin < b.longMax) {l : List Boundary}
    (h : LineageBy quarters (GridBox b W H) l) : ∀ q ∈ l, InnerEdges b W H q := by
  induction h with
  | root hq => intro q hm; rw [List.mem_singleton] at hm; subst hm; exact innerEdges_start hp hcr hq
  | @quarter q p t _ hq ih =>
    intro r hr
    rcases List.mem_cons.1 hr with rfl | hr
    · exact innerEdges_quarter (ih p (by simp)) hq
    · exact ih r hr

theorem builtFrom_edges {S C : Type} {b : Boundary} {W H : ℚ} {depth : ℕ} {full : List (Source S C)} {value : Source S C → Boundary → String → Option ℚ}
    {cells : List AggCell} (hp : ProperGrid b W H) (hcr : b.longMin < b.longMax) (h : BuiltFrom (Inner b) (GridBox b W H) quarters depth full value cells) :
    BuiltFrom (InnerEdges b W H) (GridBox b W H) quarters depth full value cells := by
  refine ⟨fun s hs => ?_, h.boxes, fun c hc => ?_⟩
  · have := h.valued s hs
    exact ⟨this.names, this.keys, fun q hq => this.gives q hq.1, this.fills⟩
  · obtain ⟨anc, -, h2, h3⟩ := h.data c hc
    exact ⟨anc, lineage_edges hp hcr h2, h2, h3⟩

/-! ## Datapoints and sources -/

theorem rows_image {V : Type} {f g : ℚ → ℚ} {l l' m m' : List (Row V)} (P P' : ℚ × ℚ × V → Bool)
    (hl : (l.map (fun r => (f r.lat, g r.long, r.val))).Perm (l'.map (fun r => (r.lat, r.long, r.val))))
    (hm : m = l.filter (fun r => P (r.lat, r.long, r.val))) (hm' : m' = l'.filter (fun r => P' (r.lat, r.long, r.val)))
    (hP : ∀ r ∈ l, P (r.lat, r.long, r.val) = P' (f r.lat, g r.long, r.val)) : (m.map Row.val).Perm (m'.map Row.val) := by
  have h := (hl.filter P').map (fun r => r.2.2)
  rw [List.filter_map, List.map_map, List.filter_map, List.map_map] at h
  subst hm hm'
  refine List.Perm.trans (.of_eq ?_) h
  rw [List.filter_congr (q := P' ∘ fun r => (f r.lat, g r.long, r.val)) (fun r hr => by
    simp only [Function.comp_apply]; exact hP r hr)]
  rfl

theorem rowsIn_image {V : Type} {sy dy sx dx : ℚ} (hy : sy ≠ 0) (hx : sx ≠ 0) {b b' q : Boundary} {T : List ℤ} {W H : ℚ} (hb : ProperBox b)
    (hc : b.longMin < b.longMax) (hq : InnerEdges b W H q) (hb' : ProperBox b') (hc' : b'.longMin < b'.longMax)
    (hq' : Inner b' (image sy dy sx dx T q)) {d d' : Dataset V} (h : ImageRows sy dy sx dx (rowsIn d b) (rowsIn d' b'))
    (ho : ClearRows sy sx b W H (rowsIn d b)) : ((rowsIn d q).map Row.val).Perm ((rowsIn d' (image sy dy sx dx T q)).map Row.val) := by
  obtain ⟨hi, ⟨o1, o2⟩, o3, o4⟩ := hq
  refine rows_image (fun r => decide (q.latMin < r.1 ∧ r.1 ≤ q.latMax ∧ q.longMin < r.2.1 ∧ r.2.1 ≤ q.longMax))
    (fun r => decide ((image sy dy sx dx T q).latMin < r.1 ∧ r.1 ≤ (image sy dy sx dx T q).latMax ∧ (image sy dy sx dx T q).longMin < r.2.1 ∧
      r.2.1 ≤ (image sy dy sx dx T q).longMax)) h (rowsIn_region hb hc hi d) (rowsIn_region hb' hc' hq' d') ?_
  intro r hr
  obtain ⟨c1, c2⟩ := ho r hr
  have off : ∀ {a W x e : ℚ}, OffEdges a W x → OnEdges a W e → x ≠ e := by
    rintro a W x e h ⟨k, n, rfl⟩; exact h k n
  have i1 := stretch_mem (d := dy) hy (x := r.lat) hi.1.2.2 (fun h0 => ⟨off (c1 h0) o1, off (c1 h0) o2⟩)
  have i2 := stretch_mem (d := dx) hx (x := r.long) hi.2.1 (fun h0 => ⟨off (c2 h0) o3, off (c2 h0) o4⟩)
  rw [decide_eq_decide]
  simp only [image]
  rw [← and_assoc, i1, i2, and_assoc]

theorem image_twin {sy dy sx dx : ℚ} (hy : sy ≠ 0) (hx : sx ≠ 0) {T : List ℤ} {b b' q : Boundary} {W H : ℚ} (hb : ProperBox b)
    (hc : b.longMin < b.longMax) (hq : InnerEdges b W H q) (hb' : ProperBox b') (hc' : b'.longMin < b'.longMax)
    (hq' : Inner b' (image sy dy sx dx T q)) {s s' : Source AnyData AnyCond} (h : PlainAny b s)
    (h' : PlainAny b' s') (hs : ImageSource sy dy sx dx b b' W H s s') : TwinAt q (image sy dy sx dx T q) s s' := by
  cases hs with
  | @scalar s s' e1 e2 e3 hg hd ho =>
    have h := h.ofScalar
    have h' := h'.ofScalar
    obtain ⟨id, name, agg, minDp, e, -, -⟩ := h.loader
    have e' : s'.loader = scalarLoader id name agg minDp := by rw [e1, e]
    have hp := rowsIn_image hy hx hb hc hq hb' hc' hq' hd ho
    unfold Source.ofScalar
    refine twinAt_wrap ?_ ?_ (.of_alike (by rw [e1]) ⟨by rw [e1], e3, e2, ?_, ?_⟩); · intro _; rfl
    · intro _; rfl
    · rw [plain_scalar_get e h hq.1, plain_scalar_get e' h' hq', hg, C29_order _ agg hp]
    · intro c hcm
      unfold ownVerdict
      rw [(scalar_faithful h e).decides q hq.1 c hcm, (scalar_faithful h' e').decides _ hq' c (by rw [e2]; exact hcm)]
      simp only
      exact (C27_order minDp c hp).symm
  | @vector s s' id name agg minDp e e' hagg hdec hcs hf hg hd ho =>
    unfold Source.ofVector
    refine twinAt_wrap ?_ ?_ ?_; · intro _; rfl
    · intro _; rfl
    exact vector_twin hq.1 hq' h.ofVector h'.ofVector e e' hagg hdec hcs hf hg (rowsIn_image hy hx hb hc hq hb' hc' hq' hd ho)

theorem imageSource_id {sy dy sx dx : ℚ} {b b' : Boundary} {W H : ℚ} {s s' : Source AnyData AnyCond}
    (h : ImageSource sy dy sx dx b b' W H s s') : s'.loader.id = s.loader.id := by
  cases h with
  | scalar e1 => simp only [Source.ofScalar, Source.wrap, e1]
  | vector e e1 => simp only [Source.ofVector, Source.wrap, e, e1, vectorLoader]

/-! ## C128 -/

/-- **C128**: take a region that does not cross the antimeridian and its image, stretched by the factors `sy` and `sx` and moved, with any time range;
mirrored where these are negative.  The cells are scaled with it.  For each there are scalar and vector sources of the same parameters, such that the
datapoints in the second region and time range are the images of those in the first, and none of these are on edges where directions are reversed.  Both
meshes are built without raising, the cells of one are the images of those of the other, and they have the same values. -/
theorem C128_image {b : Boundary} {sy dy sx dx : ℚ} (hy : sy ≠ 0) (hx : sx ≠ 0) {T : List ℤ} {W H : ℚ} {full full' : List (Source AnyData AnyCond)}
    (hfull : List.Forall₂ (ImageSource sy dy sx dx b (image sy dy sx dx T b) W H) full full') (hf : ∀ s ∈ full, PlainAny b s)
    (hf' : ∀ s ∈ full', PlainAny (image sy dy sx dx T b) s) (hid : (full.map (fun s => s.loader.id)).Nodup) (config config' : MeshConfig)
    (hp : ProperGrid b W H) (hv' : Valid (image sy dy sx dx T b)) (hcr : b.longMin < b.longMax) (hh : b.latMin < b.latMax)
    (hcol : b.longMin = -180 ∧ b.longMax = 180 → W ≤ 180)
    (hcol' : (image sy dy sx dx T b).longMin = -180 ∧ (image sy dy sx dx T b).longMax = 180 → |sx| * W ≤ 180)
    (hacc : MeshBuilder.validateBounds b W H = .ok ()) (depth : ℕ) :
    ∃ m0 m0', MeshBuilder.init b W H (fun q => trimSources q full) depth = .ok m0 ∧
      MeshBuilder.init (image sy dy sx dx T b) (|sx| * W) (|sy| * H) (fun q => trimSources q full') depth = .ok m0' ∧ ∃ N em em',
      (∀ fuel, N ≤ fuel → MeshBuilder.buildEnvironmentalMesh (sourceOps AnyData AnyCond) aggregate fuel config m0 = .ok em ∧
        MeshBuilder.buildEnvironmentalMesh (sourceOps AnyData AnyCond) aggregate fuel config' m0' = .ok em') ∧
      (∀ q', (∃ c' ∈ em'.cells, c'.bounds = q') ↔ ∃ c ∈ em.cells, q' = image sy dy sx dx T c.bounds) ∧
      ∀ c ∈ em.cells, ∀ c' ∈ em'.cells, c'.bounds = image sy dy sx dx T c.bounds → ∀ n, c'.data.get? n = c.data.get? n := by
  obtain ⟨zs, rfl, rfl, hzs⟩ := forall₂_zip hfull
  have hid' : ((zs.map Prod.snd).map (fun s => s.loader.id)).Nodup := by
    have : (zs.map Prod.snd).map (fun s => s.loader.id) = (zs.map Prod.fst).map (fun s => s.loader.id) := by
      rw [List.map_map, List.map_map]
      exact List.map_congr_left (fun z hz => imageSource_id (hzs z hz))
    rw [this]; exact hid
  have hcr' : (image sy dy sx dx T b).longMin < (image sy dy sx dx T b).longMax := stretch_ends hx hcr
  have hh' : (image sy dy sx dx T b).latMin < (image sy dy sx dx T b).latMax := stretch_ends hy hh
  obtain ⟨nx, ny, -, e1, e2⟩ := hp.fits hacc
  have hw : b.width = b.longMax - b.longMin := if_pos hcr
  have hw' : (image sy dy sx dx T b).width = nx * (|sx| * W) := by
    have : (image sy dy sx dx T b).width = (image sy dy sx dx T b).longMax - (image sy dy sx dx T b).longMin := if_pos hcr'
    rw [this]
    show max _ _ - min _ _ = _
    rw [stretch_length hx hcr.le, ← hw, e1]; ring
  have hht' : (image sy dy sx dx T b).height = ny * (|sy| * H) := by
    unfold Boundary.height at e2 ⊢
    show max _ _ - min _ _ = _
    rw [stretch_length hy hh.le, e2]; ring
  have hwhole : WholeCells b W H := by
    unfold Boundary.height at e2
    exact ⟨nx, ny, by linarith, by linarith⟩
  have hW' : 0 < |sx| * W := mul_pos (abs_pos.2 hx) hp.wpos
  have hH' : 0 < |sy| * H := mul_pos (abs_pos.2 hy) hp.hpos
  have hnd' : ¬ ((image sy dy sx dx T b).longMin = 180 ∧ (image sy dy sx dx T b).longMax = -180) := by
    rintro ⟨a1, a2⟩; rw [a1, a2] at hcr'; norm_num at hcr'
  have hp' : ProperGrid (image sy dy sx dx T b) (|sx| * W) (|sy| * H) := ⟨hv', hnd', hW', hH', fun _ => ⟨_, hw'⟩⟩
  have hpos := (C04_geometry_partial _ hv' hnd').1
  have hacc' := validateBounds_ok hW' hH' hw' hht' hpos.1 hpos.2
  obtain ⟨m0, h0, N, em, value, hb, hB⟩ := plain_from hf hid config hp hcr hh hcol hacc depth
  obtain ⟨m0', h0', N', em', value', hb', hB'⟩ := plain_from hf' hid' config' hp' hcr' hh' hcol' hacc' depth
  refine ⟨m0, m0', h0, h0', max N N', em, em', fun fuel hfuel => ⟨hb fuel (by omega), hb' fuel (by omega)⟩, ?_⟩
  have hS' := inner_system hp' hcr' hacc'
  have pb := (inner_self hp hcr hh).1
  have pb' := (inner_self hp' hcr' hh').1
  exact moved_cells (builtFrom_edges hp hcr hB) hB' (fun q => innerEdges_start hp hcr) (fun p q => innerEdges_quarter) hS'.first
    (fun p q a1 a2 => (hS'.within p q a1 a2).1) (fun q t t' => lineage_unique hW' hH')
    (fun q hq => (gridBox_image hy hx T hp.wpos hp.hpos hwhole _).2 ⟨q, hq, rfl⟩) (fun q' hq' => (gridBox_image hy hx T hp.wpos hp.hpos hwhole _).1 hq')
    (fun q hq p' => quarters_image hy hx T hq.1.1.2.2 hq.1.2.1 p')
    (fun q hq hq' z hz => image_twin hy hx pb hcr hq pb' hcr' hq' (hf _ (List.mem_map_of_mem hz)) (hf' _ (List.mem_map_of_mem hz)) (hzs z hz))

/-- The datapoints of `exUpdated` mirrored at the equator and half as far from it, and twice as far apart in longitude, between times 10 and 20, besides
others later or outside. -/
def exImage : List (Source AnyData AnyCond) :=
  [.ofScalar ⟨scalarLoader 1 "a" .mean 1, [⟨3, 0, 1, false⟩], .parent,
    .table ⟨true, [⟨28, 13, 25, some 8⟩, ⟨26, 34, 12, some 7⟩, ⟨31, 12, 15, some 1⟩, ⟨59 / 2, 12, 20, some 5⟩]⟩⟩,
   .ofVector (vectorSource 2 "u,v" .mean 1 [{ dmag := some ⟨1, 0, 1, false⟩ }] .parent
    (.table ⟨true, [⟨51 / 2, 36, 10, (some 4, none)⟩, ⟨26, 34, 5, (some 6, some 6)⟩, ⟨26, 34, 11, (some 1, some 2)⟩]⟩))]

theorem exImage_plain : ∀ s ∈ exImage, PlainAny (image (-1 / 2) 0 2 10 [10, 20] exRegion) s := by
  intro s hs
  simp only [exImage, List.mem_cons, List.not_mem_nil, or_false] at hs
  rcases hs with rfl | rfl
  · exact .scalar ⟨⟨_, _, _, _, rfl, by decide, by simp⟩, Or.inl rfl, trivial, _, rfl⟩
  · refine .vector ⟨⟨_, _, _, _, "u", "v", rfl, by decide +kernel, by decide, by simp, le_rfl⟩, rfl, trivial, ⟨_, rfl⟩, ?_⟩
    intro c hc
    simp only [vectorSource, List.mem_singleton] at hc
    subst hc
    simp [vectorSource]

/-- A whole number of degrees that is no multiple of five is on no edge of cells of five degrees. -/
theorem offEdges_five {a : ℚ} {m : ℕ} (hm : ¬ 5 ∣ m) : OffEdges a 5 (a + m) := by
  intro k n h
  have h1 : (m : ℚ) = k * (5 / 2 ^ n) := by linarith
  have h2 : (m : ℚ) * 2 ^ n = 5 * k := by rw [h1]; field_simp
  have h3 : m * 2 ^ n = 5 * k := by exact_mod_cast h2
  have h4 : 5 ∣ m * 2 ^ n := ⟨k, h3⟩
  exact hm (Nat.Coprime.dvd_of_dvd_mul_right (Nat.Coprime.pow_right n (by decide)) h4)

/-- The hypotheses of C128 hold: a region of the south, and its mirror image in the north at half the scale from north to south, twice from west to east. -/
example : ∃ m0 m0', MeshBuilder.init exRegion 10 5 (fun q => trimSources q (exUpdated [⟨-59, 1, 0, some 5⟩, ⟨-52, 12, 0, some 7⟩])) 1 = .ok m0 ∧
    MeshBuilder.init (image (-1 / 2) 0 2 10 [10, 20] exRegion) (|2| * 10) (|-1 / 2| * 5) (fun q => trimSources q exImage) 1 = .ok m0' ∧ ∃ N em em',
    (∀ fuel, N ≤ fuel → MeshBuilder.buildEnvironmentalMesh (sourceOps AnyData AnyCond) aggregate fuel exConfig m0 = .ok em ∧
      MeshBuilder.buildEnvironmentalMesh (sourceOps AnyData AnyCond) aggregate fuel exConfig m0' = .ok em') ∧
    (∀ q', (∃ c' ∈ em'.cells, c'.bounds = q') ↔ ∃ c ∈ em.cells, q' = image (-1 / 2) 0 2 10 [10, 20] c.bounds) ∧
    ∀ c ∈ em.cells, ∀ c' ∈ em'.cells, c'.bounds = image (-1 / 2) 0 2 10 [10, 20] c.bounds → ∀ n, c'.data.get? n = c.data.get? n := by
  have e1 : (-59 : ℚ) = exRegion.latMin + (1 : ℕ) := by norm_num [exRegion]
  have e2 : (-52 : ℚ) = exRegion.latMin + (8 : ℕ) := by norm_num [exRegion]
  have e3 : (-51 : ℚ) = exRegion.latMin + (9 : ℕ) := by norm_num [exRegion]
  have eR : image (-1 / 2) 0 2 10 [10, 20] exRegion = ⟨25, 30, 10, 50, [10, 20]⟩ := by decide +kernel
  refine C128_image (full := exUpdated _) (full' := exImage) (by norm_num) (by norm_num)
    (.cons (.scalar rfl rfl rfl rfl ?_ ?_) (.cons (.vector rfl rfl (Or.inl rfl) ?_ rfl rfl rfl ?_ ?_) .nil)) (exUpdated_plain _ _) exImage_plain
    (exUpdated_ids _) exConfig exConfig exRegion_proper ?_ (by norm_num [exRegion]) (by norm_num [exRegion]) (by norm_num [exRegion]) ?_
    (by decide +kernel) 1
  · unfold ImageRows; decide +kernel
  · intro r hr
    refine ⟨fun _ => ?_, fun h => absurd h (by norm_num)⟩
    have : r.lat = -59 ∨ r.lat = -52 := by
      have := (List.mem_filter.1 hr).1
      simp only [Dataset.rows, List.mem_cons, List.not_mem_nil, or_false] at this
      rcases this with rfl | rfl
      · exact Or.inl rfl
      · exact Or.inr rfl
    rcases this with h | h
    · rw [h, e1]; exact offEdges_five (by norm_num)
    · rw [h, e2]; exact offEdges_five (by norm_num)
  · intro c hc
    simp only [vectorSource, List.mem_singleton] at hc
    exact ⟨_, hc⟩
  · unfold ImageRows; decide +kernel
  · intro r hr
    refine ⟨fun _ => ?_, fun h => absurd h (by norm_num)⟩
    have : r.lat = -52 ∨ r.lat = -51 := by
      have := (List.mem_filter.1 hr).1
      simp only [vectorSource, Dataset.rows, List.mem_cons, List.not_mem_nil, or_false] at this
      rcases this with rfl | rfl
      · exact Or.inl rfl
      · exact Or.inr rfl
    rcases this with h | h
    · rw [h, e2]; exact offEdges_five (by norm_num)
    · rw [h, e3]; exact offEdges_five (by norm_num)
  · rw [eR]; norm_num [Valid]; exact Or.inr ⟨10, 20, ⟨rfl, rfl⟩, by norm_num⟩
  · rw [eR]; norm_num

/-- The boxes and values of `"a"` of the mesh of a scalar source. -/
def exValuesOf (b : Boundary) (W H : ℚ) (d : Table (Option ℚ)) : Py (List (Boundary × Option Val)) := do
  let m ← MeshBuilder.init b W H (fun q => trimSources q [.ofScalar ⟨scalarLoader 1 "a" .mean 1, [], .parent, .table d⟩]) 0
  let em ← MeshBuilder.buildEnvironmentalMesh (sourceOps AnyData AnyCond) aggregate 10 exConfig m
  return em.cells.map (fun c => (c.bounds, c.data.get? "a"))

/-- The directions matter for datapoints on edges: the datapoint at 55 degrees south is between two cells and belongs to the southern one; so does its mirror image
at 55 degrees north, although that is not the mirror image of the former cell. -/
theorem C128_edges_false :
    exValuesOf exRegion 20 5 ⟨false, [⟨-55, 3, 0, some 7⟩]⟩ =
      .ok [(⟨-60, -55, 0, 20, []⟩, some (.num (some 7))), (⟨-55, -50, 0, 20, []⟩, some (.num none))] ∧
    exValuesOf (image (-1) 0 1 0 [] exRegion) 20 5 ⟨false, [⟨55, 3, 0, some 7⟩]⟩ =
      .ok [(⟨50, 55, 0, 20, []⟩, some (.num (some 7))), (⟨55, 60, 0, 20, []⟩, some (.num none))] := by
  decide +kernel

end Verif
