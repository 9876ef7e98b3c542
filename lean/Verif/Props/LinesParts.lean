import Verif.Props.Lines
import Verif.Props.BuildCrossing
import Verif.Props.BuildValues
import Verif.Props.Connected

/-!
# Sides and straight lines over the antimeridian (C132, C136)

Links are lost there, so the sides of cells are lined, and lines lead from neighbour to neighbour, within either part of the region only.
-/

namespace Verif.Spec
open Verif

variable {D : Type}

/-- The bounds of the live cell at position `i`. -/
def liveBox (m : MeshState D) (i : ℕ) : Option Boundary :=
  match m.cells[i]? with
  | some (some c) => some c.bounds
  | _ => none

/-- The bounds of the cell with id `i`. -/
def envBox (m : EnvMesh) (i : ℕ) : Option Boundary := (m.cells.find? (fun c => c.id = i)).map (fun c => c.bounds)

/-- The cells that start west of the antimeridian or on it, unrolled to the east. -/
def westCells (b : Boundary) (box : ℕ → Option Boundary) (i : ℕ) : Option Rect :=
  match box i with
  | some q => if b.longMin ≤ q.longMin then some (arcOf q) else none
  | none => none

/-- The cells east of the antimeridian that start at `x` (counted on from 180) or further east, unrolled. -/
def eastCells (b : Boundary) (x : ℚ) (box : ℕ → Option Boundary) (i : ℕ) : Option Rect :=
  match box i with
  | some q => if x - 360 ≤ q.longMin ∧ q.longMin < b.longMin then some ((arcOf q).shift 360) else none
  | none => none

/-- Lines lead from neighbour to neighbour from the west up to the antimeridian, and within the columns that start east of it. -/
def LinesLeadParts (b : Boundary) (W : ℚ) (box : ℕ → Option Boundary) (nbrs : ℕ → Option NMap) : Prop :=
  LinesLead ⟨b.longMin, 180, b.latMin, b.latMax⟩ (westCells b box) nbrs ∧
  ∀ n : ℕ, 180 < b.longMin + n * W → b.longMin + n * W < eastEdge b →
    LinesLead ⟨b.longMin + n * W, eastEdge b, b.latMin, b.latMax⟩ (eastCells b (b.longMin + n * W) box) nbrs

/-- Within the rectangle `R`, beside every point of a side of one of the cells exactly one of the cells lies that are listed for that side, unless the
side is on the border of `R`.  (A cell may reach over the eastern border.) -/
structure PartLined (R : Rect) (cell : ℕ → Option Rect) (nbrs : ℕ → Option NMap) : Prop where
  inside : ∀ i a, cell i = some a → R.w ≤ a.w ∧ a.w ≤ R.e ∧ R.s ≤ a.s ∧ a.n ≤ R.n
  east : ∀ i a f, cell i = some a → nbrs i = some f → a.e < R.e →
    ∀ y, a.s < y → y ≤ a.n → ∃! j, j ∈ f .east ∧ ∃ r, cell j = some r ∧ r.s < y ∧ y ≤ r.n
  west : ∀ i a f, cell i = some a → nbrs i = some f → R.w < a.w →
    ∀ y, a.s < y → y ≤ a.n → ∃! j, j ∈ f .west ∧ ∃ r, cell j = some r ∧ r.s < y ∧ y ≤ r.n
  north : ∀ i a f, cell i = some a → nbrs i = some f → a.n < R.n →
    ∀ x, a.w < x → x ≤ a.e → x ≤ R.e → ∃! j, j ∈ f .north ∧ ∃ r, cell j = some r ∧ r.w < x ∧ x ≤ r.e
  south : ∀ i a f, cell i = some a → nbrs i = some f → R.s < a.s →
    ∀ x, a.w < x → x ≤ a.e → x ≤ R.e → ∃! j, j ∈ f .south ∧ ∃ r, cell j = some r ∧ r.w < x ∧ x ≤ r.e

/-- Sides are lined from the west up to the antimeridian, and within the columns that start east of it. -/
def SidesLinedParts (b : Boundary) (W : ℚ) (box : ℕ → Option Boundary) (nbrs : ℕ → Option NMap) : Prop :=
  PartLined ⟨b.longMin, 180, b.latMin, b.latMax⟩ (westCells b box) nbrs ∧
  ∀ n : ℕ, 180 < b.longMin + n * W → b.longMin + n * W < eastEdge b →
    PartLined ⟨b.longMin + n * W, eastEdge b, b.latMin, b.latMax⟩ (eastCells b (b.longMin + n * W) box) nbrs

end Verif.Spec

namespace Verif
open Spec

variable {D : Type}

theorem liveBox_iff {m : MeshState D} {i : ℕ} {q : Boundary} : liveBox m i = some q ↔ ∃ c, Live m i c ∧ c.bounds = q := by
  unfold liveBox Live
  constructor
  · intro h
    split at h
    · rename_i c hc
      cases h
      exact ⟨c, hc, rfl⟩
    · cases h
  · rintro ⟨c, hc, rfl⟩
    rw [hc]

/-- The cells `cell` are those of the cells `U` that have the property `G`; they cover `R`, start in it, and list each other where they touch. -/
structure SheetPart (U : ℕ → Option Rect) (nbrs : ℕ → Option NMap) (cell : ℕ → Option Rect) (R : Rect) (G : Rect → Prop) : Prop where
  pos : R.Pos
  sound : Sound U nbrs
  lists : Lists G U nbrs
  cells : ∀ i r, cell i = some r ↔ U i = some r ∧ G r
  finite : ∃ N, ∀ i r, U i = some r → i < N
  cover : ∀ x y, R.HMem x y → ∃ i r, U i = some r ∧ G r ∧ r.HMem x y
  within : ∀ i r, U i = some r → G r → R.w ≤ r.w ∧ r.w ≤ R.e ∧ R.s ≤ r.s ∧ r.n ≤ R.n

/-- The lines of a part of the cells. -/
theorem SheetPart.lines {U : ℕ → Option Rect} {nbrs : ℕ → Option NMap} {cell : ℕ → Option Rect} {R : Rect} {G : Rect → Prop} (h : SheetPart U nbrs cell R G) :
    LinesLead R cell nbrs := by
  obtain ⟨hR, hS, hL, hcell, hF, hC, -⟩ := h
  refine lines_lead_of (fun i a ha => ?_) (fun i a ha => hS.pos i a ((hcell i a).1 ha).1) (fun i j a b hne ha hb => ?_) (fun i j a b d f ha hb ht hf => ?_)
    ?_ (fun x y h => ?_) hR
  · exact Option.isSome_iff_exists.1 ((hS.keys i).2 (by rw [((hcell i a).1 ha).1]; rfl))
  · exact hS.disjoint i j a b hne ((hcell i a).1 ha).1 ((hcell j b).1 hb).1
  · obtain ⟨h1, h2⟩ := (hcell i a).1 ha
    obtain ⟨h3, h4⟩ := (hcell j b).1 hb
    exact hL i j a b d f h1 h3 h2 h4 ht hf
  · obtain ⟨N, hN⟩ := hF
    exact ⟨N, fun i r h => hN i r ((hcell i r).1 h).1⟩
  · obtain ⟨i, r, h1, h2, h3⟩ := hC x y h
    exact ⟨i, r, (hcell i r).2 ⟨h1, h2⟩, h3⟩

/-- The sides of a part of the cells. -/
theorem SheetPart.sides {U : ℕ → Option Rect} {nbrs : ℕ → Option NMap} {cell : ℕ → Option Rect} {R : Rect} {G : Rect → Prop} (h : SheetPart U nbrs cell R G) :
    PartLined R cell nbrs := by
  obtain ⟨hR, hS, hL, hcell, hF, hC, hW⟩ := h
  have hin : ∀ i a, cell i = some a → R.w ≤ a.w ∧ a.w ≤ R.e ∧ R.s ≤ a.s ∧ a.n ≤ R.n := fun i a ha => hW i a ((hcell i a).1 ha).1 ((hcell i a).1 ha).2
  have hpos : ∀ i a, cell i = some a → a.Pos := fun i a ha => hS.pos i a ((hcell i a).1 ha).1
  have hN : ∃ N, ∀ i r, cell i = some r → i < N := by
    obtain ⟨N, hN⟩ := hF
    exact ⟨N, fun i r h => hN i r ((hcell i r).1 h).1⟩
  have hcover : ∀ x y, R.HMem x y → ∃ i r, cell i = some r ∧ r.HMem x y := by
    intro x y h
    obtain ⟨i, r, h1, h2, h3⟩ := hC x y h
    exact ⟨i, r, (hcell i r).2 ⟨h1, h2⟩, h3⟩
  have huniq : ∀ i j a r, cell i = some a → cell j = some r → r.w < a.e → a.w < r.e → r.s < a.n → a.s < r.n → i = j := by
    intro i j a r hi hj h1 h2 h3 h4
    by_contra hne
    exact hS.disjoint i j a r hne ((hcell i a).1 hi).1 ((hcell j r).1 hj).1 ⟨h1, h2, h3, h4⟩
  have hlist : ∀ i a f j r d, cell i = some a → nbrs i = some f → cell j = some r → Touches d a r → j ∈ f d := fun i a f j r d ha hf hr ht =>
    hL i j a r d f ((hcell i a).1 ha).1 ((hcell j r).1 hr).1 ((hcell i a).1 ha).2 ((hcell j r).1 hr).2 ht hf
  have htouch : ∀ i a f j r d, cell i = some a → nbrs i = some f → cell j = some r → j ∈ f d → Touches d a r := by
    intro i a f j r d ha hf hr hj
    obtain ⟨a', r', e1, e2, ht⟩ := hS.touch i f d j hf hj
    rw [((hcell i a).1 ha).1] at e1
    rw [((hcell j r).1 hr).1] at e2
    cases e1; cases e2
    exact ht
  refine ⟨hin, ?_, ?_, ?_, ?_⟩
  · intro i a f ha hf hb y y1 y2
    obtain ⟨i1, i2, i3, i4⟩ := hin i a ha
    obtain ⟨p1, p2⟩ := hpos i a ha
    obtain ⟨x, x1, x2, x3⟩ := next_edge hN Rect.w a.e R.e hb
    obtain ⟨j, r, hr, k1, k2, k3, k4⟩ := hcover x y ⟨by linarith, x2, by linarith, by linarith⟩
    have hle := x3 j r hr k1
    have hw : r.w = a.e := by
      by_contra hne
      have := huniq i j a r ha hr (lt_of_le_of_ne hle hne) (by linarith) (by linarith) (by linarith)
      subst this
      rw [ha] at hr
      cases hr
      linarith
    refine ⟨j, ⟨hlist i a f j r .east ha hf hr ⟨hw.symm, by linarith, by linarith⟩, r, hr, k3, k4⟩, ?_⟩
    rintro j' ⟨hj', r', hr', k3', k4'⟩
    have e2 : a.e = r'.w := (htouch i a f j' r' .east ha hf hr' hj').1
    obtain ⟨q1, -⟩ := hpos j r hr
    obtain ⟨q1', -⟩ := hpos j' r' hr'
    exact huniq j' j r' r hr' hr (by linarith) (by linarith) (by linarith) (by linarith)
  · intro i a f ha hf hb y y1 y2
    obtain ⟨i1, i2, i3, i4⟩ := hin i a ha
    obtain ⟨p1, p2⟩ := hpos i a ha
    obtain ⟨j, r, hr, k1, k2, k3, k4⟩ := hcover a.w y ⟨hb, i2, by linarith, by linarith⟩
    have hw : r.e = a.w := by
      by_contra hne
      have := huniq i j a r ha hr (by linarith) (lt_of_le_of_ne k2 (Ne.symm hne)) (by linarith) (by linarith)
      subst this
      rw [ha] at hr
      cases hr
      linarith
    refine ⟨j, ⟨hlist i a f j r .west ha hf hr ⟨hw, by linarith, by linarith⟩, r, hr, k3, k4⟩, ?_⟩
    rintro j' ⟨hj', r', hr', k3', k4'⟩
    have e2 : r'.e = a.w := (htouch i a f j' r' .west ha hf hr' hj').1
    obtain ⟨q1, -⟩ := hpos j r hr
    obtain ⟨q1', -⟩ := hpos j' r' hr'
    exact huniq j' j r' r hr' hr (by linarith) (by linarith) (by linarith) (by linarith)
  · intro i a f ha hf hb x y1 y2 y3
    obtain ⟨i1, i2, i3, i4⟩ := hin i a ha
    obtain ⟨p1, p2⟩ := hpos i a ha
    obtain ⟨y, x1, x2, x3⟩ := next_edge hN Rect.s a.n R.n hb
    obtain ⟨j, r, hr, k1, k2, k3, k4⟩ := hcover x y ⟨by linarith, y3, by linarith, x2⟩
    have hle := x3 j r hr k3
    have hw : r.s = a.n := by
      by_contra hne
      have := huniq i j a r ha hr (by linarith) (by linarith) (lt_of_le_of_ne hle hne) (by linarith)
      subst this
      rw [ha] at hr
      cases hr
      linarith
    refine ⟨j, ⟨hlist i a f j r .north ha hf hr ⟨⟨by linarith, by linarith⟩, hw.symm⟩, r, hr, k1, k2⟩, ?_⟩
    rintro j' ⟨hj', r', hr', k3', k4'⟩
    have e2 : a.n = r'.s := (htouch i a f j' r' .north ha hf hr' hj').2
    obtain ⟨-, q1⟩ := hpos j r hr
    obtain ⟨-, q1'⟩ := hpos j' r' hr'
    exact huniq j' j r' r hr' hr (by linarith) (by linarith) (by linarith) (by linarith)
  · intro i a f ha hf hb x y1 y2 y3
    obtain ⟨i1, i2, i3, i4⟩ := hin i a ha
    obtain ⟨p1, p2⟩ := hpos i a ha
    obtain ⟨j, r, hr, k1, k2, k3, k4⟩ := hcover x a.s ⟨by linarith, y3, hb, by linarith⟩
    have hw : r.n = a.s := by
      by_contra hne
      have := huniq i j a r ha hr (by linarith) (by linarith) (by linarith) (lt_of_le_of_ne k4 (Ne.symm hne))
      subst this
      rw [ha] at hr
      cases hr
      linarith
    refine ⟨j, ⟨hlist i a f j r .south ha hf hr ⟨⟨by linarith, by linarith⟩, hw⟩, r, hr, k1, k2⟩, ?_⟩
    rintro j' ⟨hj', r', hr', k3', k4'⟩
    have e2 : r'.n = a.s := (htouch i a f j' r' .south ha hf hr' hj').2
    obtain ⟨-, q1⟩ := hpos j r hr
    obtain ⟨-, q1'⟩ := hpos j' r' hr'
    exact huniq j' j r' r hr' hr (by linarith) (by linarith) (by linarith) (by linarith)

/-- The two parts of a region over the antimeridian. -/
theorem crossing_parts {ops : DataOps D} {b : Boundary} {W H : ℚ} (hp : ProperGrid b W H) (hcr : b.longMax ≤ b.longMin)
    (hh : b.latMin < b.latMax) (hwidth : b.width < 360) (hstart : b.longMin < 180) {initData : Boundary → D} {depth : ℕ} {m : MeshState D}
    (h : Reach ops b W H initData depth m) :
    (∃ U G, SheetPart U (nbrs m) (westCells b (liveBox m)) ⟨b.longMin, 180, b.latMin, b.latMax⟩ G) ∧
    ∀ n : ℕ, 180 < b.longMin + n * W → b.longMin + n * W < eastEdge b →
      ∃ U G, SheetPart U (nbrs m) (eastCells b (b.longMin + n * W) (liveBox m)) ⟨b.longMin + n * W, eastEdge b, b.latMin, b.latMax⟩ G := by
  have hflag : ¬ (b.longMax = 180 ∧ (b.longMin = -180 ∨ b.longMin = 180)) := by
    rintro ⟨h1, h2 | h2⟩ <;> linarith
  obtain ⟨hm, U, hU⟩ := reach_seam hp hflag (fun h => absurd h hwidth.ne) h
  have hS := hU.sound
  obtain ⟨-, b1, b2, b3, -⟩ := hp.valid
  have hwe := Boundary.width_eq b
  have hW := hp.wpos
  have he : eastEdge b = b.longMax + 360 := by
    unfold eastEdge
    rw [if_neg (not_lt.2 hcr)]
  -- where an unrolled cell is
  have turn : ∀ i c r, Live m i c → U i = some r → (r.w ≤ 180 → r = arcOf c.bounds) ∧ (180 < r.w → r = (arcOf c.bounds).shift 360) := by
    intro i c r hl hr
    obtain ⟨t, ht⟩ := hU.live i c hl
    obtain ⟨w1, w2, -⟩ := hU.within i r hr
    obtain ⟨p1, -⟩ := hS.pos i r hr
    rw [hr] at ht
    exact sheet_turn (Option.some.inj ht) (hU.sheet i c r hl hr) (by linarith) (by linarith)
  -- every point of the region is in an unrolled cell
  have cover : ∀ x y, b.longMin < x → x ≤ eastEdge b → b.latMin < y → y ≤ b.latMax → ∃ i r, U i = some r ∧ r.HMem x y := by
    intro x y x1 x2 y1 y2
    obtain ⟨i, c, hl, ⟨n, n1, n2⟩, n3, n4⟩ := (hm.cover x y).1 ⟨⟨0, by simpa using x1, by simpa using x2⟩, y1, y2⟩
    obtain ⟨t, ht⟩ := hU.live i c hl
    obtain ⟨w1, w2, -⟩ := hU.within i _ ht
    simp only [Rect.shift, arcOf] at w1 w2
    have k1 : (-1 : ℚ) < n + t := by linarith
    have k2 : (n : ℚ) + t < 1 := by linarith
    have k1 : (-1 : ℤ) < n + t := by exact_mod_cast k1
    have k2 : n + t < (1 : ℤ) := by exact_mod_cast k2
    have k3 : n = -t := by omega
    subst k3
    push_cast at n1 n2
    refine ⟨i, _, ht, ?_⟩
    simp only [Rect.HMem, Rect.shift, arcOf]
    exact ⟨by linarith, by linarith, n3, n4⟩
  have lats : ∀ i r, U i = some r → b.latMin ≤ r.s ∧ r.n ≤ b.latMax := by
    intro i r hr
    obtain ⟨c, hl⟩ := hU.dead i r hr
    obtain ⟨t, ht⟩ := hU.live i c hl
    rw [hr] at ht
    have hr' := Option.some.inj ht
    obtain ⟨p1, p2⟩ := hS.pos i r hr
    have e1 : r.s = c.bounds.latMin := by rw [hr']; rfl
    have e2 : r.n = c.bounds.latMax := by rw [hr']; rfl
    have e3 : c.bounds.longMin < eastEdge c.bounds := by
      have : (arcOf c.bounds).w < (arcOf c.bounds).e := by
        rw [hr'] at p1
        simpa [Rect.shift] using p1
      exact this
    rw [e1, e2] at p2
    have hin : ∀ y, c.bounds.latMin < y → y ≤ c.bounds.latMax → b.latMin < y ∧ y ≤ b.latMax := by
      intro y y1 y2
      have := (hm.cover (eastEdge c.bounds) y).2 ⟨i, c, hl, ⟨0, by simpa using e3, by simp⟩, y1, y2⟩
      exact this.2
    rw [e1, e2]
    refine ⟨?_, (hin _ p2 (le_refl _)).2⟩
    by_contra hlt
    have hlt := not_le.1 hlt
    have := (hin (min b.latMin c.bounds.latMax) (lt_min hlt p2) (min_le_right _ _)).1
    exact absurd (min_le_left b.latMin c.bounds.latMax) (not_le.2 this)
  have fin : ∃ N, ∀ i r, U i = some r → i < N := by
    refine ⟨m.cells.length, fun i r h => ?_⟩
    obtain ⟨c, hl⟩ := hU.dead i r h
    exact live_lt hl
  refine ⟨?_, fun n n1 n2 => ?_⟩
  · refine ⟨U, _, ⟨hstart, hh⟩, hS, hU.west, fun i r => ?_, fin, fun x y h => ?_, fun i r hr hg => ⟨(hU.within i r hr).1, hg, lats i r hr⟩⟩
    · constructor
      · intro h
        unfold westCells at h
        split at h
        · rename_i q hq
          obtain ⟨c, hl, rfl⟩ := liveBox_iff.1 hq
          split at h
          · rename_i hle
            obtain ⟨t, ht⟩ := hU.live i c hl
            obtain ⟨k1, k2⟩ := turn i c _ hl ht
            rcases le_or_gt ((arcOf c.bounds).shift (360 * (t : ℚ))).w 180 with g | g
            · have e := k1 g
              rw [e] at ht g
              cases h
              exact ⟨ht, g⟩
            · exfalso
              have e := k2 g
              rw [e] at ht
              obtain ⟨w1, w2, -⟩ := hU.within i _ ht
              obtain ⟨p1, -⟩ := hS.pos i _ ht
              simp only [Rect.shift, arcOf] at w1 w2 p1
              linarith
          · cases h
        · cases h
      · rintro ⟨hr, hg⟩
        obtain ⟨c, hl⟩ := hU.dead i r hr
        have e := (turn i c r hl hr).1 hg
        obtain ⟨w1, -⟩ := hU.within i r hr
        unfold westCells
        rw [liveBox_iff.2 ⟨c, hl, rfl⟩]
        simp only
        rw [if_pos (by rw [e] at w1; exact w1), e]
    · obtain ⟨x1, x2, y1, y2⟩ := h
      simp only at x1 x2 y1 y2
      obtain ⟨i, r, hr, r1, r2, r3, r4⟩ := cover x y x1 (by linarith) y1 y2
      exact ⟨i, r, hr, by show r.w ≤ 180; linarith, r1, r2, r3, r4⟩
  · have hL : Lists (fun r => b.longMin + n * W ≤ r.w) U (nbrs m) := fun i j a a' d f hi hj ga ga' ht hf =>
      hU.east i j a a' d f hi hj ⟨n, n1, ga⟩ ⟨n, n1, ga'⟩ ht hf
    refine ⟨U, _, ⟨n2, hh⟩, hS, hL, fun i r => ?_, fin, fun x y h => ?_, fun i r hr hg => ⟨hg, ?_, lats i r hr⟩⟩
    · constructor
      · intro h
        unfold eastCells at h
        split at h
        · rename_i q hq
          obtain ⟨c, hl, rfl⟩ := liveBox_iff.1 hq
          split at h
          · rename_i hle
            obtain ⟨t, ht⟩ := hU.live i c hl
            obtain ⟨k1, k2⟩ := turn i c _ hl ht
            rcases le_or_gt ((arcOf c.bounds).shift (360 * (t : ℚ))).w 180 with g | g
            · exfalso
              have e := k1 g
              rw [e] at ht
              obtain ⟨w1, -⟩ := hU.within i _ ht
              simp only [arcOf] at w1
              linarith [hle.2]
            · have e := k2 g
              rw [e] at ht
              cases h
              refine ⟨ht, ?_⟩
              simp only [Rect.shift, arcOf]
              linarith [hle.1]
          · cases h
        · cases h
      · rintro ⟨hr, hg⟩
        obtain ⟨c, hl⟩ := hU.dead i r hr
        have e := (turn i c r hl hr).2 (by linarith)
        obtain ⟨w1, w2, -⟩ := hU.within i r hr
        obtain ⟨p1, -⟩ := hS.pos i r hr
        have ew : r.w = c.bounds.longMin + 360 := by rw [e]; rfl
        unfold eastCells
        rw [liveBox_iff.2 ⟨c, hl, rfl⟩]
        simp only
        rw [if_pos ⟨by linarith, by linarith⟩, e]
    · obtain ⟨x1, x2, y1, y2⟩ := h
      simp only at x1 x2 y1 y2
      obtain ⟨i, r, hr, r1, r2, r3, r4⟩ := cover x y (by linarith) x2 y1 y2
      refine ⟨i, r, hr, ?_, r1, r2, r3, r4⟩
      obtain ⟨k, k1, k2⟩ := hU.cols i r hr
      have h1 : (n : ℚ) * W < (k + 1) * W := by linarith
      have h2 : (n : ℚ) < k + 1 := lt_of_mul_lt_mul_right h1 hW.le
      have h3 : n ≤ k := by
        have : n < k + 1 := by exact_mod_cast h2
        omega
      have h4 : (n : ℚ) * W ≤ k * W := mul_le_mul_of_nonneg_right (by exact_mod_cast h3) hW.le
      show b.longMin + n * W ≤ r.w
      linarith
    · have w2 := (hU.within i r hr).2.1
      have p1 := (hS.pos i r hr).1
      show r.w ≤ eastEdge b
      linarith

/-- C132 over the antimeridian, any sequence of splits: in a region that starts west of the antimeridian and is narrower than the circle, sides are
lined from the western edge up to the antimeridian, and within the columns that start east of it. -/
theorem C132_parts (ops : DataOps D) (b : Boundary) (W H : ℚ) (hp : ProperGrid b W H) (hcr : b.longMax ≤ b.longMin)
    (hh : b.latMin < b.latMax) (hwidth : b.width < 360) (hstart : b.longMin < 180) (initData : Boundary → D) (depth : ℕ) (m : MeshState D)
    (h : Reach ops b W H initData depth m) : SidesLinedParts b W (liveBox m) (nbrs m) := by
  obtain ⟨⟨U, G, h1⟩, h2⟩ := crossing_parts hp hcr hh hwidth hstart h
  refine ⟨h1.sides, fun n n1 n2 => ?_⟩
  obtain ⟨U', G', h3⟩ := h2 n n1 n2
  exact h3.sides

/-- C136 over the antimeridian, any sequence of splits: in a region that starts west of the antimeridian and is narrower than the circle, straight
lines lead from neighbour to neighbour from the western edge up to the antimeridian, and within the columns that start east of it. -/
theorem C136_parts (ops : DataOps D) (b : Boundary) (W H : ℚ) (hp : ProperGrid b W H) (hcr : b.longMax ≤ b.longMin)
    (hh : b.latMin < b.latMax) (hwidth : b.width < 360) (hstart : b.longMin < 180) (initData : Boundary → D) (depth : ℕ) (m : MeshState D)
    (h : Reach ops b W H initData depth m) : LinesLeadParts b W (liveBox m) (nbrs m) := by
  obtain ⟨⟨U, G, h1⟩, h2⟩ := crossing_parts hp hcr hh hwidth hstart h
  refine ⟨h1.lines, fun n n1 n2 => ?_⟩
  obtain ⟨U', G', h3⟩ := h2 n n1 n2
  exact h3.lines

/-- The cells and the neighbour graph of a built mesh. -/
theorem built_box {ops : DataOps D} {agg : CellBox D → Py (Dict String Val)} {config : MeshConfig} {b : Boundary} {W H : ℚ}
    (hp : ProperGrid b W H) {initData : Boundary → D} {depth fuel : ℕ} {m0 : MeshState D} {em : EnvMesh} (h0 : MeshBuilder.init b W H initData depth = .ok m0)
    (h : MeshBuilder.buildEnvironmentalMesh ops agg fuel config m0 = .ok em) :
    ∃ n m, Reach ops b W H initData n m ∧ envBox em = liveBox m ∧ em.graph = m.graph := by
  unfold MeshBuilder.buildEnvironmentalMesh at h
  simp only [bind, Except.bind] at h
  split at h
  · cases h
  · rename_i m hm
    have hr := splitToDepth_reach h0 hm
    obtain ⟨-, -, hg, -⟩ := toEnvMesh_spec h
    obtain ⟨hids, -, -, -, hA, hB⟩ := toEnvMesh_ok (reach_cells hp hr) h
    have hbox : envBox em = liveBox m := by
      funext i
      ext q
      rw [liveBox_iff]
      unfold envBox
      rw [Option.map_eq_some_iff]
      constructor
      · rintro ⟨a, ha, rfl⟩
        have hi : a.id = i := by simpa using List.find?_some ha
        obtain ⟨c, hl, e, -⟩ := hA a (List.mem_of_find?_eq_some ha)
        rw [hi] at hl
        exact ⟨c, hl, e.symm⟩
      · rintro ⟨c, hl, rfl⟩
        obtain ⟨a, ha, hi, -⟩ := hB i c hl
        obtain ⟨a', ha'⟩ := Option.isSome_iff_exists.1 (List.find?_isSome (p := fun c : AggCell => decide (c.id = i)).2 ⟨a, ha, by simpa using hi⟩)
        have hi' : a'.id = i := by simpa using List.find?_some ha'
        obtain ⟨c', hl', e, -⟩ := hA a' (List.mem_of_find?_eq_some ha')
        rw [hi'] at hl'
        unfold Live at hl hl'
        rw [hl] at hl'
        cases hl'
        exact ⟨a', ha', e⟩
    exact ⟨_, m, hr, hbox, hg⟩

/-- C132 over the antimeridian, the mesh that a build ends with, whatever the sources decide. -/
theorem C132_built_parts (ops : DataOps D) (agg : CellBox D → Py (Dict String Val)) (config : MeshConfig) (b : Boundary) (W H : ℚ)
    (hp : ProperGrid b W H) (hcr : b.longMax ≤ b.longMin) (hh : b.latMin < b.latMax) (hwidth : b.width < 360) (hstart : b.longMin < 180)
    (initData : Boundary → D) (depth fuel : ℕ) (m0 : MeshState D) (em : EnvMesh) (h0 : MeshBuilder.init b W H initData depth = .ok m0)
    (h : MeshBuilder.buildEnvironmentalMesh ops agg fuel config m0 = .ok em) :
    SidesLinedParts b W (envBox em) (fun i => em.graph.nodes.get? i) := by
  obtain ⟨n, m, hr, hbox, hg⟩ := built_box hp h0 h
  rw [hbox, hg]
  exact C132_parts ops b W H hp hcr hh hwidth hstart initData n m hr

/-- C136 over the antimeridian, the mesh that a build ends with, whatever the sources decide. -/
theorem C136_built_parts (ops : DataOps D) (agg : CellBox D → Py (Dict String Val)) (config : MeshConfig) (b : Boundary) (W H : ℚ)
    (hp : ProperGrid b W H) (hcr : b.longMax ≤ b.longMin) (hh : b.latMin < b.latMax) (hwidth : b.width < 360) (hstart : b.longMin < 180)
    (initData : Boundary → D) (depth fuel : ℕ) (m0 : MeshState D) (em : EnvMesh) (h0 : MeshBuilder.init b W H initData depth = .ok m0)
    (h : MeshBuilder.buildEnvironmentalMesh ops agg fuel config m0 = .ok em) :
    LinesLeadParts b W (envBox em) (fun i => em.graph.nodes.get? i) := by
  obtain ⟨n, m, hr, hbox, hg⟩ := built_box hp h0 h
  rw [hbox, hg]
  exact C136_parts ops b W H hp hcr hh hwidth hstart initData n m hr

/-- C112 over the antimeridian, the mesh that a build ends with: either part is connected, whatever the sources decide. -/
theorem C112_built_parts (ops : DataOps D) (agg : CellBox D → Py (Dict String Val)) (config : MeshConfig) (b : Boundary) (W H : ℚ)
    (hp : ProperGrid b W H) (hcr : b.longMax ≤ b.longMin) (hwidth : b.width < 360) (hstart : b.longMin < 180)
    (initData : Boundary → D) (depth fuel : ℕ) (m0 : MeshState D) (em : EnvMesh) (h0 : MeshBuilder.init b W H initData depth = .ok m0)
    (h : MeshBuilder.buildEnvironmentalMesh ops agg fuel config m0 = .ok em) :
    ∀ c ∈ em.cells, ∀ c' ∈ em.cells, SamePart b W c.bounds.longMin c'.bounds.longMin → Linked (fun i => em.graph.nodes.get? i) c.id c'.id := by
  unfold MeshBuilder.buildEnvironmentalMesh at h
  simp only [bind, Except.bind] at h
  split at h
  · cases h
  · rename_i m hm
    have hr := splitToDepth_reach h0 hm
    obtain ⟨-, -, hg, -⟩ := toEnvMesh_spec h
    obtain ⟨-, -, -, -, hA, -⟩ := toEnvMesh_ok (reach_cells hp hr) h
    intro c hc c' hc' hpart
    obtain ⟨a, hl, e, -⟩ := hA c hc
    obtain ⟨a', hl', e', -⟩ := hA c' hc'
    rw [e, e'] at hpart
    rw [hg]
    exact C112_parts ops b W H hp hcr hwidth hstart initData _ m hr _ _ a a' hl hl' hpart

/-! ## Examples -/

/-- The hypotheses of C136 hold over the antimeridian: from cell 8 in the south-west one walks to the antimeridian at 51 S, and from cell 13 in the
south-east to 51 S, 169 W (that is 191 E), which is in cell 14. -/
example : ∃ m, exCrossParts = .ok m ∧ Reach unitOps exCross 10 5 (fun _ => ()) 3 m ∧
    (∃ j l, Walk (westCells exCross (liveBox m)) (nbrs m) (171, -59) (180, -51) 1 (j :: l) ∧ (j :: l).Nodup ∧ (j :: l).getLast? = some 8) ∧
    ∃ l, Walk (eastCells exCross 190 (liveBox m)) (nbrs m) (199, -59) (191, -51) 1 (14 :: l) ∧ (14 :: l).Nodup ∧ (14 :: l).getLast? = some 13 := by
  have hok : (exCrossParts.map (fun m => (westCells exCross (liveBox m) 8, eastCells exCross 190 (liveBox m) 13, eastCells exCross 190 (liveBox m) 14)) :
      Py (Option Rect × Option Rect × Option Rect)) = .ok (some ⟨170, 175, -60, -115 / 2⟩, some ⟨195, 200, -60, -115 / 2⟩, some ⟨190, 195, -105 / 2, -50⟩) := by
    decide +kernel
  rcases h : exCrossParts with e | m
  · rw [h] at hok; cases hok
  rw [h] at hok
  simp only [Except.map, Except.ok.injEq, Prod.mk.injEq] at hok
  obtain ⟨h1, h2, h3⟩ := hok
  have hr : Reach unitOps exCross 10 5 (fun _ => ()) 3 m := runSplits_reach [0, 2, 5] h
  obtain ⟨k1, k2⟩ := C136_parts unitOps exCross 10 5 exCross_proper (by norm_num [exCross]) (by norm_num [exCross]) (by decide +kernel)
    (by norm_num [exCross]) (fun _ => ()) 3 m hr
  have e1 : exCross.longMin + (2 : ℕ) * (10 : ℚ) = 190 := by norm_num [exCross]
  have e2 : eastEdge exCross = 200 := by decide +kernel
  have k2 := k2 2 (by rw [e1]; norm_num) (by rw [e1, e2]; norm_num)
  rw [e1, e2] at k2
  obtain ⟨j, l, a1, a2, a3, -⟩ := k1 (171, -59) (180, -51) (by norm_num [Rect.Mem, exCross]) (by norm_num [Rect.Mem, exCross]) 8 _ h1 (by norm_num [Rect.Mem])
  obtain ⟨j', l', b1, b2, b3, b4⟩ := k2 (199, -59) (191, -51) (by norm_num [Rect.Mem, exCross]) (by norm_num [Rect.Mem, exCross]) 13 _ h2 (by norm_num [Rect.Mem])
  have := b4 14 _ h3 (by norm_num [Rect.IMem])
  subst this
  exact ⟨m, rfl, hr, ⟨j, l, a1, a2, a3⟩, l', b1, b2, b3⟩

/-- The hypotheses of the theorems on built meshes hold over the antimeridian. -/
example : ProperGrid exCross 10 5 ∧ exCross.longMax ≤ exCross.longMin ∧ exCross.latMin < exCross.latMax ∧ exCross.width < 360 ∧ exCross.longMin < 180 ∧
    (match (do
      let m ← MeshBuilder.init exCross 10 5 (fun _ => ()) 3
      let em ← MeshBuilder.buildEnvironmentalMesh unitOps (fun _ => .ok []) 10 exConfig m
      return em.cells.length : Py ℕ) with | .ok n => decide (2 ≤ n) | .error _ => false) = true ∧ SamePart exCross 10 170 180 :=
  ⟨exCross_proper, by norm_num [exCross], by norm_num [exCross], by decide +kernel, by norm_num [exCross], by decide +kernel,
    Or.inl (by norm_num [exCross])⟩

/-- The hypotheses of C132 hold over the antimeridian: at 56 S just cell 7 lies beside cell 6, at 53 S east of 192 E just cell 14 beside cell 16. -/
example : ∃ m, exCrossParts = .ok m ∧ Reach unitOps exCross 10 5 (fun _ => ()) 3 m ∧
    (∃ f, nbrs m 6 = some f ∧ ∃! j, j ∈ f .east ∧ ∃ r, westCells exCross (liveBox m) j = some r ∧ r.s < -56 ∧ -56 ≤ r.n) ∧
    ∃ f, nbrs m 16 = some f ∧ ∃! j, j ∈ f .north ∧ ∃ r, eastCells exCross 190 (liveBox m) j = some r ∧ r.w < 192 ∧ 192 ≤ r.e := by
  have hok : (exCrossParts.map (fun m => (westCells exCross (liveBox m) 6, eastCells exCross 190 (liveBox m) 16, (nbrs m 6).isSome, (nbrs m 16).isSome)) :
      Py (Option Rect × Option Rect × Bool × Bool)) = .ok (some ⟨170, 175, -115 / 2, -55⟩, some ⟨190, 195, -55, -105 / 2⟩, true, true) := by
    decide +kernel
  rcases h : exCrossParts with e | m
  · rw [h] at hok; cases hok
  rw [h] at hok
  simp only [Except.map, Except.ok.injEq, Prod.mk.injEq] at hok
  obtain ⟨h1, h2, h3, h4⟩ := hok
  have hr : Reach unitOps exCross 10 5 (fun _ => ()) 3 m := runSplits_reach [0, 2, 5] h
  obtain ⟨k1, k2⟩ := C132_parts unitOps exCross 10 5 exCross_proper (by norm_num [exCross]) (by norm_num [exCross]) (by decide +kernel)
    (by norm_num [exCross]) (fun _ => ()) 3 m hr
  have e1 : exCross.longMin + (2 : ℕ) * (10 : ℚ) = 190 := by norm_num [exCross]
  have e2 : eastEdge exCross = 200 := by decide +kernel
  have k2 := k2 2 (by rw [e1]; norm_num) (by rw [e1, e2]; norm_num)
  rw [e1, e2] at k2
  obtain ⟨f, hf⟩ := Option.isSome_iff_exists.1 h3
  obtain ⟨f', hf'⟩ := Option.isSome_iff_exists.1 h4
  exact ⟨m, rfl, hr, ⟨f, hf, k1.east 6 _ f h1 hf (by norm_num) (-56) (by norm_num) (by norm_num)⟩,
    f', hf', k2.north 16 _ f' h2 hf' (by norm_num [exCross]) 192 (by norm_num) (by norm_num) (by norm_num)⟩

end Verif
