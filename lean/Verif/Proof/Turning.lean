import Verif.Props.Blocks
import Verif.Props.Around

/-!
# Unwrapping regions that may cross the antimeridian

The boxes of such a region are those of a flat region that runs past 180 degrees, brought back.  Moving the flat region moves its boxes.
-/

namespace Verif
open Spec

/-- Dividing by turns commutes with a relation between boxes that carries over to their parts. -/
theorem byTurns_related {σ : Type} {parts parts' : Boundary → List Boundary} {wants wants' : List σ → Boundary → Prop} {sd : ℕ}
    {R : Boundary → Boundary → Prop} (hparts : ∀ q q', R q q' → ∀ p ∈ parts q, ∃ p' ∈ parts' q', R p p') :
    ∀ (rest before : List σ) (Y Y' : ℕ → Boundary → Prop),
      (∀ l, (∀ s ∈ l, s ∈ before ++ rest) → ∀ q q', R q q' → (wants l q ↔ wants' l q')) → (∀ k q, Y k q → ∃ q', Y' k q' ∧ R q q') →
      ∀ k q, byTurns parts wants sd before rest Y k q → ∃ q', byTurns parts' wants' sd before rest Y' k q' ∧ R q q' := by
  intro rest
  induction rest with
  | nil => intro before Y Y' _ h k q hq; exact h k q hq
  | cons s rest ih =>
    intro before Y Y' hw h
    have hw' : ∀ q q', R q q' → (wants (before ++ [s]) q ↔ wants' (before ++ [s]) q') := hw _ (by
      intro t ht
      simp only [List.mem_append, List.mem_cons] at ht ⊢
      tauto)
    have hd : ∀ {k q}, DividedFrom parts (wants (before ++ [s])) sd Y k q →
        ∃ q', DividedFrom parts' (wants' (before ++ [s])) sd Y' k q' ∧ R q q' := by
      intro k q hx
      induction hx with
      | cell hy =>
        obtain ⟨q', h1, h2⟩ := h _ _ hy
        exact ⟨q', .cell h1, h2⟩
      | quarter _ hk hwq hq ih =>
        obtain ⟨q', h1, h2⟩ := ih
        obtain ⟨p', h3, h4⟩ := hparts _ _ h2 _ hq
        exact ⟨p', .quarter h1 hk ((hw' _ _ h2).1 hwq) h3, h4⟩
    refine ih _ _ _ (fun l hl => hw l (by simpa using hl)) ?_
    rintro k q ⟨h1, h2⟩
    obtain ⟨q', h3, h4⟩ := hd h1
    exact ⟨q', ⟨h3, h2.imp id (fun hn hx => hn ((hw' _ _ h4).2 hx))⟩, h4⟩

/-! ## Flat boxes -/

/-- A box that may run past the antimeridian, brought back. -/
def turnBox (q : Boundary) : Boundary := { q with longMin := turnBack q.longMin, longMax := turnBack q.longMax }

/-- The region, running on past the antimeridian. -/
def flatOf (b : Boundary) : Boundary := { b with longMax := eastEdge b }

/-- The box moved to the east. -/
def movedBy (t : ℚ) (q : Boundary) : Boundary := { q with longMin := q.longMin + t, longMax := q.longMax + t }

/-- A box in the flat region that does not go round the globe. -/
structure Flat (b q : Boundary) : Prop where
  lo : b.longMin ≤ q.longMin
  lt : q.longMin < q.longMax
  hi : q.longMax ≤ eastEdge b
  small : q.longMax - q.longMin < 360
  south : b.latMin ≤ q.latMin
  height : q.latMin < q.latMax
  north : q.latMax ≤ b.latMax
  time : q.time = b.time

/-- A region whose boxes can be brought back by one turn. -/
structure Unwraps (b : Boundary) : Prop where
  west : -180 ≤ b.longMin
  start : b.longMin ≤ 180
  east : eastEdge b ≤ 540
  once : eastEdge b - b.longMin ≤ 360

theorem unwraps_of {b : Boundary} {W H : ℚ} (hp : ProperGrid b W H) : Unwraps b := by
  obtain ⟨v1, v2, v3, v4, v5, -⟩ := hp.valid
  refine ⟨by linarith, by linarith, ?_, ?_⟩
  · unfold eastEdge
    split_ifs with h
    · linarith
    · linarith
  · unfold eastEdge
    split_ifs with h
    · linarith
    · linarith [not_lt.1 h]

theorem movedBy_movedBy (s t : ℚ) (q : Boundary) : movedBy s (movedBy t q) = movedBy (s + t) q := by
  simp only [movedBy, Boundary.mk.injEq, true_and, and_true]
  constructor <;> ring

theorem movedBy_zero (q : Boundary) : movedBy 0 q = q := by simp [movedBy]

theorem quarters_moved (t : ℚ) (q : Boundary) : quarters (movedBy t q) = (quarters q).map (movedBy t) := by
  simp only [quarters, movedBy, List.map_cons, List.map_nil, List.cons.injEq, Boundary.mk.injEq, true_and, and_true]
  refine ⟨?_, ?_, ?_, ?_⟩ <;> ring

theorem turn_east {b q : Boundary} (hu : Unwraps b) (hq : Flat b q) :
    eastEdge (turnBox q) = if q.longMin ≤ 180 then q.longMax else q.longMax - 360 := by
  obtain ⟨u1, u2, u3, u4⟩ := hu
  obtain ⟨f1, f2, f3, f4, -, -, -, -⟩ := hq
  unfold eastEdge turnBox turnBack
  simp only
  split_ifs <;> linarith

theorem turnQuarters_box {b q : Boundary} (hu : Unwraps b) (hq : Flat b q) : turnQuarters (turnBox q) = (quarters q).map turnBox := by
  have he := turn_east hu hq
  obtain ⟨u1, u2, u3, u4⟩ := hu
  obtain ⟨f1, f2, f3, f4, -, -, -, -⟩ := hq
  have h1 : turnBack (((turnBox q).longMin + eastEdge (turnBox q)) / 2) = turnBack ((q.longMin + q.longMax) / 2) := by
    rw [he]
    unfold turnBox turnBack
    simp only
    split_ifs <;> linarith
  have h2 : turnBack (eastEdge (turnBox q)) = turnBack q.longMax := by
    rw [he]
    unfold turnBack
    split_ifs <;> linarith
  unfold turnQuarters
  rw [h1, h2]
  rfl

theorem turnBox_inj {b q q' : Boundary} (hu : Unwraps b) (hq : Flat b q) (hq' : Flat b q') (h : turnBox q = turnBox q') : q = q' := by
  obtain ⟨u1, u2, u3, u4⟩ := hu
  obtain ⟨f1, f2, f3, f4, -, -, -, -⟩ := hq
  obtain ⟨g1, g2, g3, g4, -, -, -, -⟩ := hq'
  obtain ⟨a1, a2, a3, a4, a5⟩ := q
  obtain ⟨b1, b2, b3, b4, b5⟩ := q'
  simp only [turnBox, Boundary.mk.injEq] at h ⊢
  obtain ⟨h1, h2, h3, h4, h5⟩ := h
  simp only at *
  unfold turnBack at h3 h4
  refine ⟨h1, h2, ?_, ?_, h5⟩ <;> split_ifs at h3 h4 <;> linarith

theorem turnGridBox_iff {b : Boundary} {W H : ℚ} (q : Boundary) : TurnGridBox b W H q ↔ ∃ q0, GridBox (flatOf b) W H q0 ∧ q = turnBox q0 := by
  constructor
  · rintro ⟨i, j, rfl, h1, h2⟩
    exact ⟨_, ⟨i, j, rfl, h1, h2⟩, rfl⟩
  · rintro ⟨q0, ⟨i, j, rfl, h1, h2⟩, rfl⟩
    exact ⟨i, j, rfl, h1, h2⟩

theorem gridBox_flat {b : Boundary} {W H : ℚ} (hW : 0 < W) (hH : 0 < H) (hs : W < 360) {q : Boundary} (h : GridBox (flatOf b) W H q) : Flat b q := by
  obtain ⟨i, j, rfl, h1, h2⟩ := h
  have e1 : (0 : ℚ) ≤ i * W := by positivity
  have e2 : (0 : ℚ) ≤ j * H := by positivity
  simp only [flatOf] at *
  exact ⟨by simp only; linarith, by simp only; linarith, h2, by simp only; linarith, by simp only; linarith, by simp only; linarith, h1, rfl⟩

theorem quarter_flat {b q p : Boundary} (hq : Flat b q) (hp : p ∈ quarters q) : Flat b p := by
  obtain ⟨f1, f2, f3, f4, f5, f6, f7, f8⟩ := hq
  simp only [quarters, List.mem_cons, List.not_mem_nil, or_false] at hp
  rcases hp with rfl | rfl | rfl | rfl <;> constructor <;> simp only <;> first | linarith | exact f8

theorem lineage_flat {b : Boundary} {W H : ℚ} (hW : 0 < W) (hH : 0 < H) (hs : W < 360) {l : List Boundary}
    (h : Lineage (GridBox (flatOf b) W H) l) : ∀ q ∈ l, Flat b q := by
  induction h with
  | root hq =>
    intro p hp
    rw [List.mem_singleton] at hp
    subst hp
    exact gridBox_flat hW hH hs hq
  | quarter _ hq ih =>
    intro p hp
    rcases List.mem_cons.1 hp with rfl | hp
    · exact quarter_flat (ih _ (by simp)) hq
    · exact ih p hp

/-- The lines of boxes of a region are those of the flat one, brought back. -/
theorem lineage_unwrap {b : Boundary} {W H : ℚ} (hu : Unwraps b) (hW : 0 < W) (hH : 0 < H) (hs : W < 360) {l : List Boundary}
    (h : LineageBy turnQuarters (TurnGridBox b W H) l) : ∃ l0, Lineage (GridBox (flatOf b) W H) l0 ∧ l = l0.map turnBox := by
  induction h with
  | root hq =>
    obtain ⟨q0, h1, rfl⟩ := (turnGridBox_iff _).1 hq
    exact ⟨[q0], .root h1, rfl⟩
  | @quarter q p t _ hq ih =>
    obtain ⟨l0, h1, h2⟩ := ih
    cases l0 with
    | nil => cases h2
    | cons p0 t0 =>
      simp only [List.map_cons, List.cons.injEq] at h2
      obtain ⟨rfl, rfl⟩ := h2
      rw [turnQuarters_box hu (lineage_flat hW hH hs h1 p0 (by simp))] at hq
      obtain ⟨q0, h3, rfl⟩ := List.mem_map.1 hq
      exact ⟨q0 :: p0 :: t0, .quarter h1 h3, rfl⟩

/-- Two regions of the same shape at different longitudes. -/
structure SameShape (b b' : Boundary) : Prop where
  south : b'.latMin = b.latMin
  north : b'.latMax = b.latMax
  time : b'.time = b.time
  width : eastEdge b' - b'.longMin = eastEdge b - b.longMin

theorem SameShape.symm {b b' : Boundary} (h : SameShape b b') : SameShape b' b := ⟨h.south.symm, h.north.symm, h.time.symm, h.width.symm⟩

theorem gridBox_moved {b b' : Boundary} {W H : ℚ} (hb : SameShape b b') {q : Boundary} (h : GridBox (flatOf b) W H q) :
    GridBox (flatOf b') W H (movedBy (b'.longMin - b.longMin) q) := by
  obtain ⟨i, j, rfl, h1, h2⟩ := h
  obtain ⟨e1, e2, e3, e4⟩ := hb
  simp only [flatOf, movedBy] at *
  refine ⟨i, j, ?_, ?_, ?_⟩
  · simp only [Boundary.mk.injEq, e1, e3, true_and, and_true]
    constructor <;> ring
  · simp only [e2]; exact h1
  · simp only
    linarith

theorem lineage_moved {b b' : Boundary} {W H : ℚ} (hb : SameShape b b') {l : List Boundary} (h : Lineage (GridBox (flatOf b) W H) l) :
    Lineage (GridBox (flatOf b') W H) (l.map (movedBy (b'.longMin - b.longMin))) := by
  induction h with
  | root hq => exact .root (gridBox_moved hb hq)
  | quarter _ hq ih => exact .quarter ih (by rw [quarters_moved]; exact List.mem_map_of_mem hq)

/-- The boxes of two regions of the same shape that correspond to each other. -/
def Corresponds (b b' : Boundary) (W H : ℚ) (q q' : Boundary) : Prop :=
  ∃ q0 t0, Lineage (GridBox (flatOf b) W H) (q0 :: t0) ∧ q = turnBox q0 ∧ q' = turnBox (movedBy (b'.longMin - b.longMin) q0)

theorem Corresponds.symm {b b' : Boundary} {W H : ℚ} {q q' : Boundary} (hb : SameShape b b') (h : Corresponds b b' W H q q') :
    Corresponds b' b W H q' q := by
  obtain ⟨q0, t0, h1, rfl, rfl⟩ := h
  refine ⟨movedBy (b'.longMin - b.longMin) q0, t0.map (movedBy (b'.longMin - b.longMin)), lineage_moved hb h1, rfl, ?_⟩
  rw [movedBy_movedBy, show b.longMin - b'.longMin + (b'.longMin - b.longMin) = 0 by ring, movedBy_zero]

theorem flat_moved {b b' q : Boundary} (hb : SameShape b b') (h : Flat b q) : Flat b' (movedBy (b'.longMin - b.longMin) q) := by
  obtain ⟨f1, f2, f3, f4, f5, f6, f7, f8⟩ := h
  obtain ⟨e1, e2, e3, e4⟩ := hb
  constructor <;> simp only [movedBy] <;> first | linarith | (rw [e3]; exact f8)

theorem corresponds_start {b b' : Boundary} {W H : ℚ} (hb : SameShape b b') {q : Boundary} (h : TurnGridBox b W H q) :
    ∃ q', TurnGridBox b' W H q' ∧ Corresponds b b' W H q q' := by
  obtain ⟨q0, h0, rfl⟩ := (turnGridBox_iff _).1 h
  exact ⟨_, (turnGridBox_iff _).2 ⟨_, gridBox_moved hb h0, rfl⟩, q0, [], .root h0, rfl, rfl⟩

theorem corresponds_parts {b b' : Boundary} {W H : ℚ} (hu : Unwraps b) (hu' : Unwraps b') (hb : SameShape b b') (hW : 0 < W) (hH : 0 < H)
    (hs : W < 360) {q q' : Boundary} (h : Corresponds b b' W H q q') {p : Boundary} (hp : p ∈ turnQuarters q) :
    ∃ p' ∈ turnQuarters q', Corresponds b b' W H p p' := by
  obtain ⟨q0, t0, h1, rfl, rfl⟩ := h
  have hfl := lineage_flat hW hH hs h1 q0 (by simp)
  rw [turnQuarters_box hu hfl] at hp
  obtain ⟨p0, h2, rfl⟩ := List.mem_map.1 hp
  refine ⟨turnBox (movedBy (b'.longMin - b.longMin) p0), ?_, p0, q0 :: t0, .quarter h1 h2, rfl, rfl⟩
  rw [turnQuarters_box hu' (flat_moved hb hfl), quarters_moved]
  exact List.mem_map_of_mem (List.mem_map_of_mem h2)

/-- Lines of boxes that end in boxes that correspond to each other correspond to each other. -/
theorem corresponds_lineage {b b' : Boundary} {W H : ℚ} (hu : Unwraps b) (hu' : Unwraps b') (hb : SameShape b b') (hW : 0 < W) (hH : 0 < H)
    (hs : W < 360) {q q' : Boundary} {t t' : List Boundary} (h : Corresponds b b' W H q q') (hl : LineageBy turnQuarters (TurnGridBox b W H) (q :: t))
    (hl' : LineageBy turnQuarters (TurnGridBox b' W H) (q' :: t')) : List.Forall₂ (Corresponds b b' W H) (q :: t) (q' :: t') := by
  obtain ⟨q0, t0, h1, e1, e2⟩ := h
  obtain ⟨l1, k1, k2⟩ := lineage_unwrap hu hW hH hs hl
  obtain ⟨l2, k3, k4⟩ := lineage_unwrap hu' hW hH hs hl'
  cases l1 with
  | nil => cases k2
  | cons x l1 =>
    cases l2 with
    | nil => cases k4
    | cons y l2 =>
      simp only [List.map_cons, List.cons.injEq] at k2 k4
      obtain rfl : q0 = x := turnBox_inj hu (lineage_flat hW hH hs h1 q0 (by simp)) (lineage_flat hW hH hs k1 x (by simp)) (by rw [← e1, k2.1])
      obtain rfl : movedBy (b'.longMin - b.longMin) q0 = y :=
        turnBox_inj hu' (lineage_flat hW hH hs (lineage_moved hb h1) _ (by simp)) (lineage_flat hW hH hs k3 y (by simp)) (by rw [← e2, k4.1])
      have e3 := lineage_unique hW hH k3 (lineage_moved hb k1)
      subst e3
      have key : ∀ l, Lineage (GridBox (flatOf b) W H) l →
          List.Forall₂ (Corresponds b b' W H) (l.map turnBox) ((l.map (movedBy (b'.longMin - b.longMin))).map turnBox) := by
        intro l hl
        induction hl with
        | root hq => exact .cons ⟨_, [], .root hq, rfl, rfl⟩ .nil
        | quarter hl hq ih => exact .cons ⟨_, _, .quarter hl hq, rfl, rfl⟩ ih
      have := key _ k1
      rw [k2.1, k2.2, k4.1, k4.2]
      exact this

/-! ## Data -/

variable {S C : Type}

/-- What is known of the data of a cell, along a line of boxes. -/
def DataAlong (value : Source S C → Boundary → String → Option ℚ) (full : List (Source S C)) (c : AggCell) (anc : List Boundary) : Prop :=
  ∃ w : Source S C → String → Option ℚ,
    (∀ s ∈ full, ∀ n ∈ splitName s.loader.dataName, Filled (fun q => value s q n) s.fill c.bounds anc (w s n)) ∧ ∀ n,
    ((∀ s ∈ full, n ∉ splitName s.loader.dataName) → c.data.get? n = none) ∧
    ((∃ s ∈ full, n ∈ splitName s.loader.dataName) → ∃ v, c.data.get? n = some (.num v) ∧
      Merged (fun s : Source S C => ',' ∈ s.loader.dataName.toList) (fun s => w s n)
        (full.filter (fun s => decide (n ∈ splitName s.loader.dataName))) v)

theorem filled_related {value value' : Boundary → Option ℚ} {fill : Fill} {q q' : Boundary} {t t' : List Boundary} {v v' : Option ℚ}
    (hr : List.Forall₂ (fun p p' => value p = value' p') (q :: t) (q' :: t')) (h : Filled value fill q t v) (h' : Filled value' fill q' t' v') : v = v' := by
  have h0 : value q = value' q' := by cases hr; assumption
  have h1 : t.map value = t'.map value' := by
    have key : ∀ {l l' : List Boundary}, List.Forall₂ (fun p p' => value p = value' p') l l' → l.map value = l'.map value' := by
      intro l l' h
      induction h with
      | nil => rfl
      | cons h _ ih => simp only [List.map_cons, h, ih]
    cases hr with
    | cons _ hr => exact key hr
  unfold Filled at h h'
  split at h
  · rw [h0, h1] at h; rw [h.eq, h'.eq]
  · rw [h0] at h; rw [h.eq, h'.eq]
  · exact h.elim

/-- Sources that correspond to each other and have the same values along the lines of boxes give the same data. -/
theorem DataAlong.related {value value' : Source S C → Boundary → String → Option ℚ} {zs : List (Source S C × Source S C)} {c c' : AggCell}
    {t t' : List Boundary} (hz : ∀ z ∈ zs, z.1.loader.dataName = z.2.loader.dataName ∧ z.1.fill = z.2.fill)
    (hval : ∀ z ∈ zs, ∀ n ∈ splitName z.1.loader.dataName,
      List.Forall₂ (fun p p' => value z.1 p n = value' z.2 p' n) (c.bounds :: t) (c'.bounds :: t'))
    (h : DataAlong value (zs.map Prod.fst) c t) (h' : DataAlong value' (zs.map Prod.snd) c' t') (n : String) : c.data.get? n = c'.data.get? n := by
  obtain ⟨w, h2, h3⟩ := h
  obtain ⟨w', h2', h3'⟩ := h'
  have hn1 : ∀ z ∈ zs, z.1 ∈ zs.map Prod.fst := fun z hz => List.mem_map_of_mem hz
  have hn2 : ∀ z ∈ zs, z.2 ∈ zs.map Prod.snd := fun z hz => List.mem_map_of_mem hz
  by_cases hn : ∃ z ∈ zs, n ∈ splitName z.1.loader.dataName
  · obtain ⟨z, hzm, hzn⟩ := hn
    obtain ⟨v, k1, k2⟩ := (h3 n).2 ⟨z.1, hn1 z hzm, hzn⟩
    obtain ⟨v', k1', k2'⟩ := (h3' n).2 ⟨z.2, hn2 z hzm, by rw [← (hz z hzm).1]; exact hzn⟩
    rw [k1, k1']
    have hfil : ∀ z ∈ zs, ((fun s : Source S C => decide (n ∈ splitName s.loader.dataName)) ∘ Prod.snd) z =
        ((fun s : Source S C => decide (n ∈ splitName s.loader.dataName)) ∘ Prod.fst) z := by
      intro z hm
      simp only [Function.comp_apply, (hz z hm).1]
    rw [List.filter_map] at k2 k2'
    rw [List.filter_congr hfil] at k2'
    have : v = v' := by
      refine Merged.unique ?_ ?_ k2.map k2'.map
      · intro z hm
        rw [(hz z (List.mem_filter.1 hm).1).1]
      · intro z hm
        obtain ⟨hm, hd⟩ := List.mem_filter.1 hm
        simp only [Function.comp_apply, decide_eq_true_iff] at hd
        have f1 := h2 z.1 (hn1 z hm) n hd
        have f2 := h2' z.2 (hn2 z hm) n (by rw [← (hz z hm).1]; exact hd)
        rw [← (hz z hm).2] at f2
        exact filled_related (hval z hm n hd) f1 f2
    rw [this]
  · push Not at hn
    rw [(h3 n).1 (by simpa using fun a b h => hn (a, b) h), (h3' n).1]
    intro s hs
    obtain ⟨z, hm, rfl⟩ := List.mem_map.1 hs
    rw [← (hz z hm).1]
    exact hn z hm

end Verif
