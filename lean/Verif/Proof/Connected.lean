import Mathlib.Logic.Relation
import Mathlib.Data.Finset.Card
import Mathlib.Tactic.Linarith
import Verif.Spec.Geometry

/-!
# An exact neighbour graph of cells that tile a rectangle is connected
-/

namespace Verif
open Spec Classical

namespace Spec

/-- Cell `j` is listed for cell `i` to its north, east, south or west. -/
def Beside (nbrs : ℕ → Option NMap) (i j : ℕ) : Prop :=
  ∃ f d, nbrs i = some f ∧ (d = .north ∨ d = .east ∨ d = .south ∨ d = .west) ∧ j ∈ f d

/-- From cell `i` one comes to cell `j` in finitely many steps, each to a cell listed to the north, east, south or west. -/
def Linked (nbrs : ℕ → Option NMap) : ℕ → ℕ → Prop := Relation.ReflTransGen (Beside nbrs)

end Spec

theorem touches_adj {glob : Bool} {d : Dir} {a b : Rect} (h : Touches d a b) : Adj glob d a b := by
  refine ⟨0, ?_, ?_⟩
  · unfold turns; split <;> simp
  · simpa [Rect.shift] using h

theorem beside_west {glob : Bool} {cell : ℕ → Option Rect} {nbrs : ℕ → Option NMap} (hE : Exact glob cell nbrs) {i j : ℕ} {a b : Rect}
    (hi : cell i = some a) (hj : cell j = some b) (h1 : b.e = a.w) (h2 : b.s < a.n) (h3 : a.s < b.n) :
    Beside nbrs i j ∧ Beside nbrs j i := by
  obtain ⟨f, hf⟩ := Option.isSome_iff_exists.1 ((hE.keys i).2 (by rw [hi]; rfl))
  obtain ⟨f', hf'⟩ := Option.isSome_iff_exists.1 ((hE.keys j).2 (by rw [hj]; rfl))
  exact ⟨⟨f, .west, hf, by simp, (hE.mem i f .west j a hf hi).2 ⟨b, hj, touches_adj ⟨h1, h2, h3⟩⟩⟩,
    ⟨f', .east, hf', by simp, (hE.mem j f' .east i b hf' hj).2 ⟨a, hi, touches_adj ⟨h1, h3, h2⟩⟩⟩⟩

theorem beside_south {glob : Bool} {cell : ℕ → Option Rect} {nbrs : ℕ → Option NMap} (hE : Exact glob cell nbrs) {i j : ℕ} {a b : Rect}
    (hi : cell i = some a) (hj : cell j = some b) (h1 : b.n = a.s) (h2 : b.w < a.e) (h3 : a.w < b.e) :
    Beside nbrs i j ∧ Beside nbrs j i := by
  obtain ⟨f, hf⟩ := Option.isSome_iff_exists.1 ((hE.keys i).2 (by rw [hi]; rfl))
  obtain ⟨f', hf'⟩ := Option.isSome_iff_exists.1 ((hE.keys j).2 (by rw [hj]; rfl))
  exact ⟨⟨f, .south, hf, by simp, (hE.mem i f .south j a hf hi).2 ⟨b, hj, touches_adj ⟨⟨h2, h3⟩, h1⟩⟩⟩,
    ⟨f', .north, hf', by simp, (hE.mem j f' .north i b hf' hj).2 ⟨a, hi, touches_adj ⟨⟨h3, h2⟩, h1⟩⟩⟩⟩

/-- Both ways. -/
def Spec.Tied (nbrs : ℕ → Option NMap) (i j : ℕ) : Prop := Linked nbrs i j ∧ Linked nbrs j i

theorem Tied.trans {nbrs : ℕ → Option NMap} {i j k : ℕ} (h : Tied nbrs i j) (h' : Tied nbrs j k) : Tied nbrs i k :=
  ⟨h.1.trans h'.1, h'.2.trans h.2⟩

theorem Tied.symm {nbrs : ℕ → Option NMap} {i j : ℕ} (h : Tied nbrs i j) : Tied nbrs j i := ⟨h.2, h.1⟩

/-- Going down along a coordinate that takes finitely many values ends at the smallest value allowed. -/
theorem descend {cell : ℕ → Option Rect} {N : ℕ} (hN : ∀ i r, cell i = some r → i < N) (g : Rect → ℚ) (P : ℕ → Rect → Prop) (T : ℕ → ℕ → Prop)
    (hrefl : ∀ i, T i i) (htrans : ∀ i j k, T i j → T j k → T i k) (lo : ℚ)
    (step : ∀ i a, cell i = some a → P i a → lo < g a → ∃ j b, cell j = some b ∧ P j b ∧ g b < g a ∧ T i j) (hlo : ∀ i a, cell i = some a → lo ≤ g a) :
    ∀ i a, cell i = some a → P i a → ∃ j b, cell j = some b ∧ P j b ∧ g b = lo ∧ T i j := by
  have key : ∀ n : ℕ, ∀ i a, cell i = some a → P i a → ((Finset.range N).filter (fun j => ∃ b, cell j = some b ∧ g b < g a)).card = n →
      ∃ j b, cell j = some b ∧ P j b ∧ g b = lo ∧ T i j := by
    intro n
    induction n using Nat.strong_induction_on with
    | _ n ih =>
      intro i a hi hp hc
      rcases lt_or_eq_of_le (hlo i a hi) with h | h
      · obtain ⟨j, b, hj, hpb, hlt, ht⟩ := step i a hi hp h
        obtain ⟨k, c, hk, hpc, hkc, ht'⟩ := ih _ (by
          rw [← hc]
          refine Finset.card_lt_card ⟨?_, ?_⟩
          · intro x hx
            obtain ⟨h1, b', h2, h3⟩ := Finset.mem_filter.1 hx
            exact Finset.mem_filter.2 ⟨h1, b', h2, h3.trans hlt⟩
          · intro hsub
            have : j ∈ (Finset.range N).filter (fun j => ∃ b, cell j = some b ∧ g b < g a) :=
              Finset.mem_filter.2 ⟨Finset.mem_range.2 (hN j b hj), b, hj, hlt⟩
            obtain ⟨-, b', h2, h3⟩ := Finset.mem_filter.1 (hsub this)
            rw [hj] at h2
            cases h2
            exact lt_irrefl _ h3) j b hj hpb rfl
        exact ⟨k, c, hk, hpc, hkc, htrans _ _ _ ht ht'⟩
      · exact ⟨i, a, hi, hp, h.symm, hrefl i⟩
  intro i a hi hp
  exact key _ i a hi hp rfl

/-- **Connectedness**: finitely many disjoint cells, starting not west of `w0`, and covering everything from `w0` to as far east as any of them
starts, are all tied to each other if those that share part of an edge are. -/
theorem tied_of_cover {cell : ℕ → Option Rect} {nbrs : ℕ → Option NMap} {N : ℕ} (hN : ∀ i r, cell i = some r → i < N) {w0 s0 n0 X : ℚ} (hX : w0 < X)
    (hpos : ∀ i r, cell i = some r → r.Pos) (hdis : ∀ i j a b, i ≠ j → cell i = some a → cell j = some b → ¬ a.Overlap b)
    (hsub : ∀ i r, cell i = some r → w0 ≤ r.w ∧ r.w ≤ X ∧ s0 ≤ r.s ∧ r.n ≤ n0)
    (hcov : ∀ x y, w0 < x → x ≤ X → s0 < y → y ≤ n0 → ∃ i r, cell i = some r ∧ r.HMem x y)
    (hwest : ∀ i j a b, cell i = some a → cell j = some b → Touches .west a b → Tied nbrs i j)
    (hsouth : ∀ i j a b, cell i = some a → cell j = some b → Touches .south a b → Tied nbrs i j)
    {i j : ℕ} {a b : Rect} (hi : cell i = some a) (hj : cell j = some b) : Tied nbrs i j := by
  have hself : ∀ i, Tied nbrs i i := fun i => ⟨.refl, .refl⟩
  -- the same cell, if two overlap
  have hsame : ∀ i j a b, cell i = some a → cell j = some b → b.w < a.e → a.w < b.e → b.s < a.n → a.s < b.n → i = j := by
    intro i j a b h h' h1 h2 h3 h4
    by_contra hne
    exact hdis i j a b hne h h' ⟨h1, h2, h3, h4⟩
  -- to the western edge
  have west : ∀ y i a, cell i = some a → (a.s < y ∧ y ≤ a.n) → ∃ j b, cell j = some b ∧ (b.s < y ∧ y ≤ b.n) ∧ b.w = w0 ∧ Tied nbrs i j := by
    intro y
    refine descend hN (fun r => r.w) (fun _ a => a.s < y ∧ y ≤ a.n) (Tied nbrs) hself (fun _ _ _ => Tied.trans) w0 ?_ (fun i a h => (hsub i a h).1)
    rintro i a h ⟨y1, y2⟩ hlt
    obtain ⟨s1, s2, s3, s4⟩ := hsub i a h
    obtain ⟨p1, p2⟩ := hpos i a h
    obtain ⟨j, b, hj, b1, b2, b3, b4⟩ := hcov a.w y hlt s2 (by linarith) (by linarith)
    have hij : i ≠ j := by
      rintro rfl
      rw [h] at hj
      cases hj
      exact lt_irrefl _ b1
    have he : b.e = a.w := by
      refine le_antisymm (not_lt.1 fun hgt => hij (hsame i j a b h hj (by linarith) hgt (by linarith) (by linarith))) b2
    exact ⟨j, b, hj, ⟨b3, b4⟩, b1, hwest i j a b h hj ⟨he, by linarith, by linarith⟩⟩
  -- all cells of a meridian
  have col : ∀ x, w0 < x → x ≤ X → ∀ i j a b, cell i = some a → cell j = some b → a.w < x → x ≤ a.e → b.w < x → x ≤ b.e → Tied nbrs i j := by
    intro x x0 xX
    have south : ∀ i a, cell i = some a → (a.w < x ∧ x ≤ a.e) → ∃ j b, cell j = some b ∧ (b.w < x ∧ x ≤ b.e) ∧ b.s = s0 ∧ Tied nbrs i j := by
      refine descend hN (fun r => r.s) (fun _ a => a.w < x ∧ x ≤ a.e) (Tied nbrs) hself (fun _ _ _ => Tied.trans) s0 ?_ (fun i a h => (hsub i a h).2.2.1)
      rintro i a h ⟨y1, y2⟩ hlt
      obtain ⟨s1, s2, s3, s4⟩ := hsub i a h
      obtain ⟨p1, p2⟩ := hpos i a h
      obtain ⟨j, b, hj, b1, b2, b3, b4⟩ := hcov x a.s x0 xX hlt (by linarith)
      have hij : i ≠ j := by
        rintro rfl
        rw [h] at hj
        cases hj
        exact lt_irrefl _ b3
      have he : b.n = a.s := by
        refine le_antisymm (not_lt.1 fun hgt => hij (hsame i j a b h hj (by linarith) (by linarith) (by linarith) hgt)) b4
      exact ⟨j, b, hj, ⟨b1, b2⟩, b3, hsouth i j a b h hj ⟨⟨by linarith, by linarith⟩, he⟩⟩
    intro i j a b h h' h1 h2 h3 h4
    obtain ⟨i', a', hi', ⟨u1, u2⟩, u3, ti⟩ := south i a h ⟨h1, h2⟩
    obtain ⟨j', b', hj', ⟨v1, v2⟩, v3, tj⟩ := south j b h' ⟨h3, h4⟩
    have : i' = j' := hsame i' j' a' b' hi' hj' (by linarith) (by linarith)
      (by rw [v3, ← u3]; exact (hpos i' a' hi').2) (by rw [u3, ← v3]; exact (hpos j' b' hj').2)
    subst this
    exact Tied.trans ti (Tied.symm tj)
  obtain ⟨i', a', hi', -, u3, ti⟩ := west a.n i a hi ⟨(hpos i a hi).2, le_refl _⟩
  obtain ⟨j', b', hj', -, v3, tj⟩ := west b.n j b hj ⟨(hpos j b hj).2, le_refl _⟩
  have p1 := (hpos i' a' hi').1
  have q1 := (hpos j' b' hj').1
  have hx : w0 < min (min a'.e b'.e) X := lt_min (lt_min (by linarith) (by linarith)) hX
  have m1 : min (min a'.e b'.e) X ≤ a'.e := (min_le_left _ _).trans (min_le_left _ _)
  have m2 : min (min a'.e b'.e) X ≤ b'.e := (min_le_left _ _).trans (min_le_right _ _)
  exact Tied.trans ti (Tied.trans (col _ hx (min_le_right _ _) i' j' a' b' hi' hj' (by linarith) m1 (by linarith) m2) (Tied.symm tj))

/-- **Connectedness**: if finitely many cells cover a rectangle and lie in it, and their neighbour graph is exact, one comes from every
cell to every other one. -/
theorem linked_of_exact {glob : Bool} {cell : ℕ → Option Rect} {nbrs : ℕ → Option NMap} (hE : Exact glob cell nbrs) {N : ℕ}
    (hN : ∀ i r, cell i = some r → i < N) (R : Rect)
    (hcov : ∀ x y, R.HMem x y → ∃ i r, cell i = some r ∧ r.HMem x y) (hin : ∀ i r x y, cell i = some r → r.HMem x y → R.HMem x y)
    {i j : ℕ} {a b : Rect} (hi : cell i = some a) (hj : cell j = some b) : Linked nbrs i j := by
  have hpos := fun i r h => (hE.ok i r h).1
  have hsub : ∀ i r, cell i = some r → R.w ≤ r.w ∧ r.e ≤ R.e ∧ R.s ≤ r.s ∧ r.n ≤ R.n := by
    intro i r h
    obtain ⟨p1, p2⟩ := hpos i r h
    have he := hin i r r.e r.n h ⟨p1, le_refl _, p2, le_refl _⟩
    refine ⟨?_, he.2.1, ?_, he.2.2.2⟩
    · by_contra hlt
      have hlt := not_le.1 hlt
      have hm : r.HMem (min R.w r.e) r.n := ⟨lt_min hlt p1, min_le_right _ _, p2, le_refl _⟩
      have := (hin i r _ _ h hm).1
      exact absurd (min_le_left R.w r.e) (not_le.2 this)
    · by_contra hlt
      have hlt := not_le.1 hlt
      have hm : r.HMem r.e (min R.s r.n) := ⟨p1, le_refl _, lt_min hlt p2, min_le_right _ _⟩
      have := (hin i r _ _ h hm).2.2.1
      exact absurd (min_le_left R.s r.n) (not_le.2 this)
  refine (tied_of_cover (nbrs := nbrs) hN (w0 := R.w) (s0 := R.s) (n0 := R.n) (X := R.e) ?_ hpos hE.disjoint ?_ ?_ ?_ ?_ hi hj).1
  · have := hsub i a hi
    have := (hpos i a hi).1
    linarith
  · intro i r h
    have := hsub i r h
    have := (hpos i r h).1
    exact ⟨by linarith, by linarith, by linarith, by linarith⟩
  · intro x y h1 h2 h3 h4
    exact hcov x y ⟨h1, h2, h3, h4⟩
  · rintro i j a b h h' ⟨t1, t2, t3⟩
    have := beside_west hE h h' t1 t2 t3
    exact ⟨.single this.1, .single this.2⟩
  · rintro i j a b h h' ⟨⟨t1, t2⟩, t3⟩
    have := beside_south hE h h' t3 t1 t2
    exact ⟨.single this.1, .single this.2⟩

end Verif
