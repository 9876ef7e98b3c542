import Verif.Props.Mixed
import Verif.Proof.SplitTurns

/-!
# What the boxes and values of a mesh depend on

Lines of boxes are unique, values are functions of them, and dividing by turns commutes with restricting to a part of the region.
-/

namespace Verif
open Spec

variable {S C : Type}

/-! ## Uniqueness of lines of boxes -/

/-- A point of a box, on its lower borders or inside. -/
def BoxHas (q : Boundary) (x y : ℚ) : Prop := q.longMin ≤ x ∧ x < q.longMax ∧ q.latMin ≤ y ∧ y < q.latMax

theorem quarters_has {p q : Boundary} (h1 : p.longMin < p.longMax) (h2 : p.latMin < p.latMax) (hq : q ∈ quarters p) {x y : ℚ}
    (h : BoxHas q x y) : BoxHas p x y := by
  obtain ⟨a1, a2, a3, a4⟩ := h
  simp only [quarters, List.mem_cons, List.not_mem_nil, or_false] at hq
  rcases hq with rfl | rfl | rfl | rfl <;> simp only at a1 a2 a3 a4 <;> refine ⟨?_, ?_, ?_, ?_⟩ <;> linarith

theorem quarters_same {p q q' : Boundary} (hq : q ∈ quarters p) (hq' : q' ∈ quarters p) {x y : ℚ} (h : BoxHas q x y) (h' : BoxHas q' x y) :
    q = q' := by
  obtain ⟨a1, a2, a3, a4⟩ := h
  obtain ⟨b1, b2, b3, b4⟩ := h'
  simp only [quarters, List.mem_cons, List.not_mem_nil, or_false] at hq hq'
  rcases hq with rfl | rfl | rfl | rfl <;> rcases hq' with rfl | rfl | rfl | rfl <;> simp only at a1 a2 a3 a4 b1 b2 b3 b4 <;>
    first | rfl | (exfalso; linarith)

theorem steps_same {W a : ℚ} (hW : 0 < W) {i j : ℕ} {x : ℚ} (h1 : a + i * W ≤ x) (h2 : x < a + i * W + W) (h3 : a + j * W ≤ x)
    (h4 : x < a + j * W + W) : i = j := by
  have k1 : (i : ℚ) < j + 1 := by
    by_contra h
    push Not at h
    have := mul_le_mul_of_nonneg_right h hW.le
    linarith
  have k2 : (j : ℚ) < i + 1 := by
    by_contra h
    push Not at h
    have := mul_le_mul_of_nonneg_right h hW.le
    linarith
  have k3 : i < j + 1 := by exact_mod_cast k1
  have k4 : j < i + 1 := by exact_mod_cast k2
  omega

theorem gridBox_same {b : Boundary} {W H : ℚ} (hW : 0 < W) (hH : 0 < H) {q q' : Boundary} (hq : GridBox b W H q) (hq' : GridBox b W H q')
    {x y : ℚ} (h : BoxHas q x y) (h' : BoxHas q' x y) : q = q' := by
  obtain ⟨i, j, rfl, -, -⟩ := hq
  obtain ⟨i', j', rfl, -, -⟩ := hq'
  obtain ⟨a1, a2, a3, a4⟩ := h
  obtain ⟨b1, b2, b3, b4⟩ := h'
  obtain rfl := steps_same hW a1 a2 b1 b2
  obtain rfl := steps_same hH a3 a4 b3 b4
  rfl

theorem lineage_size {b : Boundary} {W H : ℚ} {l : List Boundary} (h : Lineage (GridBox b W H) l) :
    ∀ q t, l = q :: t → q.longMax - q.longMin = W / 2 ^ t.length ∧ q.latMax - q.latMin = H / 2 ^ t.length := by
  induction h with
  | root hq =>
    intro q t e
    cases e
    obtain ⟨i, j, rfl, -, -⟩ := hq
    simp
  | @quarter q p t _ hq ih =>
    intro q' t' e
    cases e
    obtain ⟨h1, h2⟩ := ih p t rfl
    rw [List.length_cons, pow_succ, ← div_div, ← div_div, ← h1, ← h2]
    simp only [quarters, List.mem_cons, List.not_mem_nil, or_false] at hq
    rcases hq with rfl | rfl | rfl | rfl <;> constructor <;> simp only <;> ring

theorem lineage_pos {b : Boundary} {W H : ℚ} (hW : 0 < W) (hH : 0 < H) {q : Boundary} {t : List Boundary} (h : Lineage (GridBox b W H) (q :: t)) :
    q.longMin < q.longMax ∧ q.latMin < q.latMax := by
  obtain ⟨h1, h2⟩ := lineage_size h q t rfl
  have k1 : 0 < W / 2 ^ t.length := by positivity
  have k2 : 0 < H / 2 ^ t.length := by positivity
  constructor <;> linarith

theorem lineage_meet {b : Boundary} {W H : ℚ} (hW : 0 < W) (hH : 0 < H) {l : List Boundary} (h : Lineage (GridBox b W H) l) {x y : ℚ} :
    ∀ {l'}, Lineage (GridBox b W H) l' → l.length = l'.length → ∀ q t q' t', l = q :: t → l' = q' :: t' → BoxHas q x y → BoxHas q' x y → l = l' := by
  induction h with
  | root hq =>
    intro l' h' hl q t q' t' e e' hx hx'
    cases e
    subst e'
    have : t' = [] := by simpa using hl.symm
    subst this
    cases h' with
    | root hq' => rw [gridBox_same hW hH hq hq' hx hx']
  | @quarter q p t hp hq ih =>
    intro l' h' hl q0 t0 q' t' e e' hx hx'
    cases e
    subst e'
    cases h' with
    | root hq' => simp at hl
    | @quarter _ p' t1 hp' hq' =>
      obtain ⟨a1, a2⟩ := lineage_pos hW hH hp
      obtain ⟨b1, b2⟩ := lineage_pos hW hH hp'
      have e := ih hp' (by simpa using hl) p t p' t1 rfl rfl (quarters_has a1 a2 hq hx) (quarters_has b1 b2 hq' hx')
      cases e
      rw [quarters_same hq hq' hx hx']

/-- A box comes about in one way only. -/
theorem lineage_unique {b : Boundary} {W H : ℚ} (hW : 0 < W) (hH : 0 < H) {q : Boundary} {t t' : List Boundary}
    (h : Lineage (GridBox b W H) (q :: t)) (h' : Lineage (GridBox b W H) (q :: t')) : t = t' := by
  obtain ⟨a1, a2⟩ := lineage_pos hW hH h
  have e : W / 2 ^ t.length = W / 2 ^ t'.length := by
    rw [← (lineage_size h q t rfl).1, ← (lineage_size h' q t' rfl).1]
  have hl : t.length = t'.length := by
    have e2 : (2 : ℚ) ^ t.length = 2 ^ t'.length := by
      have p1 : (0 : ℚ) < 2 ^ t.length := by positivity
      have p2 : (0 : ℚ) < 2 ^ t'.length := by positivity
      rw [div_eq_div_iff p1.ne' p2.ne'] at e
      exact (mul_left_cancel₀ hW.ne' e).symm
    exact pow_right_injective₀ (by norm_num) (by norm_num) e2
  have := lineage_meet hW hH h h' (by simpa using hl) q t q t' rfl rfl (x := q.longMin) (y := q.latMin) ⟨le_rfl, a1, le_rfl, a2⟩
    ⟨le_rfl, a1, le_rfl, a2⟩
  simpa using this

theorem Spec.LineageBy.mono {parts : Boundary → List Boundary} {start start' : Boundary → Prop} (hs : ∀ q, start q → start' q) {l : List Boundary}
    (h : LineageBy parts start l) : LineageBy parts start' l := by
  induction h with
  | root hq => exact .root (hs _ hq)
  | quarter _ hq ih => exact .quarter ih hq

/-! ## Values are functions of the line of boxes -/

theorem Spec.IsFirst.eq {l : List (Option ℚ)} {v : Option ℚ} (h : IsFirst l v) : v = (l.filterMap id).head? := by
  rcases h with ⟨pre, x, post, rfl, h2, rfl⟩ | ⟨h1, rfl⟩
  · have : pre.filterMap id = [] := by
      rw [List.filterMap_eq_nil_iff]
      exact h2
    rw [List.filterMap_append, this]
    simp
  · have : l.filterMap id = [] := by
      rw [List.filterMap_eq_nil_iff]
      exact h1
    rw [this]
    rfl

theorem Spec.Filled.unique {value : Boundary → Option ℚ} {fill : Fill} {q : Boundary} {anc : List Boundary} {v v' : Option ℚ}
    (h : Filled value fill q anc v) (h' : Filled value fill q anc v') : v = v' := by
  unfold Filled at h h'
  split at h
  · rw [h.eq, h'.eq]
  · rw [h.eq, h'.eq]
  · exact h.elim

theorem Spec.Merged.map {σ τ : Type} {f : τ → σ} {overrules : σ → Prop} {w : σ → Option ℚ} {l : List τ} {v : Option ℚ}
    (h : Merged overrules w (l.map f) v) : Merged (fun x => overrules (f x)) (fun x => w (f x)) l v := by
  rcases h with ⟨h1, h2⟩ | ⟨pre, s, post, e, h1, h2, h3⟩
  · exact Or.inl ⟨fun s hs => h1 _ (List.mem_map_of_mem hs), by rw [List.map_map] at h2; exact h2⟩
  · obtain ⟨l1, l2, e1, e2, e3⟩ := List.map_eq_append_iff.1 e
    obtain ⟨x, l3, rfl, rfl, rfl⟩ := List.map_eq_cons_iff.1 e3
    exact Or.inr ⟨l1, x, l3, e1, h1, fun t ht => h2 _ (List.mem_map_of_mem ht), by rw [← List.map_cons, List.map_map] at h3; exact h3⟩

theorem Spec.Merged.unique {σ : Type} {overrules overrules' : σ → Prop} {w w' : σ → Option ℚ} {l : List σ} {v v' : Option ℚ}
    (ho : ∀ s ∈ l, (overrules s ↔ overrules' s)) (hw : ∀ s ∈ l, w s = w' s) (h : Merged overrules w l v) (h' : Merged overrules' w' l v') :
    v = v' := by
  have hm : l.map w = l.map w' := List.map_congr_left hw
  rcases h with ⟨h1, h2⟩ | ⟨pre, s, post, e, h1, h2, h3⟩ <;> rcases h' with ⟨h1', h2'⟩ | ⟨pre', s', post', e', h1', h2', h3'⟩
  · rw [hm] at h2
    rw [h2.eq, h2'.eq]
  · have hs : s' ∈ l := by rw [e']; simp
    exact absurd ((ho s' hs).2 h1') (h1 s' hs)
  · have hs : s ∈ l := by rw [e]; simp
    exact absurd ((ho s hs).1 h1) (h1' s hs)
  · have hs : s :: post = s' :: post' := by
      have m1 : s ∈ l := by rw [e]; simp
      have m2 : s' ∈ l := by rw [e']; simp
      have e2 : pre ++ s :: post = pre' ++ s' :: post' := by rw [← e, e']
      rcases List.append_eq_append_iff.1 e2 with ⟨a, ha, hb⟩ | ⟨a, ha, hb⟩
      · cases a with
        | nil => simpa using hb
        | cons u a =>
          rw [List.cons_append, List.cons.injEq] at hb
          exact absurd ((ho s' m2).2 h1') (h2 s' (by rw [hb.2]; simp))
      · cases a with
        | nil => simpa using hb.symm
        | cons u a =>
          rw [List.cons_append, List.cons.injEq] at hb
          exact absurd ((ho s m1).1 h1) (h2' s (by rw [hb.2]; simp))
    have hm2 : (s :: post).map w = (s :: post).map w' := by
      apply List.map_congr_left
      intro t ht
      exact hw t (by rw [e]; exact List.mem_append_right _ ht)
    rw [hm2, hs] at h3
    rw [h3.eq, h3'.eq]

/-- What is known of the data of a cell: the merged values of the sources, along its line of boxes. -/
def DataOf (value : Source S C → Boundary → String → Option ℚ) (full : List (Source S C)) (start : Boundary → Prop) (c : AggCell) : Prop :=
  ∃ anc, Lineage start (c.bounds :: anc) ∧ ∃ w : Source S C → String → Option ℚ,
    (∀ s ∈ full, ∀ n ∈ splitName s.loader.dataName, Filled (fun q => value s q n) s.fill c.bounds anc (w s n)) ∧ ∀ n,
    ((∀ s ∈ full, n ∉ splitName s.loader.dataName) → c.data.get? n = none) ∧
    ((∃ s ∈ full, n ∈ splitName s.loader.dataName) → ∃ v, c.data.get? n = some (.num v) ∧
      Merged (fun s : Source S C => ',' ∈ s.loader.dataName.toList) (fun s => w s n)
        (full.filter (fun s => decide (n ∈ splitName s.loader.dataName))) v)

theorem DataOf.mono {value : Source S C → Boundary → String → Option ℚ} {full : List (Source S C)} {start start' : Boundary → Prop}
    (hs : ∀ q, start q → start' q) {c : AggCell} (h : DataOf value full start c) : DataOf value full start' c := by
  obtain ⟨anc, h1, h2⟩ := h
  exact ⟨anc, h1.mono hs, h2⟩

theorem Spec.Filled.congr {value value' : Boundary → Option ℚ} {fill : Fill} {q : Boundary} {anc : List Boundary} {v : Option ℚ}
    (he : ∀ p ∈ q :: anc, value p = value' p) (h : Filled value fill q anc v) : Filled value' fill q anc v := by
  have h0 : value q = value' q := he q (by simp)
  have h1 : anc.map value = anc.map value' := List.map_congr_left (fun p hp => he p (by simp [hp]))
  unfold Filled at h ⊢
  split at h
  · rw [← h0, ← h1]; exact h
  · rw [← h0]; exact h
  · exact h.elim

/-- Cells of the same box have the same data if their sources correspond to each other. -/
theorem DataOf.same {value value' : Source S C → Boundary → String → Option ℚ} {zs : List (Source S C × Source S C)} {b : Boundary} {W H : ℚ}
    (hW : 0 < W) (hH : 0 < H) {start : Boundary → Prop} (hs : ∀ q, start q → GridBox b W H q) {c c' : AggCell}
    (hz : ∀ z ∈ zs, z.1.loader.dataName = z.2.loader.dataName ∧ z.1.fill = z.2.fill)
    (hval : ∀ t, Lineage start (c.bounds :: t) → ∀ p ∈ c.bounds :: t, ∀ z ∈ zs, ∀ n ∈ splitName z.1.loader.dataName, value z.1 p n = value' z.2 p n)
    (h : DataOf value (zs.map Prod.fst) (GridBox b W H) c) (h' : DataOf value' (zs.map Prod.snd) start c')
    (e : c.bounds = c'.bounds) (n : String) : c.data.get? n = c'.data.get? n := by
  obtain ⟨anc, h1, w, h2, h3⟩ := h
  obtain ⟨anc', h1', w', h2', h3'⟩ := h'
  rw [← e] at h1' h2'
  obtain rfl := lineage_unique hW hH h1 (h1'.mono hs)
  have hn1 : ∀ z ∈ zs, z.1 ∈ zs.map Prod.fst := fun z hz => List.mem_map_of_mem hz
  have hn2 : ∀ z ∈ zs, z.2 ∈ zs.map Prod.snd := fun z hz => List.mem_map_of_mem hz
  by_cases hn : ∃ z ∈ zs, n ∈ splitName z.1.loader.dataName
  · obtain ⟨z, hzm, hzn⟩ := hn
    obtain ⟨v, k1, k2⟩ := (h3 n).2 ⟨z.1, hn1 z hzm, hzn⟩
    obtain ⟨v', k1', k2'⟩ := (h3' n).2 ⟨z.2, hn2 z hzm, by rw [← (hz z hzm).1]; exact hzn⟩
    rw [k1, k1']
    have hfil : ∀ z ∈ zs, ((fun s : Source S C => decide (n ∈ splitName s.loader.dataName)) ∘ Prod.snd) z =
        ((fun s : Source S C => decide (n ∈ splitName s.loader.dataName)) ∘ Prod.fst) z := by
      intro z hm
      simp only [Function.comp_apply, (hz z hm).1]
    rw [List.filter_map] at k2 k2'
    rw [List.filter_congr hfil] at k2'
    have : v = v' := by
      refine Merged.unique ?_ ?_ k2.map k2'.map
      · intro z hm
        rw [(hz z (List.mem_filter.1 hm).1).1]
      · intro z hm
        obtain ⟨hm, hd⟩ := List.mem_filter.1 hm
        simp only [Function.comp_apply, decide_eq_true_iff] at hd
        have f1 := h2 z.1 (hn1 z hm) n hd
        have f2 := h2' z.2 (hn2 z hm) n (by rw [← (hz z hm).1]; exact hd)
        rw [← (hz z hm).2] at f2
        exact (f1.congr (fun p hp => hval anc h1' p hp z hm n hd)).unique f2
    rw [this]
  · push Not at hn
    rw [(h3 n).1 (by simpa using fun a b h => hn (a, b) h), (h3' n).1]
    intro s hs
    obtain ⟨z, hm, rfl⟩ := List.mem_map.1 hs
    rw [← (hz z hm).1]
    exact hn z hm

/-! ## Restricting to a part of the region -/

/-- Dividing by turns commutes with restricting to boxes `P`, if a box is one of `P` exactly if its parts are. -/
theorem byTurns_restrict {σ : Type} {parts : Boundary → List Boundary} {wants : List σ → Boundary → Prop} {sd : ℕ} {In P : Boundary → Prop}
    (hin : ∀ p q, In p → q ∈ parts p → In q) (hP : ∀ p q, In p → q ∈ parts p → (P p ↔ P q)) :
    ∀ (rest before : List σ) (Y Y' : ℕ → Boundary → Prop), (∀ k q, Y k q → In q) → (∀ k q, Y' k q ↔ Y k q ∧ P q) →
      ∀ k q, byTurns parts wants sd before rest Y' k q ↔ byTurns parts wants sd before rest Y k q ∧ P q := by
  intro rest
  induction rest with
  | nil => intro before Y Y' _ h k q; exact h k q
  | cons s rest ih =>
    intro before Y Y' hY h
    have hd : ∀ {k q}, DividedFrom parts (wants (before ++ [s])) sd Y k q → In q := by
      intro k q h
      induction h with
      | cell h => exact hY _ _ h
      | quarter _ _ _ hq ih => exact hin _ _ ih hq
    refine ih _ _ _ (fun k q h => hd h.1) ?_
    intro k q
    have : DividedFrom parts (wants (before ++ [s])) sd Y' k q ↔ DividedFrom parts (wants (before ++ [s])) sd Y k q ∧ P q := by
      constructor
      · intro hx
        induction hx with
        | cell hy => exact ⟨.cell ((h _ _).1 hy).1, ((h _ _).1 hy).2⟩
        | quarter _ hk hw hq ih => exact ⟨.quarter ih.1 hk hw hq, (hP _ _ (hd ih.1) hq).1 ih.2⟩
      · rintro ⟨hx, hp⟩
        induction hx with
        | cell hy => exact .cell ((h _ _).2 ⟨hy, hp⟩)
        | quarter hx hk hw hq ih => exact .quarter (ih ((hP _ _ (hd hx) hq).2 hp)) hk hw hq
    unfold turn
    rw [this]
    tauto

/-! ## Restricting the depth -/

/-- Without a limit that stops it, dividing goes on until a box is not to be divided. -/
theorem dividedFrom_leaf {parts : Boundary → List Boundary} {wants : Boundary → Prop} {sd : ℕ} {Y : ℕ → Boundary → Prop} (hne : ∀ p, parts p ≠ []) :
    ∀ (n k : ℕ) (q : Boundary), sd ≤ k + n → DividedFrom parts wants sd Y k q →
      ∃ k' q', turn parts wants sd Y k' q' ∧ k ≤ k' ∧ ∃ t, LineageBy parts (· = q) (q' :: t) ∧ t.length + k = k' := by
  intro n
  induction n with
  | zero => intro k q hk h; exact ⟨k, q, ⟨h, Or.inl (by omega)⟩, le_rfl, [], .root rfl, by simp⟩
  | succ n ih =>
    intro k q hk h
    by_cases hl : sd ≤ k ∨ ¬ wants q
    · exact ⟨k, q, ⟨h, hl⟩, le_rfl, [], .root rfl, by simp⟩
    · push Not at hl
      obtain ⟨p, hp⟩ := List.exists_mem_of_ne_nil _ (hne q)
      obtain ⟨k', q', h1, h2, t, h3, h4⟩ := ih (k + 1) p (by omega) (.quarter h hl.1 hl.2 hp)
      refine ⟨k', q', h1, by omega, ?_⟩
      have key : ∀ {l}, LineageBy parts (· = p) l → LineageBy parts (· = q) (l ++ [q]) := by
        intro l hl
        induction hl with
        | root e => subst e; exact .quarter (.root rfl) hp
        | quarter _ hq ih => exact .quarter ih hq
      exact ⟨t ++ [q], key h3, by simp; omega⟩

theorem lineage_join {parts : Boundary → List Boundary} {p q r : Boundary} {t u : List Boundary} (h : LineageBy parts (· = q) (r :: u))
    (h' : LineageBy parts (· = p) (q :: t)) : LineageBy parts (· = p) (r :: u ++ t) := by
  have key : ∀ {l}, LineageBy parts (· = q) l → ∀ r u, l = r :: u → LineageBy parts (· = p) (r :: u ++ t) := by
    intro l hl
    induction hl with
    | root e => intro r u e'; cases e'; subst e; exact h'
    | quarter _ hq ih => intro r u e'; cases e'; exact .quarter (ih _ _ rfl) hq
  exact key h r u rfl

/-- Limiting the depth of dividing by turns only cuts off: above the depth the boxes are the same, and at the depth there are those
that are there, or divided, without the limit. -/
theorem byTurns_depths {σ : Type} {parts : Boundary → List Boundary} {wants : List σ → Boundary → Prop} {sd sd' : ℕ} (hsd : sd ≤ sd')
    (hne : ∀ p, parts p ≠ []) :
    ∀ (rest before : List σ) (Y Y' : ℕ → Boundary → Prop), (∀ k q, k < sd → (Y k q ↔ Y' k q)) →
      (∀ k q, Y' k q → sd ≤ k → ∃ p, Y sd p ∧ ∃ t, LineageBy parts (· = p) (q :: t) ∧ t.length + sd = k) →
      (∀ p, Y sd p → ∃ k q, Y' k q ∧ ∃ t, LineageBy parts (· = p) (q :: t) ∧ t.length + sd = k) →
      (∀ k q, k < sd → (byTurns parts wants sd before rest Y k q ↔ byTurns parts wants sd' before rest Y' k q)) ∧
      (∀ k q, byTurns parts wants sd' before rest Y' k q → sd ≤ k → ∃ p, byTurns parts wants sd before rest Y sd p ∧
        ∃ t, LineageBy parts (· = p) (q :: t) ∧ t.length + sd = k) ∧
      (∀ p, byTurns parts wants sd before rest Y sd p → ∃ k q, byTurns parts wants sd' before rest Y' k q ∧
        ∃ t, LineageBy parts (· = p) (q :: t) ∧ t.length + sd = k) := by
  intro rest
  induction rest with
  | nil => intro before Y Y' hA hB hC; exact ⟨hA, hB, hC⟩
  | cons s rest ih =>
    intro before Y Y' hA hB hC
    have shallow : ∀ {w : Boundary → Prop} {k q}, DividedFrom parts w sd Y k q → k < sd → DividedFrom parts w sd' Y' k q := by
      intro w k q h
      induction h with
      | cell h => intro hk; exact .cell ((hA _ _ hk).1 h)
      | quarter _ hk hw hq ih => intro hk'; exact .quarter (ih (by omega)) (by omega) hw hq
    have deep : ∀ {w : Boundary → Prop} {k q}, DividedFrom parts w sd' Y' k q → (k < sd → DividedFrom parts w sd Y k q) ∧
        (sd ≤ k → ∃ p, DividedFrom parts w sd Y sd p ∧ ∃ t, LineageBy parts (· = p) (q :: t) ∧ t.length + sd = k) := by
      intro w k q h
      induction h with
      | @cell k q h =>
        refine ⟨fun hk => .cell ((hA _ _ hk).2 h), fun hk => ?_⟩
        obtain ⟨p, h1, h2⟩ := hB k q h hk
        exact ⟨p, .cell h1, h2⟩
      | @quarter k q q' _ hk hw hq ih =>
        refine ⟨fun hk' => .quarter (ih.1 (by omega)) (by omega) hw hq, fun hk' => ?_⟩
        rcases Nat.lt_or_ge k sd with hlt | hge
        · have e : k + 1 = sd := by omega
          refine ⟨q', ?_, [], .root rfl, by simp [e]⟩
          have := DividedFrom.quarter (ih.1 hlt) hlt hw hq
          rwa [e] at this
        · obtain ⟨p, h1, t, h2, h3⟩ := ih.2 hge
          exact ⟨p, h1, q :: t, .quarter h2 hq, by simp; omega⟩
    refine ih _ _ _ ?_ ?_ ?_
    · intro k q hk
      constructor
      · rintro ⟨h1, h2⟩
        exact ⟨shallow h1 hk, Or.inr (h2.resolve_left (by omega))⟩
      · rintro ⟨h1, h2⟩
        exact ⟨(deep h1).1 hk, Or.inr (h2.resolve_left (by omega))⟩
    · rintro k q ⟨h1, -⟩ hk
      obtain ⟨p, h2, h3⟩ := (deep h1).2 hk
      exact ⟨p, ⟨h2, Or.inl le_rfl⟩, h3⟩
    · rintro p ⟨h1, -⟩
      have hfrom : ∀ {w : Boundary → Prop} {k p}, DividedFrom parts w sd Y k p → k = sd →
          ∃ k q, DividedFrom parts w sd' Y' k q ∧ ∃ t, LineageBy parts (· = p) (q :: t) ∧ t.length + sd = k := by
        intro w k p h hk
        cases h with
        | cell h =>
          subst hk
          obtain ⟨k, q, h2, h3⟩ := hC p h
          exact ⟨k, q, .cell h2, h3⟩
        | @quarter k q _ h hk' hw hq =>
          exact ⟨k + 1, p, .quarter (shallow h hk') (by omega) hw hq, [], .root rfl, by simp [hk]⟩
      obtain ⟨k, q, h2, t, h3, h4⟩ := hfrom h1 rfl
      obtain ⟨k', q', h5, -, u, h6, h7⟩ := dividedFrom_leaf hne (sd' - k) k q (by omega) h2
      exact ⟨k', q', h5, u ++ t, lineage_join h6 h3, by simp; omega⟩

/-! ## Blocks of cells -/

/-- A block of whole cells of the grid over `b`, as a region of its own. -/
def Spec.Block (b : Boundary) (W H : ℚ) (b' : Boundary) : Prop :=
  ∃ i j nx ny : ℕ, 0 < nx ∧ 0 < ny ∧ b' = ⟨b.latMin + j * H, b.latMin + (j + ny) * H, b.longMin + i * W, b.longMin + (i + nx) * W, b.time⟩ ∧
    b'.latMax ≤ b.latMax ∧ b'.longMax ≤ b.longMax

/-- A box lies in another one; neither crosses the antimeridian. -/
def Spec.Enclosed (q p : Boundary) : Prop := p.longMin ≤ q.longMin ∧ q.longMax ≤ p.longMax ∧ p.latMin ≤ q.latMin ∧ q.latMax ≤ p.latMax

theorem Spec.Enclosed.trans {a b c : Boundary} (h : Enclosed a b) (h' : Enclosed b c) : Enclosed a c :=
  ⟨h'.1.trans h.1, h.2.1.trans h'.2.1, h'.2.2.1.trans h.2.2.1, h.2.2.2.trans h'.2.2.2⟩

theorem Spec.Enclosed.refl (a : Boundary) : Enclosed a a := ⟨le_rfl, le_rfl, le_rfl, le_rfl⟩

theorem quarter_enclosed {p q : Boundary} (h1 : p.longMin < p.longMax) (h2 : p.latMin < p.latMax) (hq : q ∈ quarters p) : Enclosed q p := by
  simp only [quarters, List.mem_cons, List.not_mem_nil, or_false] at hq
  rcases hq with rfl | rfl | rfl | rfl <;> refine ⟨?_, ?_, ?_, ?_⟩ <;> simp only <;> linarith

theorem block_proper {b b' : Boundary} {W H : ℚ} (hp : ProperGrid b W H) (hb : Block b W H b') :
    ProperGrid b' W H ∧ b'.longMin < b'.longMax ∧ b'.latMin < b'.latMax ∧ b'.time = b.time ∧ Enclosed b' b ∧
      MeshBuilder.validateBounds b' W H = .ok () := by
  obtain ⟨i, j, nx, ny, hnx, hny, rfl, h1, h2⟩ := hb
  obtain ⟨v0, v1, v2, v3, v4, v5⟩ := hp.valid
  have hW := hp.wpos
  have hH := hp.hpos
  simp only at h1 h2
  have n1 : (0 : ℚ) < nx := by exact_mod_cast hnx
  have n2 : (0 : ℚ) < ny := by exact_mod_cast hny
  have hi : (0 : ℚ) ≤ i * W := by positivity
  have hj : (0 : ℚ) ≤ j * H := by positivity
  have a1 : 0 < nx * W := by positivity
  have a2 : 0 < ny * H := by positivity
  rw [add_mul] at h1 h2
  have hlt : b.longMin + i * W < b.longMin + (i + nx) * W := by rw [add_mul]; linarith
  have hlt2 : b.latMin + j * H < b.latMin + (j + ny) * H := by rw [add_mul]; linarith
  have hw : (⟨b.latMin + j * H, b.latMin + (j + ny) * H, b.longMin + i * W, b.longMin + (i + nx) * W, b.time⟩ : Boundary).width = nx * W := by
    rw [width_of_lt hlt]; simp only; ring
  refine ⟨⟨⟨hlt2.le, ?_, ?_, ?_, ?_, v5⟩, ?_, hW, hH, fun _ => ⟨nx, hw⟩⟩, hlt, hlt2, rfl, ⟨?_, ?_, ?_, ?_⟩, ?_⟩
  · simp only; linarith
  · simp only; linarith
  · simp only; linarith
  · simp only; linarith
  · rintro ⟨e1, e2⟩; simp only at e1 e2; linarith
  · simp only; linarith
  · simp only; linarith
  · simp only; linarith
  · simp only; linarith
  · refine validateBounds_ok hW hH (nx := nx) (ny := ny) hw ?_ (by rw [hw]; exact a1) (by rw [hw]; linarith)
    unfold Boundary.height; simp only; ring

theorem enclosed_within {p q : Boundary} (hp : p.longMin < p.longMax) (hq : q.longMin < q.longMax) (h : Enclosed q p) (ht : q.time = p.time) : Within q p := by
  obtain ⟨k1, k2, k3, k4⟩ := h
  refine ⟨?_, ht⟩
  rintro x y ⟨⟨n, e1, e2⟩, e3, e4⟩
  unfold eastEdge at e2
  rw [if_pos hq] at e2
  refine ⟨⟨n, by linarith, ?_⟩, by linarith, by linarith⟩
  unfold eastEdge
  rw [if_pos hp]
  linarith

theorem block_inner {b b' : Boundary} {W H : ℚ} (hp : ProperGrid b W H) (hcr : b.longMin < b.longMax) (hb : Block b W H b') : Inner b b' := by
  obtain ⟨h1, h2, h3, h4, h5, -⟩ := block_proper hp hb
  exact ⟨⟨h1.valid, h1.nondeg, h3⟩, h2, enclosed_within hcr h2 h5 h4⟩

/-- The cells of the grid over a block are those of the grid that lie in the block. -/
theorem block_grid {b b' : Boundary} {W H : ℚ} (hp : ProperGrid b W H) (hb : Block b W H b') (q : Boundary) :
    GridBox b' W H q ↔ GridBox b W H q ∧ Enclosed q b' := by
  obtain ⟨-, -, -, -, he, -⟩ := block_proper hp hb
  obtain ⟨i, j, nx, ny, hnx, hny, rfl, h1, h2⟩ := hb
  have hW := hp.wpos
  have hH := hp.hpos
  constructor
  · rintro ⟨i', j', rfl, k1, k2⟩
    simp only at k1 k2 h1 h2
    have hi : (0 : ℚ) ≤ i' * W := by positivity
    have hj : (0 : ℚ) ≤ j' * H := by positivity
    refine ⟨⟨i + i', j + j', ?_, ?_, ?_⟩, ?_, ?_, ?_, ?_⟩
    · simp only [Boundary.mk.injEq, and_true]
      push_cast
      refine ⟨?_, ?_, ?_, ?_⟩ <;> ring
    · simp only; linarith
    · simp only; linarith
    · simp only; linarith
    · simp only; linarith
    · simp only; linarith
    · simp only; linarith
  · rintro ⟨⟨i', j', rfl, -, -⟩, k1, k2, k3, k4⟩
    simp only at k1 k2 k3 k4
    have hi : i ≤ i' := by
      have : (i : ℚ) * W ≤ i' * W := by linarith
      exact_mod_cast le_of_mul_le_mul_right this hW
    have hj : j ≤ j' := by
      have : (j : ℚ) * H ≤ j' * H := by linarith
      exact_mod_cast le_of_mul_le_mul_right this hH
    refine ⟨i' - i, j' - j, ?_, ?_, ?_⟩
    · simp only [Boundary.mk.injEq, and_true]
      push_cast [hi, hj]
      refine ⟨?_, ?_, ?_, ?_⟩ <;> ring
    · simpa using k4
    · simpa using k2

/-- A cell of the grid that has a box in common with a block lies in it. -/
theorem block_meet {b b' g q : Boundary} {W H : ℚ} (hp : ProperGrid b W H) (hb : Block b W H b') (hg : GridBox b W H g) (hqg : Enclosed q g)
    (hq : Enclosed q b') (h1 : q.longMin < q.longMax) (h2 : q.latMin < q.latMax) : Enclosed g b' := by
  obtain ⟨i, j, nx, ny, hnx, hny, rfl, -, -⟩ := hb
  obtain ⟨i', j', rfl, -, -⟩ := hg
  obtain ⟨a1, a2, a3, a4⟩ := hqg
  obtain ⟨k1, k2, k3, k4⟩ := hq
  simp only at a1 a2 a3 a4 k1 k2 k3 k4
  have key : ∀ {a W : ℚ} {i n i' : ℕ} {u v : ℚ}, 0 < W → u < v → a + i' * W ≤ u → v ≤ a + i' * W + W → a + i * W ≤ u → v ≤ a + (i + n) * W →
      a + i * W ≤ a + i' * W ∧ a + i' * W + W ≤ a + (i + n) * W := by
    intro a W i n i' u v hW huv e1 e2 e3 e4
    have l1 : i < i' + 1 := by
      have : (i : ℚ) * W < ((i' + 1 : ℕ) : ℚ) * W := by push_cast; linarith
      exact_mod_cast lt_of_mul_lt_mul_right this hW.le
    have l2 : i' < i + n := by
      have : (i' : ℚ) * W < ((i + n : ℕ) : ℚ) * W := by push_cast; linarith
      exact_mod_cast lt_of_mul_lt_mul_right this hW.le
    have m1 : (i : ℚ) ≤ i' := by exact_mod_cast Nat.lt_succ_iff.1 l1
    have m2 : ((i' : ℚ) + 1) ≤ i + n := by exact_mod_cast l2
    have m3 := mul_le_mul_of_nonneg_right m1 hW.le
    have m4 := mul_le_mul_of_nonneg_right m2 hW.le
    constructor <;> linarith
  obtain ⟨r1, r2⟩ := key hp.wpos h1 a1 a2 k1 k2
  obtain ⟨r3, r4⟩ := key hp.hpos h2 a3 a4 k3 k4
  exact ⟨r1, r2, r3, r4⟩

theorem lineage_root {b : Boundary} {W H : ℚ} (hW : 0 < W) (hH : 0 < H) {l : List Boundary} (h : Lineage (GridBox b W H) l) :
    ∀ q t, l = q :: t → ∃ g, GridBox b W H g ∧ Enclosed q g := by
  induction h with
  | root hq => intro q t e; cases e; exact ⟨_, hq, .refl _⟩
  | @quarter q p t hp hq ih =>
    intro q' t' e
    cases e
    obtain ⟨g, h1, h2⟩ := ih p t rfl
    obtain ⟨a1, a2⟩ := lineage_pos hW hH hp
    exact ⟨g, h1, (quarter_enclosed a1 a2 hq).trans h2⟩

/-! ## Sources that are alike in a part of the region -/

theorem byTurns_map {σ τ : Type} {f : τ → σ} {parts : Boundary → List Boundary} {wants : List σ → Boundary → Prop} {sd : ℕ} :
    ∀ (rest before : List τ) (Y : ℕ → Boundary → Prop),
      byTurns parts wants sd (before.map f) (rest.map f) Y = byTurns parts (fun l => wants (l.map f)) sd before rest Y := by
  intro rest
  induction rest with
  | nil => intro before Y; rfl
  | cons s rest ih =>
    intro before Y
    unfold byTurns
    rw [← ih, List.map_append]
    rfl

/-- Two sources of the same name, conditions and way to fill, that do the same with what they have in the boxes `In`. -/
structure AlikeOn (In : Boundary → Prop) (s s' : Source S C) : Prop where
  id : s'.loader.id = s.loader.id
  name : s'.loader.dataName = s.loader.dataName
  fill : s'.fill = s.fill
  conds : s'.conds = s.conds
  trim : s'.loader.trim = s.loader.trim
  value : s'.loader.getValue = s.loader.getValue
  data : ∀ q, In q → s.loader.trim q s'.subset = s.loader.trim q s.subset
  hom : ∀ q, In q → ∀ c ∈ s.conds, s'.loader.homCond q c (s.loader.trim q s.subset) = s.loader.homCond q c (s.loader.trim q s.subset)

theorem AlikeOn.refl {In : Boundary → Prop} (s : Source S C) : AlikeOn In s s := ⟨rfl, rfl, rfl, rfl, rfl, rfl, fun _ _ => rfl, fun _ _ _ _ => rfl⟩

theorem AlikeOn.faithful {In : Boundary → Prop} {s s' : Source S C} (h : AlikeOn In s s') {verdict : Boundary → C → Verdict} (hf : FaithfulOn In s verdict) :
    FaithfulOn In s' verdict := by
  constructor
  · intro p q hp hq hw
    rw [h.trim, h.data p hp, h.data q hq]
    exact hf.trims p q hp hq hw
  · intro q hq c hc
    rw [h.conds] at hc
    rw [h.trim, h.data q hq, h.hom q hq c hc]
    exact hf.decides q hq c hc

theorem AlikeOn.valued {In : Boundary → Prop} {s s' : Source S C} (h : AlikeOn In s s') {value : Boundary → String → Option ℚ}
    (hv : ValuedOn In s value) : ValuedOn In s' value := by
  refine ⟨?_, ?_, ?_, ?_⟩
  · rw [h.name]; exact hv.names
  · rw [h.value]; exact hv.keys
  · intro q hq
    rw [h.value, h.trim, h.data q hq, h.name]
    exact hv.gives q hq
  · rw [h.fill, h.name]; exact hv.fills

theorem AlikeOn.own {In : Boundary → Prop} {s s' : Source S C} (h : AlikeOn In s s') {q : Boundary} (hq : In q) {c : C} (hc : c ∈ s.conds) :
    ownVerdict s' q c = ownVerdict s q c := by
  unfold ownVerdict
  rw [h.trim, h.data q hq, h.hom q hq c hc]

theorem valued_unique {In : Boundary → Prop} {s : Source S C} {value value' : Boundary → String → Option ℚ} (h : ValuedOn In s value)
    (h' : ValuedOn In s value') {q : Boundary} (hq : In q) {n : String} (hn : n ∈ splitName s.loader.dataName) : value q n = value' q n := by
  obtain ⟨D, h1, h2, -⟩ := h.gives q hq
  obtain ⟨D', h1', h2', -⟩ := h'.gives q hq
  rw [h1] at h1'
  cases h1'
  have := (h2 n hn).symm.trans (h2' n hn)
  simpa using this

theorem FaithfulOn.mono {In In' : Boundary → Prop} (hs : ∀ q, In' q → In q) {s : Source S C} {verdict : Boundary → C → Verdict}
    (h : FaithfulOn In s verdict) : FaithfulOn In' s verdict :=
  ⟨fun p q hp hq => h.trims p q (hs p hp) (hs q hq), fun q hq => h.decides q (hs q hq)⟩

theorem ValuedOn.mono {In In' : Boundary → Prop} (hs : ∀ q, In' q → In q) {s : Source S C} {value : Boundary → String → Option ℚ}
    (h : ValuedOn In s value) : ValuedOn In' s value := ⟨h.names, h.keys, fun q hq => h.gives q (hs q hq), h.fills⟩

theorem alike_divides {In : Boundary → Prop} {zs : List (Source S C × Source S C)} (h : ∀ z ∈ zs, AlikeOn In z.1 z.2) {q : Boundary} (hq : In q) :
    Divides ownVerdict (zs.map Prod.fst) q ↔ Divides ownVerdict (zs.map Prod.snd) q := by
  have key : ∀ z ∈ zs, ∀ c, c ∈ z.2.conds ↔ c ∈ z.1.conds := by
    intro z hz c
    rw [(h z hz).conds]
  constructor
  · rintro ⟨h1, s, hs, c, hc, hv⟩
    obtain ⟨z, hz, rfl⟩ := List.mem_map.1 hs
    refine ⟨?_, z.2, List.mem_map_of_mem hz, c, (key z hz c).2 hc, by rw [(h z hz).own hq hc]; exact hv⟩
    intro t ht c hc
    obtain ⟨y, hy, rfl⟩ := List.mem_map.1 ht
    rw [(h y hy).own hq ((key y hy c).1 hc)]
    exact h1 y.1 (List.mem_map_of_mem hy) c ((key y hy c).1 hc)
  · rintro ⟨h1, s, hs, c, hc, hv⟩
    obtain ⟨z, hz, rfl⟩ := List.mem_map.1 hs
    refine ⟨?_, z.1, List.mem_map_of_mem hz, c, (key z hz c).1 hc, by rw [← (h z hz).own hq ((key z hz c).1 hc)]; exact hv⟩
    intro t ht c hc
    obtain ⟨y, hy, rfl⟩ := List.mem_map.1 ht
    rw [← (h y hy).own hq hc]
    exact h1 y.2 (List.mem_map_of_mem hy) c ((key y hy c).2 hc)

/-- A mesh over a region that does not cross the antimeridian: its cells and their data. -/
theorem plain_built {b : Boundary} {W H : ℚ} {full : List (Source S C)} {value : Source S C → Boundary → String → Option ℚ}
    (hf : ∀ s ∈ full, Faithful b s (ownVerdict s)) (hv : ∀ s ∈ full, Valued b s (value s)) (hid : (full.map (fun s => s.loader.id)).Nodup)
    (config : MeshConfig) (hp : ProperGrid b W H) (hcr : b.longMin < b.longMax) (hh : b.latMin < b.latMax)
    (hcol : b.longMin = -180 ∧ b.longMax = 180 → W ≤ 180) (hacc : MeshBuilder.validateBounds b W H = .ok ()) (depth : ℕ) :
    ∃ m0, MeshBuilder.init b W H (fun q => trimSources q full) depth = .ok m0 ∧ ∃ N em,
      (∀ fuel, N ≤ fuel → MeshBuilder.buildEnvironmentalMesh (sourceOps S C) aggregate fuel config m0 = .ok em) ∧
      (∀ q, (∃ c ∈ em.cells, c.bounds = q) ↔
        ∃ k, byTurns quarters (Divides ownVerdict) depth [] full (fun k q => k = 0 ∧ GridBox b W H q) k q) ∧
      ∀ c ∈ em.cells, DataOf value full (GridBox b W H) c := by
  obtain ⟨m0, h0, N, em, -, -, hb, -, h4⟩ := faithful_plain hf hv hid config hp hcr hh hcol hacc depth
  have hcol' : b.width = 360 → W ≤ 180 := by
    intro h
    rw [width_of_lt hcr] at h
    obtain ⟨-, v1, v2, v3, v4, -⟩ := hp.valid
    exact hcol ⟨by linarith, by linarith⟩
  refine ⟨m0, h0, N, em, hb, fun q => ?_, h4⟩
  exact turns_built (In := Inner b) hf (fun q hq => hq.1) (inner_system hp hcr hacc) hp hh hcol'
    hacc h0 hb q

/-- The mesh over a block of cells, from sources that are alike there, is the part of the mesh that lies in the block. -/
theorem block_built {b b' : Boundary} {W H : ℚ} {zs : List (Source S C × Source S C)} {value : Source S C → Boundary → String → Option ℚ}
    (hf : ∀ z ∈ zs, Faithful b z.1 (ownVerdict z.1)) (hv : ∀ z ∈ zs, Valued b z.1 (value z.1)) (ha : ∀ z ∈ zs, AlikeOn (Inner b') z.1 z.2)
    (hid : (zs.map (fun z => z.1.loader.id)).Nodup)
    (config config' : MeshConfig) (hp : ProperGrid b W H) (hcr : b.longMin < b.longMax) (hh : b.latMin < b.latMax)
    (hcol : b.longMin = -180 ∧ b.longMax = 180 → W ≤ 180) (hacc : MeshBuilder.validateBounds b W H = .ok ()) (hb : Block b W H b') (depth : ℕ) :
    ∃ m0 m0', MeshBuilder.init b W H (fun q => trimSources q (zs.map Prod.fst)) depth = .ok m0 ∧
      MeshBuilder.init b' W H (fun q => trimSources q (zs.map Prod.snd)) depth = .ok m0' ∧ ∃ N em em',
      (∀ fuel, N ≤ fuel → MeshBuilder.buildEnvironmentalMesh (sourceOps S C) aggregate fuel config m0 = .ok em ∧
        MeshBuilder.buildEnvironmentalMesh (sourceOps S C) aggregate fuel config' m0' = .ok em') ∧
      (∀ q, (∃ c ∈ em'.cells, c.bounds = q) ↔ (∃ c ∈ em.cells, c.bounds = q) ∧ Enclosed q b') ∧
      ∀ c ∈ em.cells, ∀ c' ∈ em'.cells, c.bounds = c'.bounds → ∀ n, c.data.get? n = c'.data.get? n := by
  obtain ⟨hp', hcr', hh', ht, henc, hacc'⟩ := block_proper hp hb
  have hin : ∀ q, Inner b' q → Inner b q := fun q hq => hq.trans (block_inner hp hcr hb)
  have hf1 : ∀ s ∈ zs.map Prod.fst, Faithful b s (ownVerdict s) := by
    intro s hs
    obtain ⟨z, hz, rfl⟩ := List.mem_map.1 hs
    exact hf z hz
  have hv1 : ∀ s ∈ zs.map Prod.fst, Valued b s (value s) := by
    intro s hs
    obtain ⟨z, hz, rfl⟩ := List.mem_map.1 hs
    exact hv z hz
  have hf2 : ∀ s ∈ zs.map Prod.snd, Faithful b' s (ownVerdict s) := by
    intro s hs
    obtain ⟨z, hz, rfl⟩ := List.mem_map.1 hs
    exact Faithful.own ((ha z hz).faithful ((hf z hz).mono hin))
  have hex : ∀ s : Source S C, ∃ v, s ∈ zs.map Prod.snd → Valued b' s v := by
    intro s
    by_cases hs : s ∈ zs.map Prod.snd
    · obtain ⟨z, hz, rfl⟩ := List.mem_map.1 hs
      exact ⟨_, fun _ => (ha z hz).valued ((hv z hz).mono hin)⟩
    · exact ⟨fun _ _ => none, fun h => absurd h hs⟩
  choose value' hv2 using hex
  have hid1 : ((zs.map Prod.fst).map (fun s => s.loader.id)).Nodup := by rw [List.map_map]; exact hid
  have hid2 : ((zs.map Prod.snd).map (fun s => s.loader.id)).Nodup := by
    rw [List.map_map]
    have : zs.map ((fun s : Source S C => s.loader.id) ∘ Prod.snd) = zs.map (fun z => z.1.loader.id) :=
      List.map_congr_left (fun z hz => (ha z hz).id)
    rw [this]
    exact hid
  have hcol2 : b'.longMin = -180 ∧ b'.longMax = 180 → W ≤ 180 := by
    rintro ⟨e1, e2⟩
    obtain ⟨k1, k2, -, -⟩ := henc
    obtain ⟨-, v1, v2, v3, v4, -⟩ := hp.valid
    exact hcol ⟨by linarith, by linarith⟩
  obtain ⟨m0, h0, N, em, hbuild, hcells, hdata⟩ := plain_built hf1 hv1 hid1 config hp hcr hh hcol hacc depth
  obtain ⟨m0', h0', N', em', hbuild', hcells', hdata'⟩ := plain_built hf2 hv2 hid2 config' hp' hcr' hh' hcol2 hacc' depth
  refine ⟨m0, m0', h0, h0', max N N', em, em', fun fuel hfuel => ⟨hbuild fuel (by omega), hbuild' fuel (by omega)⟩, ?_, ?_⟩
  · intro q
    have key := byTurns_restrict (wants := Divides (ownVerdict (S := S) (C := C))) (sd := depth) (parts := quarters)
      (In := fun q => ∃ t, Lineage (GridBox b W H) (q :: t)) (P := fun q => Enclosed q b')
      (by rintro p q ⟨t, h⟩ hq; exact ⟨p :: t, .quarter h hq⟩)
      (by
        rintro p q ⟨t, h⟩ hq
        obtain ⟨a1, a2⟩ := lineage_pos hp.wpos hp.hpos h
        have hqp := quarter_enclosed a1 a2 hq
        constructor
        · exact fun h => hqp.trans h
        · intro he
          obtain ⟨g, hg, hpg⟩ := lineage_root hp.wpos hp.hpos h p t rfl
          obtain ⟨b1, b2⟩ := lineage_pos hp.wpos hp.hpos (.quarter h hq)
          exact hpg.trans (block_meet hp hb hg (hqp.trans hpg) he b1 b2))
      (zs.map Prod.fst) [] (fun k q => k = 0 ∧ GridBox b W H q) (fun k q => k = 0 ∧ GridBox b' W H q)
      (by rintro k q ⟨-, hq⟩; exact ⟨[], .root hq⟩)
      (by intro k q; rw [block_grid hp hb, and_assoc])
    have swap : byTurns quarters (Divides ownVerdict) depth [] (zs.map Prod.snd) (fun k q => k = 0 ∧ GridBox b' W H q) =
        byTurns quarters (Divides ownVerdict) depth [] (zs.map Prod.fst) (fun k q => k = 0 ∧ GridBox b' W H q) := by
      have e1 := byTurns_map (f := Prod.snd) (parts := quarters) (wants := Divides (ownVerdict (S := S) (C := C))) (sd := depth) zs []
        (fun k q => k = 0 ∧ GridBox b' W H q)
      have e2 := byTurns_map (f := Prod.fst) (parts := quarters) (wants := Divides (ownVerdict (S := S) (C := C))) (sd := depth) zs []
        (fun k q => k = 0 ∧ GridBox b' W H q)
      rw [List.map_nil] at e1 e2
      rw [e1, e2]
      refine byTurns_congr (In := Inner b') (fun p q hp hq => (inner_quarter hp hq).trans hp) zs [] _
        (fun k q h => gridBox_proper hp' hcr' h.2) ?_
      intro l hl q hq
      exact (alike_divides (fun z hz => ha z (by simpa using hl z hz)) hq).symm
    rw [hcells', hcells, swap]
    constructor
    · rintro ⟨k, hk⟩
      obtain ⟨h1, h2⟩ := (key k q).1 hk
      exact ⟨⟨k, h1⟩, h2⟩
    · rintro ⟨⟨k, h1⟩, h2⟩
      exact ⟨k, (key k q).2 ⟨h1, h2⟩⟩
  · intro c hc c' hc' e n
    refine DataOf.same hp.wpos hp.hpos (fun q hq => ((block_grid hp hb q).1 hq).1) (fun z hz => ⟨(ha z hz).name.symm, (ha z hz).fill.symm⟩) ?_
      (hdata c hc) (hdata' c' hc') e n
    intro t hl p hpm z hz n hn
    have hpi := lineage_inner hp' hcr' hl p hpm
    rw [← (ha z hz).name] at hn
    exact valued_unique ((ha z hz).valued ((hv z hz).mono hin)) (hv2 z.2 (List.mem_map_of_mem hz)) hpi hn

/-! ## Other depths -/

theorem below_enclosed {p : Boundary} (h1 : p.longMin < p.longMax) (h2 : p.latMin < p.latMax) {l : List Boundary} (h : LineageBy quarters (· = p) l) :
    ∀ q t, l = q :: t → Enclosed q p ∧ q.longMin < q.longMax ∧ q.latMin < q.latMax := by
  induction h with
  | root hq => intro q t e; cases e; subst hq; exact ⟨.refl _, h1, h2⟩
  | @quarter q r t _ hq ih =>
    intro q' t' e
    cases e
    obtain ⟨k1, k2, k3⟩ := ih r t rfl
    refine ⟨(quarter_enclosed k2 k3 hq).trans k1, ?_⟩
    simp only [quarters, List.mem_cons, List.not_mem_nil, or_false] at hq
    rcases hq with rfl | rfl | rfl | rfl <;> constructor <;> simp only <;> linarith

theorem power_lt {W : ℚ} (hW : 0 < W) {k d : ℕ} : W / 2 ^ d < W / 2 ^ k ↔ k < d := by
  rw [div_lt_div_iff_of_pos_left hW (by positivity) (by positivity)]
  exact pow_lt_pow_iff_right₀ (by norm_num)

/-- Limiting the depth only cuts off. -/
theorem depth_built {b : Boundary} {W H : ℚ} {full : List (Source S C)} {value : Source S C → Boundary → String → Option ℚ}
    (hf : ∀ s ∈ full, Faithful b s (ownVerdict s)) (hv : ∀ s ∈ full, Valued b s (value s)) (hid : (full.map (fun s => s.loader.id)).Nodup)
    (config config' : MeshConfig) (hp : ProperGrid b W H) (hcr : b.longMin < b.longMax) (hh : b.latMin < b.latMax)
    (hcol : b.longMin = -180 ∧ b.longMax = 180 → W ≤ 180) (hacc : MeshBuilder.validateBounds b W H = .ok ()) {d d' : ℕ} (hd : d ≤ d') :
    ∃ m0 m0', MeshBuilder.init b W H (fun q => trimSources q full) d = .ok m0 ∧
      MeshBuilder.init b W H (fun q => trimSources q full) d' = .ok m0' ∧ ∃ N em em',
      (∀ fuel, N ≤ fuel → MeshBuilder.buildEnvironmentalMesh (sourceOps S C) aggregate fuel config m0 = .ok em ∧
        MeshBuilder.buildEnvironmentalMesh (sourceOps S C) aggregate fuel config' m0' = .ok em') ∧
      (∀ q, W / 2 ^ d < q.longMax - q.longMin → ((∃ c ∈ em.cells, c.bounds = q) ↔ ∃ c ∈ em'.cells, c.bounds = q)) ∧
      (∀ c' ∈ em'.cells, ∃ c ∈ em.cells, Enclosed c'.bounds c.bounds) ∧
      (∀ c ∈ em.cells, ∃ c' ∈ em'.cells, Enclosed c'.bounds c.bounds) ∧
      (∀ c' ∈ em'.cells, W / 2 ^ d ≤ c'.bounds.longMax - c'.bounds.longMin → ∃ c ∈ em.cells, c.bounds = c'.bounds) ∧
      ∀ c ∈ em.cells, ∀ c' ∈ em'.cells, c.bounds = c'.bounds → ∀ n, c.data.get? n = c'.data.get? n := by
  obtain ⟨m0, h0, N, em, hbuild, hcells, hdata⟩ := plain_built hf hv hid config hp hcr hh hcol hacc d
  obtain ⟨m0', h0', N', em', hbuild', hcells', hdata'⟩ := plain_built hf hv hid config' hp hcr hh hcol hacc d'
  have hW := hp.wpos
  have hlin : ∀ {sd k q}, byTurns quarters (Divides ownVerdict) sd [] full (fun k q => k = 0 ∧ GridBox b W H q) k q →
      ∃ t, Lineage (GridBox b W H) (q :: t) ∧ t.length = k := by
    intro sd k q h
    obtain ⟨t, h1, h2, -⟩ := byTurns_lineage (start := GridBox b W H) full [] _ (by
      rintro k q ⟨rfl, hq⟩
      exact ⟨[], .root hq, rfl, by simp⟩) k q h
    exact ⟨t, h1, h2⟩
  have hsize : ∀ {sd k q}, byTurns quarters (Divides ownVerdict) sd [] full (fun k q => k = 0 ∧ GridBox b W H q) k q →
      q.longMax - q.longMin = W / 2 ^ k := by
    intro sd k q h
    obtain ⟨t, h1, rfl⟩ := hlin h
    exact (lineage_size h1 q t rfl).1
  obtain ⟨hA, hB, hC⟩ := byTurns_depths (parts := quarters) (wants := Divides (ownVerdict (S := S) (C := C))) hd (by intro p; simp [quarters])
    full [] (fun k q => k = 0 ∧ GridBox b W H q) (fun k q => k = 0 ∧ GridBox b W H q) (fun _ _ _ => Iff.rfl)
    (by
      rintro k q ⟨rfl, hq⟩ hk
      have : d = 0 := by omega
      subst this
      exact ⟨q, ⟨rfl, hq⟩, [], .root rfl, rfl⟩)
    (by
      rintro p ⟨rfl, hq⟩
      exact ⟨0, p, ⟨rfl, hq⟩, [], .root rfl, rfl⟩)
  refine ⟨m0, m0', h0, h0', max N N', em, em', fun fuel hfuel => ⟨hbuild fuel (by omega), hbuild' fuel (by omega)⟩, ?_, ?_, ?_, ?_, ?_⟩
  · intro q hq
    rw [hcells, hcells']
    constructor
    · rintro ⟨k, hk⟩
      rw [hsize hk, power_lt hW] at hq
      exact ⟨k, (hA k q hq).1 hk⟩
    · rintro ⟨k, hk⟩
      rw [hsize hk, power_lt hW] at hq
      exact ⟨k, (hA k q hq).2 hk⟩
  · intro c' hc'
    obtain ⟨k, hk⟩ := (hcells' _).1 ⟨c', hc', rfl⟩
    rcases Nat.lt_or_ge k d with hlt | hge
    · obtain ⟨c, hc, e⟩ := (hcells _).2 ⟨k, (hA k _ hlt).2 hk⟩
      exact ⟨c, hc, by rw [e]; exact .refl _⟩
    · obtain ⟨p, h1, t, h2, -⟩ := hB k _ hk hge
      obtain ⟨c, hc, e⟩ := (hcells _).2 ⟨d, h1⟩
      obtain ⟨u, hu, -⟩ := hlin h1
      obtain ⟨a1, a2⟩ := lineage_pos hp.wpos hp.hpos hu
      exact ⟨c, hc, by rw [e]; exact (below_enclosed a1 a2 h2 _ _ rfl).1⟩
  · intro c hc
    obtain ⟨k, hk⟩ := (hcells _).1 ⟨c, hc, rfl⟩
    have hkd : k ≤ d := byTurns_depth full [] _ (by rintro k q ⟨rfl, -⟩; exact Nat.zero_le _) _ _ hk
    rcases Nat.lt_or_ge k d with hlt | hge
    · obtain ⟨c', hc', e⟩ := (hcells' _).2 ⟨k, (hA k _ hlt).1 hk⟩
      exact ⟨c', hc', by rw [e]; exact .refl _⟩
    · obtain rfl : k = d := by omega
      obtain ⟨j, q, h1, t, h2, -⟩ := hC _ hk
      obtain ⟨c', hc', e⟩ := (hcells' _).2 ⟨j, h1⟩
      obtain ⟨u, hu, -⟩ := hlin hk
      obtain ⟨a1, a2⟩ := lineage_pos hp.wpos hp.hpos hu
      exact ⟨c', hc', by rw [e]; exact (below_enclosed a1 a2 h2 _ _ rfl).1⟩
  · intro c' hc' hw
    obtain ⟨k, hk⟩ := (hcells' _).1 ⟨c', hc', rfl⟩
    rw [hsize hk] at hw
    have hkd : k ≤ d := by
      by_contra hlt
      push Not at hlt
      exact absurd ((power_lt hW).2 hlt) (not_lt.2 hw)
    rw [hcells]
    rcases Nat.lt_or_ge k d with hlt | hge
    · exact ⟨k, (hA k _ hlt).2 hk⟩
    · obtain ⟨p, h1, t, h2, h3⟩ := hB k _ hk hge
      have : t = [] := by
        rw [← List.length_eq_zero_iff]; omega
      subst this
      cases h2 with
      | root e => subst e; exact ⟨d, h1⟩
  · intro c hc c' hc' e n
    have hm : ∀ {f : Source S C × Source S C → Source S C}, (∀ s, f (s, s) = s) → (full.map (fun s => (s, s))).map f = full := by
      intro f hf
      rw [List.map_map]
      conv_rhs => rw [← List.map_id full]
      exact List.map_congr_left (fun s _ => hf s)
    refine DataOf.same (zs := full.map (fun s => (s, s))) (start := GridBox b W H) (value := value) (value' := value) hp.wpos hp.hpos (fun q hq => hq)
      ?_ ?_ ?_ ?_ e n
    · intro z hz
      obtain ⟨s, -, rfl⟩ := List.mem_map.1 hz
      exact ⟨rfl, rfl⟩
    · intro t _ p _ z hz n _
      obtain ⟨s, -, rfl⟩ := List.mem_map.1 hz
      rfl
    · rw [hm (fun _ => rfl)]; exact hdata c hc
    · rw [hm (fun _ => rfl)]; exact hdata' c' hc'

/-! ## Other lists of sources -/

/-- Sources with the name `n` in the same order give the same values, whatever else there is. -/
theorem DataOf.others {value : Source S C → Boundary → String → Option ℚ} {full full' : List (Source S C)} {b : Boundary} {W H : ℚ}
    (hW : 0 < W) (hH : 0 < H) {c c' : AggCell} (h : DataOf value full (GridBox b W H) c) (h' : DataOf value full' (GridBox b W H) c')
    (e : c.bounds = c'.bounds) {n : String} (hn : full.filter (fun s => decide (n ∈ splitName s.loader.dataName)) =
      full'.filter (fun s => decide (n ∈ splitName s.loader.dataName))) : c.data.get? n = c'.data.get? n := by
  obtain ⟨anc, h1, w, h2, h3⟩ := h
  obtain ⟨anc', h1', w', h2', h3'⟩ := h'
  rw [← e] at h1' h2'
  obtain rfl := lineage_unique hW hH h1 h1'
  have hmem : ∀ s, (s ∈ full ∧ n ∈ splitName s.loader.dataName) ↔ (s ∈ full' ∧ n ∈ splitName s.loader.dataName) := by
    intro s
    have : s ∈ full.filter (fun s => decide (n ∈ splitName s.loader.dataName)) ↔ s ∈ full'.filter (fun s => decide (n ∈ splitName s.loader.dataName)) := by
      rw [hn]
    simpa [List.mem_filter] using this
  by_cases hx : ∃ s ∈ full, n ∈ splitName s.loader.dataName
  · obtain ⟨s, hs, hsn⟩ := hx
    obtain ⟨v, k1, k2⟩ := (h3 n).2 ⟨s, hs, hsn⟩
    obtain ⟨v', k1', k2'⟩ := (h3' n).2 ⟨s, ((hmem s).1 ⟨hs, hsn⟩).1, hsn⟩
    rw [k1, k1']
    rw [hn] at k2
    have : v = v' := by
      refine Merged.unique (fun _ _ => Iff.rfl) ?_ k2 k2'
      intro t ht
      rw [List.mem_filter, decide_eq_true_iff] at ht
      exact (h2 t ((hmem t).2 ht).1 n ht.2).unique (h2' t ht.1 n ht.2)
    rw [this]
  · have hx' : ¬ ∃ s ∈ full', n ∈ splitName s.loader.dataName := by
      rintro ⟨s, hs⟩
      exact hx ⟨s, (hmem s).2 hs⟩
    push Not at hx hx'
    rw [(h3 n).1 hx, (h3' n).1 hx']

end Verif
