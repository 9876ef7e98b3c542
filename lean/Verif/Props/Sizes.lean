import Verif.Props.Looser

/-!
# C122: starting with smaller cells

A mesh that starts from smaller cells and divides less often, against one that starts from larger cells.
-/

namespace Verif
open Spec

/-! ## Lines of boxes -/

/-- Every box that comes about by dividing lies below one of those that it started from. -/
theorem divided_lineage {parts : Boundary → List Boundary} {wants : Boundary → Prop} {sd : ℕ} {Y : ℕ → Boundary → Prop} {k : ℕ} {r : Boundary}
    (h : DividedFrom parts wants sd Y k r) : ∃ j y u, Y j y ∧ LineageBy parts (· = y) (r :: u) ∧ j + u.length = k := by
  induction h with
  | @cell k q hq => exact ⟨k, q, [], hq, .root rfl, rfl⟩
  | @quarter k q q' _ _ _ hq ih =>
    obtain ⟨j, y, u, h1, h2, h3⟩ := ih
    exact ⟨j, y, q :: u, h1, .quarter h2 hq, by simp only [List.length_cons]; omega⟩

/-- Going down a line, either all is divided, or some box is left. -/
theorem walk_down {parts : Boundary → List Boundary} {wants : Boundary → Prop} {sd : ℕ} {X : ℕ → Boundary → Prop} {j : ℕ} {p : Boundary} (hX : X j p)
    {l : List Boundary} (h : LineageBy parts (· = p) l) : ∀ r u, l = r :: u → DividedFrom parts wants sd X (j + u.length) r ∨
      ∃ i s v, turn parts wants sd X i s ∧ LineageBy parts (· = s) (r :: v) ∧ i + v.length = j + u.length := by
  induction h with
  | root e => intro r u e'; cases e'; subst e; exact Or.inl (.cell hX)
  | @quarter q r t _ hq ih =>
    intro r' u e
    cases e
    rcases ih _ _ rfl with h | ⟨i, s, v, h1, h2, h3⟩
    · by_cases hw : j + t.length < sd ∧ wants r
      · refine Or.inl ?_
        rw [List.length_cons, ← Nat.add_assoc]
        exact .quarter h hw.1 hw.2 hq
      · refine Or.inr ⟨_, r, [r], ⟨h, ?_⟩, .quarter (.root rfl) hq, by simp only [List.length_cons, List.length_nil]; omega⟩
        by_cases hk : j + t.length < sd
        · exact Or.inr (fun hx => hw ⟨hk, hx⟩)
        · exact Or.inl (by omega)
    · exact Or.inr ⟨i, s, r :: v, h1, .quarter h2 hq, by simp only [List.length_cons]; omega⟩

/-- Dividing by turns from boxes that lie `e` steps below others leaves boxes that lie below what is left of those. -/
theorem byTurns_finer {σ : Type} {parts : Boundary → List Boundary} {wants : List σ → Boundary → Prop} {sd e : ℕ} :
    ∀ (rest before : List σ) (X Y : ℕ → Boundary → Prop),
      (∀ k q, Y k q → ∃ j p t, X j p ∧ LineageBy parts (· = p) (q :: t) ∧ j + t.length = k + e) →
      ∀ k q, byTurns parts wants sd before rest Y k q →
        ∃ j p t, byTurns parts wants (sd + e) before rest X j p ∧ LineageBy parts (· = p) (q :: t) ∧ j + t.length = k + e := by
  intro rest
  induction rest with
  | nil => intro before X Y h; exact h
  | cons s rest ih =>
    intro before X Y h k q hq
    refine ih _ _ _ ?_ k q hq
    rintro k r ⟨h1, h2⟩
    obtain ⟨j, y, u, k1, k2, k3⟩ := divided_lineage h1
    obtain ⟨i, p, t, m1, m2, m3⟩ := h j y k1
    have hl := lineage_join k2 m2
    rcases walk_down (wants := wants (before ++ [s])) (sd := sd + e) m1 hl r (u ++ t) rfl with hd | ⟨i', s', v, n1, n2, n3⟩
    · rw [List.length_append] at hd
      exact ⟨_, r, [], ⟨hd, h2.imp (fun h => by omega) id⟩, .root rfl, by simp only [List.length_nil]; omega⟩
    · rw [List.length_append] at n3
      exact ⟨i', s', v, n1, n2, by omega⟩

/-- The same where nothing is locked: going down a line, either all is divided, or some box before is left. -/
theorem refined_down {parts : Boundary → List Boundary} {wants start : Boundary → Prop} {sd : ℕ} {p : Boundary} (hp : start p)
    {l : List Boundary} (h : LineageBy parts (· = p) l) : ∀ r u, l = r :: u → u.length ≤ sd → RefinedBy parts wants start sd u.length r ∨
      ∃ i s v, i < u.length ∧ RefinedBy parts wants start sd i s ∧ ¬ wants s ∧ LineageBy parts (· = s) (r :: v) := by
  induction h with
  | root e => intro r u e' _; cases e'; subst e; exact Or.inl (.start hp)
  | @quarter q r t _ hq ih =>
    intro r' u e hlen
    cases e
    rw [List.length_cons] at hlen
    rcases ih _ _ rfl (by omega) with h | ⟨i, s, v, h0, h1, h2, h3⟩
    · by_cases hw : wants r
      · exact Or.inl (.quarter h (by omega) hw hq)
      · exact Or.inr ⟨_, r, [r], by simp, h, hw, .quarter (.root rfl) hq⟩
    · exact Or.inr ⟨i, s, r :: v, by rw [List.length_cons]; omega, h1, h2, .quarter h3 hq⟩

theorem refined_lineage {parts : Boundary → List Boundary} {wants start : Boundary → Prop} {sd k : ℕ} {q : Boundary}
    (h : RefinedBy parts wants start sd k q) : ∃ t, LineageBy parts start (q :: t) ∧ t.length = k := by
  induction h with
  | start h => exact ⟨[], .root h, rfl⟩
  | quarter _ _ _ hq ih =>
    obtain ⟨t, h1, h2⟩ := ih
    exact ⟨_, .quarter h1 hq, by rw [List.length_cons, h2]⟩

theorem lineage_within {parts : Boundary → List Boundary} {In : Boundary → Prop} (hparts : ∀ p q, In p → q ∈ parts p → In q ∧ Within q p) {p : Boundary}
    (hp : In p) {l : List Boundary} (h : LineageBy parts (· = p) l) : ∀ r u, l = r :: u → In r ∧ Within r p := by
  induction h with
  | root e => intro r u e'; cases e'; subst e; exact ⟨hp, .refl _⟩
  | quarter _ hq ih =>
    intro r u e
    cases e
    obtain ⟨h1, h2⟩ := ih _ _ rfl
    obtain ⟨h3, h4⟩ := hparts _ _ h1 hq
    exact ⟨h3, h4.trans h2⟩

theorem lineage_from {parts : Boundary → List Boundary} {start : Boundary → Prop} {p : Boundary} {t : List Boundary} (hp : LineageBy parts start (p :: t))
    {l : List Boundary} (h : LineageBy parts (· = p) l) : ∀ r u, l = r :: u → LineageBy parts start (r :: u ++ t) := by
  induction h with
  | root e => intro r u e'; cases e'; subst e; exact hp
  | quarter _ hq ih =>
    intro r u e
    cases e
    exact .quarter (ih _ _ rfl) hq

/-! ## Two meshes from the same sources -/

section
variable {S C : Type} {In start start' : Boundary → Prop} {parts : Boundary → List Boundary} {d e : ℕ} {full : List (Source S C)}
  {value value' : Source S C → Boundary → String → Option ℚ} {cells cells' : List AggCell}

/-- The cells that smaller cells to begin with lead to lie in those that larger ones lead to. -/
theorem sized_cells (h : BuiltFrom In start parts (d + e) full value cells) (h' : BuiltFrom In start' parts d full value' cells')
    (hparts : ∀ p q, In p → q ∈ parts p → In q ∧ Within q p)
    (hup : ∀ q, start' q → ∃ p t, start p ∧ LineageBy parts (· = p) (q :: t) ∧ t.length = e) :
    ∀ c' ∈ cells', ∃ c ∈ cells, Within c'.bounds c.bounds := by
  intro c' hc'
  obtain ⟨k, hk⟩ := (h'.boxes _).1 ⟨c', hc', rfl⟩
  obtain ⟨j, p, t, h1, h2, -⟩ := byTurns_finer (e := e) full [] (fun k q => k = 0 ∧ start q) _ (by
    rintro k q ⟨rfl, hq⟩
    obtain ⟨p, t, h1, h2, h3⟩ := hup q hq
    exact ⟨0, p, t, ⟨rfl, h1⟩, h2, by omega⟩) k _ hk
  obtain ⟨c, hc, e1⟩ := (h.boxes _).2 ⟨j, h1⟩
  refine ⟨c, hc, ?_⟩
  have hin : In p := by
    rw [← e1]
    obtain ⟨anc, h3, -⟩ := h.data c hc
    exact h3 _ (by simp)
  rw [e1]
  exact (lineage_within hparts hin h2 _ _ rfl).2

theorem filled_prefix {value : Boundary → Option ℚ} {fill : Fill} {q : Boundary} {t u : List Boundary} {v v' : Option ℚ}
    (h : Filled value fill q (t ++ u) v) (h' : Filled value fill q t v') : v' = v ∨ v' = none ∧ fill = .parent := by
  unfold Filled at h h'
  split at h
  · rw [h.eq, h'.eq, List.map_append, ← List.cons_append, List.filterMap_append]
    cases (value q :: t.map value).filterMap id with
    | nil => exact Or.inr ⟨rfl, rfl⟩
    | cons x l => exact Or.inl rfl
  · rw [h.eq, h'.eq]
    exact Or.inl rfl
  · exact h.elim

/-- Cells with the same box have the same values, but for what only a larger box has a value for. -/
theorem sized_data (h : BuiltFrom In start parts (d + e) full value cells) (h' : BuiltFrom In start' parts d full value' cells')
    (hid : (full.map (fun s => s.loader.id)).Nodup)
    (huniq : ∀ q t t', LineageBy parts start (q :: t) → LineageBy parts start (q :: t') → t = t')
    (hup : ∀ q, start' q → ∃ p t, start p ∧ LineageBy parts (· = p) (q :: t) ∧ t.length = e) {c c' : AggCell} (hc : c ∈ cells) (hc' : c' ∈ cells')
    (eb : c'.bounds = c.bounds) {n : String}
    (hn : ∀ s ∈ full, ∀ t ∈ full, n ∈ splitName s.loader.dataName → n ∈ splitName t.loader.dataName → s.loader.id = t.loader.id) :
    c'.data.get? n = c.data.get? n ∨
      c'.data.get? n = some (.num none) ∧ ∃ s ∈ full, n ∈ splitName s.loader.dataName ∧ s.fill = .parent := by
  obtain ⟨t, i1, i2, w, h2, h3⟩ := h.data c hc
  obtain ⟨t', i1', i2', w', h2', h3'⟩ := h'.data c' hc'
  rw [eb] at i1' i2' h2'
  have hline : ∃ u, LineageBy parts start (c.bounds :: (t' ++ u)) := by
    have key : ∀ {l}, LineageBy parts start' l → ∃ u, LineageBy parts start (l ++ u) := by
      intro l hl
      induction hl with
      | root hq =>
        obtain ⟨p, u, k1, k2, -⟩ := hup _ hq
        have := lineage_from (.root k1) k2 _ _ rfl
        rw [List.append_nil] at this
        exact ⟨u, this⟩
      | quarter _ hq ih =>
        obtain ⟨u, hu⟩ := ih
        exact ⟨u, .quarter hu hq⟩
    exact key i2'
  obtain ⟨u, hu⟩ := hline
  obtain rfl := huniq _ _ _ i2 hu
  by_cases hx : ∃ s ∈ full, n ∈ splitName s.loader.dataName
  · obtain ⟨s, hs, hsn⟩ := hx
    have hsing : full.filter (fun s => decide (n ∈ splitName s.loader.dataName)) = [s] := by
      have hnd : (full.filter (fun s => decide (n ∈ splitName s.loader.dataName))).Nodup := (List.Nodup.of_map _ hid).filter _
      have hall : ∀ x ∈ full.filter (fun s => decide (n ∈ splitName s.loader.dataName)), x = s := by
        intro x hxm
        rw [List.mem_filter, decide_eq_true_iff] at hxm
        exact List.inj_on_of_nodup_map hid hxm.1 hs (hn x hxm.1 s hs hxm.2 hsn)
      have hm : s ∈ full.filter (fun s => decide (n ∈ splitName s.loader.dataName)) := by
        rw [List.mem_filter, decide_eq_true_iff]; exact ⟨hs, hsn⟩
      generalize full.filter (fun s => decide (n ∈ splitName s.loader.dataName)) = l at hnd hall hm
      cases l with
      | nil => cases hm
      | cons x l =>
        cases l with
        | nil => rw [hall x (by simp)]
        | cons y l =>
          rw [hall x (by simp), hall y (by simp)] at hnd
          simp at hnd
    obtain ⟨v, k1, k2⟩ := (h3 n).2 ⟨s, hs, hsn⟩
    obtain ⟨v', k1', k2'⟩ := (h3' n).2 ⟨s, hs, hsn⟩
    rw [hsing] at k2 k2'
    have single : ∀ {ov : Source S C → Prop} {f : Source S C → Option ℚ} {v}, Merged ov f [s] v → v = f s := by
      intro ov f v hm
      have hm' : Merged ov f [s] (f s) := by
        by_cases ho : ov s
        · refine Or.inr ⟨[], s, [], rfl, ho, by simp, ?_⟩
          cases hf : f s with
          | none => exact Or.inr ⟨by simp [hf], rfl⟩
          | some x => exact Or.inl ⟨[], x, [], by simp [hf], by simp, rfl⟩
        · refine Or.inl ⟨by simpa using ho, ?_⟩
          cases hf : f s with
          | none => exact Or.inr ⟨by simp [hf], rfl⟩
          | some x => exact Or.inl ⟨[], x, [], by simp [hf], by simp, rfl⟩
      exact Merged.unique (fun _ _ => Iff.rfl) (fun _ _ => rfl) hm hm'
    have e1 := single k2
    have e2 := single k2'
    have f1 := h2 s hs n hsn
    have f2 := h2' s hs n hsn
    have f2' : Filled (fun q => value s q n) s.fill c.bounds t' (w' s n) := f2.congr (fun p hp => by
      refine valued_unique (h'.valued s hs) (h.valued s hs) (i1' p hp) hsn)
    rw [k1, k1', e1, e2]
    rcases filled_prefix f1 f2' with hv | ⟨hv, hfill⟩
    · exact Or.inl (by rw [hv])
    · exact Or.inr ⟨by rw [hv], s, hs, hsn, hfill⟩
  · push Not at hx
    exact Or.inl (by rw [(h3 n).1 hx, (h3' n).1 hx])

/-- Where nothing is locked: what is small enough is the same, and the rest lies in larger cells. -/
theorem sized_same {wants : Boundary → Prop} {H : ℚ} (hH : 0 < H) (h : RefinedFrom In start parts (d + e) full value wants cells)
    (h' : RefinedFrom In start' parts d full value' wants cells') (hfirst : ∀ q, start q → In q)
    (hparts : ∀ p q, In p → q ∈ parts p → In q ∧ Within q p)
    (hup : ∀ q, start' q → ∃ p t, start p ∧ LineageBy parts (· = p) (q :: t) ∧ t.length = e)
    (hdown : ∀ q t, LineageBy parts start (q :: t) → t.length = e → start' q)
    (hsize : ∀ q t, LineageBy parts start (q :: t) → q.latMax - q.latMin = H / 2 ^ t.length) :
    (∀ c ∈ cells, c.bounds.latMax - c.bounds.latMin ≤ H / 2 ^ e → ∃ c' ∈ cells', c'.bounds = c.bounds) ∧
    ∀ c' ∈ cells', (∃ c ∈ cells, c.bounds = c'.bounds) ∨
      ∃ c ∈ cells, Within c'.bounds c.bounds ∧ H / 2 ^ e < c.bounds.latMax - c.bounds.latMin := by
  constructor
  · intro c hc hs
    obtain ⟨k, hr, hleaf⟩ := (h.boxes _).1 ⟨c, hc, rfl⟩
    obtain ⟨t, ht, hlen⟩ := refined_lineage hr
    rw [hsize _ _ ht, hlen] at hs
    have hke : e ≤ k := by
      by_contra hlt
      exact absurd ((power_lt hH).2 (not_le.1 hlt)) (not_lt.2 hs)
    have key : ∀ {k q}, RefinedBy parts wants start (d + e) k q → e ≤ k → RefinedBy parts wants start' d (k - e) q := by
      intro k q hr
      induction hr with
      | @start q hq =>
        intro hk
        obtain rfl : e = 0 := by omega
        exact .start (hdown q [] (.root hq) rfl)
      | @quarter k q q' hr hk hw hq ih =>
        intro hke
        rcases Nat.eq_or_lt_of_le hke with heq | hlt
        · obtain ⟨t, ht, hlen⟩ := refined_lineage (.quarter hr hk hw hq)
          rw [← heq, Nat.sub_self]
          exact .start (hdown _ t ht (by omega))
        · rw [Nat.succ_sub (by omega)]
          exact .quarter (ih (by omega)) (by omega) hw hq
    exact (h'.boxes _).2 ⟨k - e, key hr hke, hleaf.imp (fun h => by omega) id⟩
  · intro c' hc'
    obtain ⟨k, hr, hleaf⟩ := (h'.boxes _).1 ⟨c', hc', rfl⟩
    have hk : k ≤ d := by
      cases hr with
      | start _ => exact Nat.zero_le _
      | quarter _ hk _ _ => exact hk
    have key : ∀ {k q}, RefinedBy parts wants start' d k q → In q ∧ (RefinedBy parts wants start (d + e) (k + e) q ∨
        ∃ c ∈ cells, Within q c.bounds ∧ H / 2 ^ e < c.bounds.latMax - c.bounds.latMin) := by
      intro k q hr
      induction hr with
      | @start q hq =>
        obtain ⟨p, t, h1, h2, h3⟩ := hup q hq
        have hin := lineage_within hparts (hfirst p h1) h2 _ _ rfl
        refine ⟨hin.1, ?_⟩
        rcases refined_down (wants := wants) (start := start) (sd := d + e) h1 h2 q t rfl (by omega) with hd | ⟨i, s, v, k0, k1, k2, k3⟩
        · rw [h3] at hd
          rw [Nat.zero_add]
          exact Or.inl hd
        · obtain ⟨c, hc, ec⟩ := (h.boxes _).2 ⟨i, k1, Or.inr k2⟩
          obtain ⟨u, hu, hlen⟩ := refined_lineage k1
          have hins : In s := by
            rw [← ec]
            obtain ⟨anc, h3, -⟩ := h.data c hc
            exact h3 _ (by simp)
          refine Or.inr ⟨c, hc, ?_, ?_⟩
          · rw [ec]
            exact (lineage_within hparts hins k3 _ _ rfl).2
          · rw [ec, hsize _ _ hu, hlen, power_lt hH]
            omega
      | @quarter k q q' _ hk hw hq ih =>
        obtain ⟨hi, ih⟩ := ih
        obtain ⟨hi', hwi⟩ := hparts _ _ hi hq
        refine ⟨hi', ?_⟩
        rcases ih with ih | ⟨c, h1, h2, h3⟩
        · refine Or.inl ?_
          rw [Nat.add_right_comm]
          exact .quarter ih (by omega) hw hq
        · exact Or.inr ⟨c, h1, hwi.trans h2, h3⟩
    rcases (key hr).2 with h1 | h1
    · exact Or.inl ((h.boxes _).2 ⟨k + e, h1, hleaf.imp (fun h => by omega) id⟩)
    · exact Or.inr h1

end

/-! ## Grids of smaller cells -/

theorem quarters_of_step {b p : Boundary} {W H : ℚ} {i j : ℕ}
    (hp : p = ⟨b.latMin + j * H, b.latMin + j * H + H, b.longMin + i * W, b.longMin + i * W + W, b.time⟩) (q : Boundary) :
    q ∈ quarters p ↔ ∃ i' j' : ℕ, i' / 2 = i ∧ j' / 2 = j ∧
      q = ⟨b.latMin + j' * (H / 2), b.latMin + j' * (H / 2) + H / 2, b.longMin + i' * (W / 2), b.longMin + i' * (W / 2) + W / 2, b.time⟩ := by
  subst hp
  simp only [quarters, List.mem_cons, List.not_mem_nil, or_false]
  constructor
  · rintro (rfl | rfl | rfl | rfl)
    · refine ⟨2 * i, 2 * j + 1, by omega, by omega, ?_⟩
      push_cast; simp only [Boundary.mk.injEq]; refine ⟨by ring, by ring, by ring, by ring, trivial⟩
    · refine ⟨2 * i + 1, 2 * j + 1, by omega, by omega, ?_⟩
      push_cast; simp only [Boundary.mk.injEq]; refine ⟨by ring, by ring, by ring, by ring, trivial⟩
    · refine ⟨2 * i, 2 * j, by omega, by omega, ?_⟩
      push_cast; simp only [Boundary.mk.injEq]; refine ⟨by ring, by ring, by ring, by ring, trivial⟩
    · refine ⟨2 * i + 1, 2 * j, by omega, by omega, ?_⟩
      push_cast; simp only [Boundary.mk.injEq]; refine ⟨by ring, by ring, by ring, by ring, trivial⟩
  · rintro ⟨i', j', h1, h2, rfl⟩
    rcases Nat.mod_two_eq_zero_or_one i' with hi | hi <;> rcases Nat.mod_two_eq_zero_or_one j' with hj | hj
    · obtain rfl : i' = 2 * i := by omega
      obtain rfl : j' = 2 * j := by omega
      refine Or.inr (Or.inr (Or.inl ?_))
      push_cast; simp only [Boundary.mk.injEq]; refine ⟨by ring, by ring, by ring, by ring, trivial⟩
    · obtain rfl : i' = 2 * i := by omega
      obtain rfl : j' = 2 * j + 1 := by omega
      refine Or.inl ?_
      push_cast; simp only [Boundary.mk.injEq]; refine ⟨by ring, by ring, by ring, by ring, trivial⟩
    · obtain rfl : i' = 2 * i + 1 := by omega
      obtain rfl : j' = 2 * j := by omega
      refine Or.inr (Or.inr (Or.inr ?_))
      push_cast; simp only [Boundary.mk.injEq]; refine ⟨by ring, by ring, by ring, by ring, trivial⟩
    · obtain rfl : i' = 2 * i + 1 := by omega
      obtain rfl : j' = 2 * j + 1 := by omega
      refine Or.inr (Or.inl ?_)
      push_cast; simp only [Boundary.mk.injEq]; refine ⟨by ring, by ring, by ring, by ring, trivial⟩

/-- The region is covered by whole cells. -/
def WholeCells (b : Boundary) (W H : ℚ) : Prop := ∃ nx ny : ℕ, b.longMax = b.longMin + nx * W ∧ b.latMax = b.latMin + ny * H

theorem WholeCells.half {b : Boundary} {W H : ℚ} (h : WholeCells b W H) : WholeCells b (W / 2) (H / 2) := by
  obtain ⟨nx, ny, h1, h2⟩ := h
  exact ⟨2 * nx, 2 * ny, by push_cast; rw [h1]; ring, by push_cast; rw [h2]; ring⟩

theorem step_le {a W : ℚ} (hW : 0 < W) {i n : ℕ} : a + i * W + W ≤ a + n * W ↔ i < n := by
  constructor
  · intro h
    have : ((i + 1 : ℕ) : ℚ) ≤ n := by
      push_cast
      by_contra hlt
      push Not at hlt
      nlinarith
    exact_mod_cast this
  · intro h
    have : ((i + 1 : ℕ) : ℚ) ≤ n := by exact_mod_cast h
    push_cast at this
    nlinarith

/-- The boxes of the grid of half the size are the quarters of those of the grid. -/
theorem gridBox_half {b : Boundary} {W H : ℚ} (hW : 0 < W) (hH : 0 < H) (hb : WholeCells b W H) (q : Boundary) :
    GridBox b (W / 2) (H / 2) q ↔ ∃ p, GridBox b W H p ∧ q ∈ quarters p := by
  obtain ⟨nx, ny, e1, e2⟩ := hb
  have e1' : b.longMax = b.longMin + (2 * nx : ℕ) * (W / 2) := by push_cast; rw [e1]; ring
  have e2' : b.latMax = b.latMin + (2 * ny : ℕ) * (H / 2) := by push_cast; rw [e2]; ring
  have c1 : ∀ i : ℕ, b.longMin + i * W + W ≤ b.longMax ↔ i < nx := fun i => by rw [e1]; exact step_le hW
  have c2 : ∀ j : ℕ, b.latMin + j * H + H ≤ b.latMax ↔ j < ny := fun j => by rw [e2]; exact step_le hH
  have c1' : ∀ i : ℕ, b.longMin + i * (W / 2) + W / 2 ≤ b.longMax ↔ i < 2 * nx := fun i => by rw [e1']; exact step_le (by linarith)
  have c2' : ∀ j : ℕ, b.latMin + j * (H / 2) + H / 2 ≤ b.latMax ↔ j < 2 * ny := fun j => by rw [e2']; exact step_le (by linarith)
  constructor
  · rintro ⟨i, j, rfl, h1, h2⟩
    simp only at h1 h2
    rw [c1'] at h2
    rw [c2'] at h1
    refine ⟨_, ⟨i / 2, j / 2, rfl, ?_, ?_⟩, (quarters_of_step rfl _).2 ⟨i, j, rfl, rfl, rfl⟩⟩
    · simp only; rw [c2]; omega
    · simp only; rw [c1]; omega
  · rintro ⟨p, ⟨i, j, ep, h1, h2⟩, hq⟩
    obtain ⟨i', j', k1, k2, rfl⟩ := (quarters_of_step ep q).1 hq
    rw [ep] at h1 h2
    simp only at h1 h2
    rw [c1] at h2
    rw [c2] at h1
    refine ⟨i', j', rfl, ?_, ?_⟩
    · simp only; rw [c2']; omega
    · simp only; rw [c1']; omega

theorem gridBox_power {b : Boundary} {W H : ℚ} (hW : 0 < W) (hH : 0 < H) (hb : WholeCells b W H) (e : ℕ) :
    (∀ q, GridBox b (W / 2 ^ e) (H / 2 ^ e) q → ∃ p t, GridBox b W H p ∧ LineageBy quarters (· = p) (q :: t) ∧ t.length = e) ∧
    (∀ q t, Lineage (GridBox b W H) (q :: t) → t.length = e → GridBox b (W / 2 ^ e) (H / 2 ^ e) q) ∧ WholeCells b (W / 2 ^ e) (H / 2 ^ e) := by
  induction e with
  | zero =>
    simp only [pow_zero, div_one]
    refine ⟨fun q hq => ⟨q, [], hq, .root rfl, rfl⟩, fun q t h hl => ?_, hb⟩
    obtain rfl : t = [] := List.length_eq_zero_iff.1 hl
    cases h with
    | root h => exact h
  | succ e ih =>
    obtain ⟨ih1, ih2, ih3⟩ := ih
    have hW' : 0 < W / 2 ^ e := by positivity
    have hH' : 0 < H / 2 ^ e := by positivity
    have eW : W / 2 ^ (e + 1) = W / 2 ^ e / 2 := by rw [pow_succ]; field_simp
    have eH : H / 2 ^ (e + 1) = H / 2 ^ e / 2 := by rw [pow_succ]; field_simp
    rw [eW, eH]
    refine ⟨fun q hq => ?_, fun q t h hl => ?_, ih3.half⟩
    · obtain ⟨r, hr, hqr⟩ := (gridBox_half hW' hH' ih3 q).1 hq
      obtain ⟨p, t, h1, h2, h3⟩ := ih1 r hr
      exact ⟨p, r :: t, h1, .quarter h2 hqr, by rw [List.length_cons, h3]⟩
    · cases h with
      | root h => cases hl
      | @quarter _ p t h hq =>
        rw [List.length_cons] at hl
        exact (gridBox_half hW' hH' ih3 q).2 ⟨p, ih2 p t h (by omega), hq⟩

theorem turnGrid_power {b : Boundary} {W H : ℚ} (hu : Unwraps b) (hW : 0 < W) (hH : 0 < H) (hs : W < 360) (hb : WholeCells (flatOf b) W H) (e : ℕ) :
    (∀ q, TurnGridBox b (W / 2 ^ e) (H / 2 ^ e) q → ∃ p t, TurnGridBox b W H p ∧ LineageBy turnQuarters (· = p) (q :: t) ∧ t.length = e) ∧
    (∀ q t, LineageBy turnQuarters (TurnGridBox b W H) (q :: t) → t.length = e → TurnGridBox b (W / 2 ^ e) (H / 2 ^ e) q) ∧
    ∀ q t, LineageBy turnQuarters (TurnGridBox b W H) (q :: t) → q.latMax - q.latMin = H / 2 ^ t.length := by
  obtain ⟨g1, g2, -⟩ := gridBox_power hW hH hb e
  refine ⟨fun q hq => ?_, fun q t h hl => ?_, fun q t h => ?_⟩
  · obtain ⟨q0, k1, rfl⟩ := (turnGridBox_iff q).1 hq
    obtain ⟨p, t, h1, h2, h3⟩ := g1 q0 k1
    have key : ∀ {l}, LineageBy quarters (· = p) l → ∀ r u, l = r :: u → Flat b r ∧ LineageBy turnQuarters (· = turnBox p) ((r :: u).map turnBox) := by
      intro l hl
      induction hl with
      | root e' => intro r u e''; cases e''; subst e'; exact ⟨gridBox_flat hW hH hs h1, .root rfl⟩
      | @quarter q p' t' _ hq ih =>
        intro r u e'
        cases e'
        obtain ⟨f, hl⟩ := ih _ _ rfl
        refine ⟨quarter_flat f hq, ?_⟩
        rw [List.map_cons] at hl ⊢
        refine .quarter hl ?_
        rw [turnQuarters_box hu f]
        exact List.mem_map_of_mem hq
    exact ⟨turnBox p, t.map turnBox, (turnGridBox_iff _).2 ⟨p, h1, rfl⟩, (key h2 _ _ rfl).2, by rw [List.length_map, h3]⟩
  · obtain ⟨l0, k1, k2⟩ := lineage_unwrap hu hW hH hs h
    cases l0 with
    | nil => cases k2
    | cons q0 t0 =>
      simp only [List.map_cons, List.cons.injEq] at k2
      obtain ⟨rfl, rfl⟩ := k2
      rw [List.length_map] at hl
      exact (turnGridBox_iff _).2 ⟨q0, g2 q0 t0 k1 hl, rfl⟩
  · obtain ⟨l0, k1, k2⟩ := lineage_unwrap hu hW hH hs h
    cases l0 with
    | nil => cases k2
    | cons q0 t0 =>
      simp only [List.map_cons, List.cons.injEq] at k2
      obtain ⟨rfl, rfl⟩ := k2
      rw [List.length_map]
      exact (lineage_size k1 _ _ rfl).2

/-- Regions that can be covered by cells can be covered by smaller ones. -/
theorem smaller_grid {b : Boundary} {W H : ℚ} (hp : ProperGrid b W H) (hacc : MeshBuilder.validateBounds b W H = .ok ()) (e : ℕ) :
    ProperGrid b (W / 2 ^ e) (H / 2 ^ e) ∧ MeshBuilder.validateBounds b (W / 2 ^ e) (H / 2 ^ e) = .ok () ∧ WholeCells (flatOf b) W H ∧
      (W ≤ 180 → W / 2 ^ e ≤ 180) := by
  obtain ⟨nx, ny, hnx0, hnx, hny⟩ := hp.fits hacc
  have hpos := (C04_geometry_partial b hp.valid hp.nondeg).1
  have hW := hp.wpos
  have hH := hp.hpos
  have e1 : b.width = (nx * 2 ^ e : ℕ) * (W / 2 ^ e) := by push_cast; rw [hnx]; field_simp
  have e2 : b.height = (ny * 2 ^ e : ℕ) * (H / 2 ^ e) := by push_cast; rw [hny]; field_simp
  have hW' : 0 < W / 2 ^ e := by positivity
  have hH' : 0 < H / 2 ^ e := by positivity
  refine ⟨⟨hp.valid, hp.nondeg, hW', hH', fun _ => ⟨_, e1⟩⟩, validateBounds_ok hW' hH' e1 e2 hpos.1 hpos.2, ⟨nx, ny, ?_, ?_⟩, fun h => ?_⟩
  · have := Boundary.width_eq b
    simp only [flatOf]
    linarith
  · unfold Boundary.height at hny
    simp only [flatOf]
    linarith
  · exact (div_le_self hW.le (one_le_pow₀ (by norm_num))).trans h

/-! ## C122 -/

/-- **C122**, with locks or without: starting with cells 2^e times smaller, and dividing e times less, refines the cells.  Every cell that the smaller
ones lead to lies in one that the larger ones lead to.  Cells that are in both have the same values under a name that only one source has; except that
a value may be missing from the one that the smaller cells lead to, where the source fills gaps from the cells before, as fewer were before. -/
theorem C122_finer {b : Boundary} {W H : ℚ} {full : List (Source AnyData AnyCond)} (hf : ∀ s ∈ full, PlainAny b s)
    (hid : (full.map (fun s => s.loader.id)).Nodup) (config config' : MeshConfig) (hp : ProperGrid b W H) (hcr : b.longMin < b.longMax)
    (hh : b.latMin < b.latMax) (hcol : b.longMin = -180 ∧ b.longMax = 180 → W ≤ 180)
    (hacc : MeshBuilder.validateBounds b W H = .ok ()) (depth e : ℕ) :
    ∃ m0 m0', MeshBuilder.init b W H (fun q => trimSources q full) (depth + e) = .ok m0 ∧
      MeshBuilder.init b (W / 2 ^ e) (H / 2 ^ e) (fun q => trimSources q full) depth = .ok m0' ∧ ∃ N em em',
      (∀ fuel, N ≤ fuel → MeshBuilder.buildEnvironmentalMesh (sourceOps AnyData AnyCond) aggregate fuel config m0 = .ok em ∧
        MeshBuilder.buildEnvironmentalMesh (sourceOps AnyData AnyCond) aggregate fuel config' m0' = .ok em') ∧
      (∀ c' ∈ em'.cells, ∃ c ∈ em.cells, Within c'.bounds c.bounds) ∧
      ∀ c ∈ em.cells, ∀ c' ∈ em'.cells, c'.bounds = c.bounds → ∀ n,
        (∀ s ∈ full, ∀ t ∈ full, n ∈ splitName s.loader.dataName → n ∈ splitName t.loader.dataName → s.loader.id = t.loader.id) →
        c'.data.get? n = c.data.get? n ∨
          c'.data.get? n = some (.num none) ∧ ∃ s ∈ full, n ∈ splitName s.loader.dataName ∧ s.fill = .parent := by
  obtain ⟨hp', hacc', hwc, h180⟩ := smaller_grid hp hacc e
  have efl : flatOf b = b := by unfold flatOf eastEdge; rw [if_pos hcr]
  rw [efl] at hwc
  obtain ⟨m0, h0, N, em, value, hb, hB⟩ := plain_from hf hid config hp hcr hh hcol hacc (depth + e)
  obtain ⟨m0', h0', N', em', value', hb', hB'⟩ := plain_from hf hid config' hp' hcr hh (fun h => h180 (hcol h)) hacc' depth
  have hS := inner_system hp hcr hacc
  obtain ⟨g1, -, -⟩ := gridBox_power hp.wpos hp.hpos hwc e
  exact ⟨m0, m0', h0, h0', max N N', em, em', fun fuel hfuel => ⟨hb fuel (by omega), hb' fuel (by omega)⟩,
    sized_cells hB hB' (fun p q h1 h2 => hS.within p q h1 h2) g1, fun c hc c' hc' eb n hn =>
      sized_data hB hB' hid (fun q t t' => lineage_unique hp.wpos hp.hpos) g1 hc hc' eb hn⟩

/-- **C122**, where nothing is locked: the larger cells lead to the same cells as the smaller ones, as far as these are as small; the other cells that the
smaller ones lead to lie in cells that are larger. -/
theorem C122_same {b : Boundary} {W H : ℚ} {full : List (Source AnyData AnyCond)} (hf : ∀ s ∈ full, PlainAny b s)
    (hid : (full.map (fun s => s.loader.id)).Nodup) (hlock : ∀ s ∈ full, Unlocked s) (config config' : MeshConfig) (hp : ProperGrid b W H)
    (hcr : b.longMin < b.longMax) (hh : b.latMin < b.latMax) (hcol : b.longMin = -180 ∧ b.longMax = 180 → W ≤ 180)
    (hacc : MeshBuilder.validateBounds b W H = .ok ()) (depth e : ℕ) :
    ∃ m0 m0', MeshBuilder.init b W H (fun q => trimSources q full) (depth + e) = .ok m0 ∧
      MeshBuilder.init b (W / 2 ^ e) (H / 2 ^ e) (fun q => trimSources q full) depth = .ok m0' ∧ ∃ N em em',
      (∀ fuel, N ≤ fuel → MeshBuilder.buildEnvironmentalMesh (sourceOps AnyData AnyCond) aggregate fuel config m0 = .ok em ∧
        MeshBuilder.buildEnvironmentalMesh (sourceOps AnyData AnyCond) aggregate fuel config' m0' = .ok em') ∧
      (∀ c ∈ em.cells, c.bounds.latMax - c.bounds.latMin ≤ H / 2 ^ e → ∃ c' ∈ em'.cells, c'.bounds = c.bounds) ∧
      ∀ c' ∈ em'.cells, (∃ c ∈ em.cells, c.bounds = c'.bounds) ∨
        ∃ c ∈ em.cells, Within c'.bounds c.bounds ∧ H / 2 ^ e < c.bounds.latMax - c.bounds.latMin := by
  obtain ⟨hp', hacc', hwc, h180⟩ := smaller_grid hp hacc e
  have efl : flatOf b = b := by unfold flatOf eastEdge; rw [if_pos hcr]
  rw [efl] at hwc
  obtain ⟨m0, h0, N, em, value, hb, hB⟩ := plain_refined hf hid hlock config hp hcr hh hcol hacc (depth + e)
  obtain ⟨m0', h0', N', em', value', hb', hB'⟩ := plain_refined hf hid hlock config' hp' hcr hh (fun h => h180 (hcol h)) hacc' depth
  have hS := inner_system hp hcr hacc
  obtain ⟨g1, g2, -⟩ := gridBox_power hp.wpos hp.hpos hwc e
  exact ⟨m0, m0', h0, h0', max N N', em, em', fun fuel hfuel => ⟨hb fuel (by omega), hb' fuel (by omega)⟩,
    sized_same hp.hpos hB hB' hS.first (fun p q h1 h2 => hS.within p q h1 h2) g1 g2 (fun q t h => (lineage_size h q t rfl).2)⟩

/-- **C122**, gridded data, where the region may cross the antimeridian, with locks or without. -/
theorem C122_around {b : Boundary} {W H : ℚ} {full : List (Source AnyData AnyCond)} (hf : ∀ s ∈ full, AroundAny b s)
    (hid : (full.map (fun s => s.loader.id)).Nodup) (config config' : MeshConfig) (hp : ProperGrid b W H)
    (hh : b.latMin < b.latMax) (hcol : b.width = 360 → W ≤ 180) (hacc : MeshBuilder.validateBounds b W H = .ok ()) (depth e : ℕ) :
    ∃ m0 m0', MeshBuilder.init b W H (fun q => trimSources q full) (depth + e) = .ok m0 ∧
      MeshBuilder.init b (W / 2 ^ e) (H / 2 ^ e) (fun q => trimSources q full) depth = .ok m0' ∧ ∃ N em em',
      (∀ fuel, N ≤ fuel → MeshBuilder.buildEnvironmentalMesh (sourceOps AnyData AnyCond) aggregate fuel config m0 = .ok em ∧
        MeshBuilder.buildEnvironmentalMesh (sourceOps AnyData AnyCond) aggregate fuel config' m0' = .ok em') ∧
      (∀ c' ∈ em'.cells, ∃ c ∈ em.cells, Within c'.bounds c.bounds) ∧
      ∀ c ∈ em.cells, ∀ c' ∈ em'.cells, c'.bounds = c.bounds → ∀ n,
        (∀ s ∈ full, ∀ t ∈ full, n ∈ splitName s.loader.dataName → n ∈ splitName t.loader.dataName → s.loader.id = t.loader.id) →
        c'.data.get? n = c.data.get? n ∨
          c'.data.get? n = some (.num none) ∧ ∃ s ∈ full, n ∈ splitName s.loader.dataName ∧ s.fill = .parent := by
  obtain ⟨hp', hacc', hwc, h180⟩ := smaller_grid hp hacc e
  have hs := cell_small hp hcol hacc
  obtain ⟨m0, h0, N, em, value, hb, hB⟩ := around_from hf hid config hp hh hcol hacc (depth + e)
  obtain ⟨m0', h0', N', em', value', hb', hB'⟩ := around_from hf hid config' hp' hh (fun h => h180 (hcol h)) hacc' depth
  have hS := around_system hp hcol hacc
  obtain ⟨g1, -, -⟩ := turnGrid_power (unwraps_of hp) hp.wpos hp.hpos hs hwc e
  exact ⟨m0, m0', h0, h0', max N N', em, em', fun fuel hfuel => ⟨hb fuel (by omega), hb' fuel (by omega)⟩,
    sized_cells hB hB' (fun p q h1 h2 => hS.within p q h1 h2) g1, fun c hc c' hc' eb n hn =>
      sized_data hB hB' hid (fun q t t' => around_unique (unwraps_of hp) hp.wpos hp.hpos hs) g1 hc hc' eb hn⟩

/-- **C122**, gridded data, where the region may cross the antimeridian and nothing is locked. -/
theorem C122_around_same {b : Boundary} {W H : ℚ} {full : List (Source AnyData AnyCond)} (hf : ∀ s ∈ full, AroundAny b s)
    (hid : (full.map (fun s => s.loader.id)).Nodup) (hlock : ∀ s ∈ full, Unlocked s) (config config' : MeshConfig) (hp : ProperGrid b W H)
    (hh : b.latMin < b.latMax) (hcol : b.width = 360 → W ≤ 180) (hacc : MeshBuilder.validateBounds b W H = .ok ()) (depth e : ℕ) :
    ∃ m0 m0', MeshBuilder.init b W H (fun q => trimSources q full) (depth + e) = .ok m0 ∧
      MeshBuilder.init b (W / 2 ^ e) (H / 2 ^ e) (fun q => trimSources q full) depth = .ok m0' ∧ ∃ N em em',
      (∀ fuel, N ≤ fuel → MeshBuilder.buildEnvironmentalMesh (sourceOps AnyData AnyCond) aggregate fuel config m0 = .ok em ∧
        MeshBuilder.buildEnvironmentalMesh (sourceOps AnyData AnyCond) aggregate fuel config' m0' = .ok em') ∧
      (∀ c ∈ em.cells, c.bounds.latMax - c.bounds.latMin ≤ H / 2 ^ e → ∃ c' ∈ em'.cells, c'.bounds = c.bounds) ∧
      ∀ c' ∈ em'.cells, (∃ c ∈ em.cells, c.bounds = c'.bounds) ∨
        ∃ c ∈ em.cells, Within c'.bounds c.bounds ∧ H / 2 ^ e < c.bounds.latMax - c.bounds.latMin := by
  obtain ⟨hp', hacc', hwc, h180⟩ := smaller_grid hp hacc e
  have hs := cell_small hp hcol hacc
  obtain ⟨m0, h0, N, em, value, hb, hB⟩ := around_refined hf hid hlock config hp hh hcol hacc (depth + e)
  obtain ⟨m0', h0', N', em', value', hb', hB'⟩ := around_refined hf hid hlock config' hp' hh (fun h => h180 (hcol h)) hacc' depth
  have hS := around_system hp hcol hacc
  obtain ⟨g1, g2, g3⟩ := turnGrid_power (unwraps_of hp) hp.wpos hp.hpos hs hwc e
  exact ⟨m0, m0', h0, h0', max N N', em, em', fun fuel hfuel => ⟨hb fuel (by omega), hb' fuel (by omega)⟩,
    sized_same hp.hpos hB hB' hS.first (fun p q h1 h2 => hS.within p q h1 h2) g1 g2 g3⟩

/-! ## Examples -/

/-- The hypotheses of C122 hold: the sources of C110, from cells of 10 by 5 degrees with a depth of 3 and from cells of 2.5 by 1.25 with a depth of 1. -/
example : ∃ m0 m0', MeshBuilder.init exRegion 10 5 (fun q => trimSources q exMixed) 3 = .ok m0 ∧
    MeshBuilder.init exRegion (10 / 2 ^ 2) (5 / 2 ^ 2) (fun q => trimSources q exMixed) 1 = .ok m0' ∧ ∃ N em em',
    (∀ fuel, N ≤ fuel → MeshBuilder.buildEnvironmentalMesh (sourceOps AnyData AnyCond) aggregate fuel exConfig m0 = .ok em ∧
      MeshBuilder.buildEnvironmentalMesh (sourceOps AnyData AnyCond) aggregate fuel exConfig m0' = .ok em') ∧
    (∀ c ∈ em.cells, c.bounds.latMax - c.bounds.latMin ≤ 5 / 2 ^ 2 → ∃ c' ∈ em'.cells, c'.bounds = c.bounds) ∧
    ∀ c' ∈ em'.cells, (∃ c ∈ em.cells, c.bounds = c'.bounds) ∨
      ∃ c ∈ em.cells, Within c'.bounds c.bounds ∧ 5 / 2 ^ 2 < c.bounds.latMax - c.bounds.latMin :=
  C122_same exMixed_plain.1 exMixed_plain.2.1 exMixed_plain.2.2 exConfig exConfig exRegion_proper
    (by norm_num [exRegion]) (by norm_num [exRegion]) (by norm_num [exRegion]) (by decide +kernel) 1 2

/-- The same with what holds of the values, under the name `a`, which only one of them has. -/
example : ∃ m0 m0', MeshBuilder.init exRegion 10 5 (fun q => trimSources q exMixed) 2 = .ok m0 ∧
    MeshBuilder.init exRegion (10 / 2 ^ 1) (5 / 2 ^ 1) (fun q => trimSources q exMixed) 1 = .ok m0' ∧ ∃ N em em',
    (∀ fuel, N ≤ fuel → MeshBuilder.buildEnvironmentalMesh (sourceOps AnyData AnyCond) aggregate fuel exConfig m0 = .ok em ∧
      MeshBuilder.buildEnvironmentalMesh (sourceOps AnyData AnyCond) aggregate fuel exConfig m0' = .ok em') ∧
    (∀ c' ∈ em'.cells, ∃ c ∈ em.cells, Within c'.bounds c.bounds) ∧
    ∀ c ∈ em.cells, ∀ c' ∈ em'.cells, c'.bounds = c.bounds → c'.data.get? "a" = c.data.get? "a" ∨ c'.data.get? "a" = some (.num none) := by
  obtain ⟨m0, m0', h0, h0', N, em, em', hb, hc, hd⟩ := C122_finer exMixed_plain.1 exMixed_plain.2.1 exConfig exConfig exRegion_proper
    (by norm_num [exRegion]) (by norm_num [exRegion]) (by norm_num [exRegion]) (by decide +kernel) 1 1
  exact ⟨m0, m0', h0, h0', N, em, em', hb, hc, fun c h1 c' h2 e => (hd c h1 c' h2 e "a" (by decide +kernel)).imp id And.left⟩

/-- The hypotheses of C122 hold over the antimeridian: the sources of C113. -/
example : ∃ m0 m0', MeshBuilder.init exAroundRegion 10 10 (fun q => trimSources q exAround) 2 = .ok m0 ∧
    MeshBuilder.init exAroundRegion (10 / 2 ^ 1) (10 / 2 ^ 1) (fun q => trimSources q exAround) 1 = .ok m0' ∧ ∃ N em em',
    (∀ fuel, N ≤ fuel → MeshBuilder.buildEnvironmentalMesh (sourceOps AnyData AnyCond) aggregate fuel exConfig m0 = .ok em ∧
      MeshBuilder.buildEnvironmentalMesh (sourceOps AnyData AnyCond) aggregate fuel exConfig m0' = .ok em') ∧
    (∀ c ∈ em.cells, c.bounds.latMax - c.bounds.latMin ≤ 10 / 2 ^ 1 → ∃ c' ∈ em'.cells, c'.bounds = c.bounds) ∧
    ∀ c' ∈ em'.cells, (∃ c ∈ em.cells, c.bounds = c'.bounds) ∨
      ∃ c ∈ em.cells, Within c'.bounds c.bounds ∧ 10 / 2 ^ 1 < c.bounds.latMax - c.bounds.latMin :=
  have hw : exAroundRegion.width ≠ 360 := by decide +kernel
  C122_around_same exAround_all.1 exAround_all.2.1 exAround_all.2.2 exConfig exConfig exAroundRegion_proper
    (by norm_num [exAroundRegion]) (fun h => absurd h hw) (by decide +kernel) 1 1

end Verif
