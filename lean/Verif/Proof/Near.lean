import Verif.Proof.Related

/-!
# Meshes from sources whose values are related

Like `Proof/Related.lean`, for a relation between values in place of a function.
-/

namespace Verif
open Spec

/-- A relation between values that may be missing: missing is related to missing only. -/
structure Matches (R : Option ℚ → Option ℚ → Prop) : Prop where
  refl : ∀ a, R a a
  none_iff : ∀ a a', R a a' → (a = none ↔ a' = none)

theorem isFirst_near {R : Option ℚ → Option ℚ → Prop} (hR : Matches R) {l l' : List (Option ℚ)} {v v' : Option ℚ} (hl : List.Forall₂ R l l')
    (h : IsFirst l v) (h' : IsFirst l' v') : R v v' := by
  rw [h.eq, h'.eq]
  clear h h'
  induction hl with
  | nil => exact hR.refl _
  | @cons a a' l l' ha _ ih =>
    have := hR.none_iff _ _ ha
    cases a with
    | none =>
      rw [this.1 rfl]
      simpa using ih
    | some x =>
      cases a' with
      | none => simp at this
      | some y => simpa using ha

theorem forall₂_maps {α : Type} {R : Option ℚ → Option ℚ → Prop} {f g : α → Option ℚ} : ∀ l : List α, (∀ x ∈ l, R (f x) (g x)) →
    List.Forall₂ R (l.map f) (l.map g)
  | [], _ => .nil
  | x :: l, h => .cons (h x (by simp)) (forall₂_maps l (fun y hy => h y (by simp [hy])))

theorem Spec.Merged.near {σ : Type} {R : Option ℚ → Option ℚ → Prop} (hR : Matches R) {overrules overrules' : σ → Prop} {w w' : σ → Option ℚ}
    {l : List σ} {v v' : Option ℚ} (ho : ∀ s ∈ l, (overrules s ↔ overrules' s)) (hw : ∀ s ∈ l, R (w s) (w' s)) (h : Merged overrules w l v)
    (h' : Merged overrules' w' l v') : R v v' := by
  rcases h with ⟨h1, h2⟩ | ⟨pre, s, post, e, h1, h2, h3⟩ <;> rcases h' with ⟨h1', h2'⟩ | ⟨pre', s', post', e', h1', h2', h3'⟩
  · exact isFirst_near hR (forall₂_maps _ hw) h2 h2'
  · have hs : s' ∈ l := by rw [e']; simp
    exact absurd ((ho s' hs).2 h1') (h1 s' hs)
  · have hs : s ∈ l := by rw [e]; simp
    exact absurd ((ho s hs).1 h1) (h1' s hs)
  · have hs : s :: post = s' :: post' := by
      have m1 : s ∈ l := by rw [e]; simp
      have m2 : s' ∈ l := by rw [e']; simp
      have e2 : pre ++ s :: post = pre' ++ s' :: post' := by rw [← e, e']
      rcases List.append_eq_append_iff.1 e2 with ⟨a, ha, hb⟩ | ⟨a, ha, hb⟩
      · cases a with
        | nil => simpa using hb
        | cons u a =>
          rw [List.cons_append, List.cons.injEq] at hb
          exact absurd ((ho s' m2).2 h1') (h2 s' (by rw [hb.2]; simp))
      · cases a with
        | nil => simpa using hb.symm
        | cons u a =>
          rw [List.cons_append, List.cons.injEq] at hb
          exact absurd ((ho s m1).1 h1) (h2' s (by rw [hb.2]; simp))
    rw [← hs] at h3'
    exact isFirst_near hR (forall₂_maps _ (fun t ht => hw t (by rw [e]; exact List.mem_append_right _ ht))) h3 h3'

theorem filled_near {R : Option ℚ → Option ℚ → Prop} (hR : Matches R) {value value' : Boundary → Option ℚ} {fill : Fill} {q : Boundary}
    {t : List Boundary} {v v' : Option ℚ} (hr : ∀ p ∈ q :: t, R (value p) (value' p)) (h : Filled value fill q t v)
    (h' : Filled value' fill q t v') : R v v' := by
  cases fill with
  | parent => exact isFirst_near hR (.cons (hr q (by simp)) (forall₂_maps _ (fun p hp => hr p (by simp [hp])))) h h'
  | const x =>
    cases x with
    | num x => exact isFirst_near hR (.cons (hr q (by simp)) (.cons (hR.refl _) .nil)) h h'
    | str x => exact h.elim

variable {S C : Type}

/-- Dictionary entries that are related: both absent, or both numbers or missing, and related so. -/
def Spec.EntryNear (R : Option ℚ → Option ℚ → Prop) (e e' : Option Val) : Prop :=
  (e = none ∧ e' = none) ∨ ∃ v v', e = some (.num v) ∧ e' = some (.num v') ∧ R v v'

theorem DataAlong.near {R : Option ℚ → Option ℚ → Prop} (hR : Matches R) {value value' : Source S C → Boundary → String → Option ℚ}
    {zs : List (Source S C × Source S C)} {c c' : AggCell} {t : List Boundary}
    (hz : ∀ z ∈ zs, z.2.loader.dataName = z.1.loader.dataName ∧ z.2.fill = z.1.fill) (he : c'.bounds = c.bounds)
    (hval : ∀ z ∈ zs, ∀ n ∈ splitName z.1.loader.dataName, ∀ p ∈ c.bounds :: t, R (value z.1 p n) (value' z.2 p n))
    (h : DataAlong value (zs.map Prod.fst) c t) (h' : DataAlong value' (zs.map Prod.snd) c' t) (n : String) :
    EntryNear R (c.data.get? n) (c'.data.get? n) := by
  obtain ⟨w, h2, h3⟩ := h
  obtain ⟨w', h2', h3'⟩ := h'
  have hn1 : ∀ z ∈ zs, z.1 ∈ zs.map Prod.fst := fun z hz => List.mem_map_of_mem hz
  have hn2 : ∀ z ∈ zs, z.2 ∈ zs.map Prod.snd := fun z hz => List.mem_map_of_mem hz
  by_cases hn : ∃ z ∈ zs, n ∈ splitName z.1.loader.dataName
  · obtain ⟨z, hzm, hzn⟩ := hn
    obtain ⟨v, k1, k2⟩ := (h3 n).2 ⟨z.1, hn1 z hzm, hzn⟩
    obtain ⟨v', k1', k2'⟩ := (h3' n).2 ⟨z.2, hn2 z hzm, by rw [(hz z hzm).1]; exact hzn⟩
    rw [k1, k1']
    have hfil : ∀ z ∈ zs, ((fun s : Source S C => decide (n ∈ splitName s.loader.dataName)) ∘ Prod.snd) z =
        ((fun s : Source S C => decide (n ∈ splitName s.loader.dataName)) ∘ Prod.fst) z := by
      intro z hm
      simp only [Function.comp_apply, (hz z hm).1]
    rw [List.filter_map] at k2 k2'
    rw [List.filter_congr hfil] at k2'
    refine Or.inr ⟨v, v', rfl, rfl, Merged.near hR ?_ ?_ k2.map k2'.map⟩
    · intro z hm
      rw [(hz z (List.mem_filter.1 hm).1).1]
    · intro z hm
      obtain ⟨hm, hd⟩ := List.mem_filter.1 hm
      simp only [Function.comp_apply, decide_eq_true_iff] at hd
      have f1 := h2 z.1 (hn1 z hm) n hd
      have f2 := h2' z.2 (hn2 z hm) n (by rw [(hz z hm).1]; exact hd)
      rw [he, (hz z hm).2] at f2
      exact filled_near hR (hval z hm n hd) f1 f2
  · push Not at hn
    refine Or.inl ⟨(h3 n).1 (by simpa using fun a b h => hn (a, b) h), (h3' n).1 ?_⟩
    intro s hs
    obtain ⟨z, hm, rfl⟩ := List.mem_map.1 hs
    rw [(hz z hm).1]
    exact hn z hm

/-- On a box, two sources agree on where to split, and their values are related. -/
structure NearAt (R : Option ℚ → Option ℚ → Prop) (q : Boundary) (s s' : Source S C) : Prop where
  id : s'.loader.id = s.loader.id
  name : s'.loader.dataName = s.loader.dataName
  fill : s'.fill = s.fill
  het : (∃ c ∈ s'.conds, ownVerdict s' q c = .het) ↔ ∃ c ∈ s.conds, ownVerdict s q c = .het
  free : (∀ c ∈ s'.conds, ownVerdict s' q c = .clr ∨ ownVerdict s' q c = .het) ↔ ∀ c ∈ s.conds, ownVerdict s q c = .clr ∨ ownVerdict s q c = .het
  value : ∀ D D', s.loader.getValue q (s.loader.trim q s.subset) = .ok D → s'.loader.getValue q (s'.loader.trim q s'.subset) = .ok D' →
    ∀ n ∈ splitName s.loader.dataName, EntryNear R (D.get? n) (D'.get? n)

theorem nearAt_divides {R : Option ℚ → Option ℚ → Prop} {zs : List (Source S C × Source S C)} {q : Boundary} (h : ∀ z ∈ zs, NearAt R q z.1 z.2) :
    Divides ownVerdict (zs.map Prod.snd) q ↔ Divides ownVerdict (zs.map Prod.fst) q := by
  unfold Divides Wants
  simp only [List.mem_map, forall_exists_index, and_imp, forall_apply_eq_imp_iff₂]
  apply and_congr
  · exact forall₂_congr (fun z hz => (h z hz).free)
  · constructor
    · rintro ⟨s, ⟨z, hz, rfl⟩, hs⟩
      exact ⟨z.1, ⟨z, hz, rfl⟩, (h z hz).het.1 hs⟩
    · rintro ⟨s, ⟨z, hz, rfl⟩, hs⟩
      exact ⟨z.2, ⟨z, hz, rfl⟩, (h z hz).het.2 hs⟩

theorem nearAt_value {R : Option ℚ → Option ℚ → Prop} {In : Boundary → Prop} {s s' : Source S C} {value value' : Boundary → String → Option ℚ}
    (h : ValuedOn In s value) (h' : ValuedOn In s' value') {q : Boundary} (hq : In q) (ha : NearAt R q s s') {n : String}
    (hn : n ∈ splitName s.loader.dataName) : R (value q n) (value' q n) := by
  obtain ⟨D, h1, h2, -⟩ := h.gives q hq
  obtain ⟨D', h1', h2', -⟩ := h'.gives q hq
  have := ha.value D D' h1 h1' n hn
  rw [h2 n hn, h2' n (by rw [ha.name]; exact hn)] at this
  rcases this with ⟨e, -⟩ | ⟨v, v', e, e', hR⟩
  · cases e
  · cases e; cases e'; exact hR

theorem near_cells {R : Option ℚ → Option ℚ → Prop} (hR : Matches R) {In start : Boundary → Prop} {parts : Boundary → List Boundary} {depth : ℕ}
    {zs : List (Source S C × Source S C)} {value value' : Source S C → Boundary → String → Option ℚ} {cells cells' : List AggCell}
    (h : BuiltFrom In start parts depth (zs.map Prod.fst) value cells) (h' : BuiltFrom In start parts depth (zs.map Prod.snd) value' cells')
    (hfirst : ∀ q, start q → In q) (hparts : ∀ p q, In p → q ∈ parts p → In q)
    (huniq : ∀ q t t', LineageBy parts start (q :: t) → LineageBy parts start (q :: t') → t = t')
    (hm : ∀ q, In q → ∀ z ∈ zs, NearAt R q z.1 z.2) :
    (∀ q, (∃ c ∈ cells', c.bounds = q) ↔ ∃ c ∈ cells, c.bounds = q) ∧
    ∀ c ∈ cells, ∀ c' ∈ cells', c'.bounds = c.bounds → ∀ n, EntryNear R (c.data.get? n) (c'.data.get? n) := by
  constructor
  · intro q
    rw [h.boxes, h'.boxes]
    have e1 := byTurns_map (f := Prod.fst) (parts := parts) (wants := Divides (ownVerdict (S := S) (C := C))) (sd := depth) zs []
      (fun k q => k = 0 ∧ start q)
    have e2 := byTurns_map (f := Prod.snd) (parts := parts) (wants := Divides (ownVerdict (S := S) (C := C))) (sd := depth) zs []
      (fun k q => k = 0 ∧ start q)
    rw [List.map_nil] at e1 e2
    rw [e1, e2, byTurns_congr (In := In) hparts zs [] _ (fun k q hq => hfirst q hq.2) (fun l hl q hq =>
      nearAt_divides (R := R) (fun z hz => hm q hq z (by simpa using hl z hz)))]
  · intro c hc c' hc' e n
    obtain ⟨t, i1, i2, i3⟩ := h.data c hc
    obtain ⟨t', i1', i2', i3'⟩ := h'.data c' hc'
    rw [e] at i1' i2'
    obtain rfl := huniq _ _ _ i2 i2'
    have hb := i1 c.bounds (by simp)
    refine DataAlong.near hR (fun z hz => ⟨(hm _ hb z hz).name, (hm _ hb z hz).fill⟩) e ?_ i3 i3' n
    intro z hz n hn p hp
    exact nearAt_value (h.valued _ (List.mem_map_of_mem hz)) (h'.valued _ (List.mem_map_of_mem hz)) (i1 p hp) (hm p (i1 p hp) z hz) hn

/-- A mesh from any sources that trim, decide and give values on the boxes of a system. -/
theorem built_from {b : Boundary} {W H : ℚ} {In start : Boundary → Prop} {parts : Boundary → List Boundary} {full : List (Source S C)}
    (hf : ∀ s ∈ full, FaithfulOn In s (ownVerdict s)) (hv : ∀ s ∈ full, ∃ value, ValuedOn In s value)
    (hid : (full.map (fun s => s.loader.id)).Nodup) (config : MeshConfig) (hS : BoxSystem b W H In start parts) (hin : ∀ q, In q → ProperBox q)
    (hp : ProperGrid b W H) (hh : b.latMin < b.latMax) (hcol : b.width = 360 → W ≤ 180)
    (hacc : MeshBuilder.validateBounds b W H = .ok ()) (depth : ℕ) :
    ∃ m0, MeshBuilder.init b W H (fun q => trimSources q full) depth = .ok m0 ∧ ∃ N em value,
      (∀ fuel, N ≤ fuel → MeshBuilder.buildEnvironmentalMesh (sourceOps S C) aggregate fuel config m0 = .ok em) ∧
      BuiltFrom In start parts depth full value em.cells := by
  have hex : ∀ s : Source S C, ∃ value : Boundary → String → Option ℚ, s ∈ full → ValuedOn In s value := by
    intro s
    by_cases hs : s ∈ full
    · obtain ⟨v, hv⟩ := hv s hs
      exact ⟨v, fun _ => hv⟩
    · exact ⟨fun _ _ => none, fun h => absurd h hs⟩
  choose value hvalue using hex
  obtain ⟨m0, h0, N, em, h3, -, h4⟩ := faithful_values hf hvalue hid config hS hp hh hcol hacc depth
  refine ⟨m0, h0, N, em, value, h3, hvalue, turns_built hf hin hS hp hh hcol hacc h0 h3, fun c hc => ?_⟩
  obtain ⟨anc, ha, hrest⟩ := h4 c hc
  refine ⟨anc, ?_, ha, hrest⟩
  clear hrest
  generalize c.bounds :: anc = l at ha
  induction ha with
  | root hq => intro q hm; rw [List.mem_singleton] at hm; subst hm; exact hS.first _ hq
  | @quarter q p t _ hq ih =>
    intro r hr
    rcases List.mem_cons.1 hr with rfl | hr
    · exact (hS.within _ _ (ih p (by simp)) hq).1
    · exact ih r hr

end Verif
