import Verif.Props.Turned

/-!
# Meshes from sources whose values are mapped

Two lists of sources that agree on where to split, and whose values are those of the other mapped by a function for each name, give the
same cells, with mapped values.
-/

namespace Verif
open Spec

/-- A dictionary entry with a function applied to the number. -/
def Spec.valueIn (g : ℚ → ℚ) : Val → Val
  | .num v => .num (v.map g)
  | .str t => .str t

/-- A way of filling with a function applied to the number. -/
def Spec.fillIn (g : ℚ → ℚ) : Fill → Fill
  | .parent => .parent
  | .const v => .const (valueIn g v)

theorem Spec.IsFirst.mapped {g : ℚ → ℚ} {l : List (Option ℚ)} {v : Option ℚ} (h : IsFirst l v) : IsFirst (l.map (Option.map g)) (v.map g) := by
  rcases h with ⟨pre, x, post, rfl, h2, rfl⟩ | ⟨h1, rfl⟩
  · refine Or.inl ⟨pre.map (Option.map g), g x, post.map (Option.map g), by simp, ?_, rfl⟩
    intro y hy
    obtain ⟨y0, hy0, rfl⟩ := List.mem_map.1 hy
    rw [h2 y0 hy0]; rfl
  · refine Or.inr ⟨?_, rfl⟩
    intro y hy
    obtain ⟨y0, hy0, rfl⟩ := List.mem_map.1 hy
    rw [h1 y0 hy0]; rfl

theorem Spec.Merged.mapped {σ : Type} {g : ℚ → ℚ} {overrules : σ → Prop} {w : σ → Option ℚ} {l : List σ} {v : Option ℚ} (h : Merged overrules w l v) :
    Merged overrules (fun s => (w s).map g) l (v.map g) := by
  rcases h with ⟨h1, h2⟩ | ⟨pre, s, post, e, h1, h2, h3⟩
  · refine Or.inl ⟨h1, ?_⟩
    have := h2.mapped (g := g)
    rwa [List.map_map] at this
  · refine Or.inr ⟨pre, s, post, e, h1, h2, ?_⟩
    have := h3.mapped (g := g)
    rwa [List.map_map] at this

theorem filled_mapped {g : ℚ → ℚ} {value value' : Boundary → Option ℚ} {fill : Fill} {q : Boundary} {t : List Boundary} {v v' : Option ℚ}
    (hr : ∀ p ∈ q :: t, value' p = (value p).map g) (h : Filled value fill q t v) (h' : Filled value' (fillIn g fill) q t v') : v' = v.map g := by
  have h0 := hr q (by simp)
  have h1 : t.map value' = (t.map value).map (Option.map g) := by
    rw [List.map_map]
    exact List.map_congr_left (fun p hp => hr p (by simp [hp]))
  cases fill with
  | parent =>
    simp only [Filled, fillIn] at h h'
    rw [h0, h1] at h'
    exact h'.unique (h.mapped (g := g))
  | const x =>
    cases x with
    | num x =>
      simp only [Filled, fillIn, valueIn] at h h'
      rw [h0] at h'
      exact h'.unique (h.mapped (g := g))
    | str x => exact h.elim

variable {S C : Type}

theorem DataAlong.mapped {f : String → ℚ → ℚ} {value value' : Source S C → Boundary → String → Option ℚ} {zs : List (Source S C × Source S C)}
    {c c' : AggCell} {t : List Boundary} (hz : ∀ z ∈ zs, z.2.loader.dataName = z.1.loader.dataName ∧
      ∀ n ∈ splitName z.1.loader.dataName, z.2.fill = fillIn (f n) z.1.fill)
    (he : c'.bounds = c.bounds)
    (hval : ∀ z ∈ zs, ∀ n ∈ splitName z.1.loader.dataName, ∀ p ∈ c.bounds :: t, value' z.2 p n = (value z.1 p n).map (f n))
    (h : DataAlong value (zs.map Prod.fst) c t) (h' : DataAlong value' (zs.map Prod.snd) c' t) (n : String) :
    c'.data.get? n = (c.data.get? n).map (valueIn (f n)) := by
  obtain ⟨w, h2, h3⟩ := h
  obtain ⟨w', h2', h3'⟩ := h'
  have hn1 : ∀ z ∈ zs, z.1 ∈ zs.map Prod.fst := fun z hz => List.mem_map_of_mem hz
  have hn2 : ∀ z ∈ zs, z.2 ∈ zs.map Prod.snd := fun z hz => List.mem_map_of_mem hz
  by_cases hn : ∃ z ∈ zs, n ∈ splitName z.1.loader.dataName
  · obtain ⟨z, hzm, hzn⟩ := hn
    obtain ⟨v, k1, k2⟩ := (h3 n).2 ⟨z.1, hn1 z hzm, hzn⟩
    obtain ⟨v', k1', k2'⟩ := (h3' n).2 ⟨z.2, hn2 z hzm, by rw [(hz z hzm).1]; exact hzn⟩
    rw [k1, k1']
    have hfil : ∀ z ∈ zs, ((fun s : Source S C => decide (n ∈ splitName s.loader.dataName)) ∘ Prod.snd) z =
        ((fun s : Source S C => decide (n ∈ splitName s.loader.dataName)) ∘ Prod.fst) z := by
      intro z hm
      simp only [Function.comp_apply, (hz z hm).1]
    rw [List.filter_map] at k2 k2'
    rw [List.filter_congr hfil] at k2'
    have : v' = v.map (f n) := by
      refine Merged.unique ?_ ?_ k2'.map (k2.map.mapped (g := f n))
      · intro z hm
        rw [(hz z (List.mem_filter.1 hm).1).1]
      · intro z hm
        obtain ⟨hm, hd⟩ := List.mem_filter.1 hm
        simp only [Function.comp_apply, decide_eq_true_iff] at hd
        have f1 := h2 z.1 (hn1 z hm) n hd
        have f2 := h2' z.2 (hn2 z hm) n (by rw [(hz z hm).1]; exact hd)
        rw [he, (hz z hm).2 n hd] at f2
        exact filled_mapped (hval z hm n hd) f1 f2
    rw [this]
    rfl
  · push Not at hn
    rw [(h3 n).1 (by simpa using fun a b h => hn (a, b) h), (h3' n).1]
    · rfl
    intro s hs
    obtain ⟨z, hm, rfl⟩ := List.mem_map.1 hs
    rw [(hz z hm).1]
    exact hn z hm

/-- On a box, two sources agree on where to split, and the values of the second are those of the first, mapped. -/
structure MappedAt (f : String → ℚ → ℚ) (q : Boundary) (s s' : Source S C) : Prop where
  id : s'.loader.id = s.loader.id
  name : s'.loader.dataName = s.loader.dataName
  fill : ∀ n ∈ splitName s.loader.dataName, s'.fill = fillIn (f n) s.fill
  het : (∃ c ∈ s'.conds, ownVerdict s' q c = .het) ↔ ∃ c ∈ s.conds, ownVerdict s q c = .het
  free : (∀ c ∈ s'.conds, ownVerdict s' q c = .clr ∨ ownVerdict s' q c = .het) ↔ ∀ c ∈ s.conds, ownVerdict s q c = .clr ∨ ownVerdict s q c = .het
  value : ∀ D D', s.loader.getValue q (s.loader.trim q s.subset) = .ok D → s'.loader.getValue q (s'.loader.trim q s'.subset) = .ok D' →
    ∀ n ∈ splitName s.loader.dataName, D'.get? n = (D.get? n).map (valueIn (f n))

theorem mappedAt_wrap {S' C' : Type} {put : S → S'} {get : S' → Option S} {putC : C → C'} {getC : C' → Option C} (hg : ∀ d, get (put d) = some d)
    (hc : ∀ c, getC (putC c) = some c) {f : String → ℚ → ℚ} {q : Boundary} {s s' : Source S C} (h : MappedAt f q s s') :
    MappedAt f q (s.wrap put get putC getC) (s'.wrap put get putC getC) := by
  have e1 : ∀ (s : Source S C) (P : Verdict → Prop), (∃ c ∈ (s.wrap put get putC getC).conds, P (ownVerdict (s.wrap put get putC getC) q c)) ↔
      ∃ c ∈ s.conds, P (ownVerdict s q c) := by
    intro s P
    constructor
    · rintro ⟨c, hcm, hv⟩
      obtain ⟨c0, hm, rfl⟩ := List.mem_map.1 hcm
      rw [ownVerdict_wrap hg hc] at hv
      exact ⟨c0, hm, hv⟩
    · rintro ⟨c, hcm, hv⟩
      exact ⟨putC c, List.mem_map_of_mem hcm, by rw [ownVerdict_wrap hg hc]; exact hv⟩
  have e2 : ∀ (s : Source S C) (P : Verdict → Prop), (∀ c ∈ (s.wrap put get putC getC).conds, P (ownVerdict (s.wrap put get putC getC) q c)) ↔
      ∀ c ∈ s.conds, P (ownVerdict s q c) := by
    intro s P
    constructor
    · intro k c hcm
      have := k (putC c) (List.mem_map_of_mem hcm)
      rwa [ownVerdict_wrap hg hc] at this
    · intro k c hcm
      obtain ⟨c0, hm, rfl⟩ := List.mem_map.1 hcm
      rw [ownVerdict_wrap hg hc]
      exact k c0 hm
  refine ⟨h.id, h.name, h.fill, ?_, ?_, ?_⟩
  · rw [e1 s' (· = .het), e1 s (· = .het)]; exact h.het
  · rw [e2 s' (fun v => v = .clr ∨ v = .het), e2 s (fun v => v = .clr ∨ v = .het)]; exact h.free
  · simp only [Source.wrap, hg]
    exact h.value

theorem mappedAt_divides {f : String → ℚ → ℚ} {zs : List (Source S C × Source S C)} {q : Boundary} (h : ∀ z ∈ zs, MappedAt f q z.1 z.2) :
    Divides ownVerdict (zs.map Prod.snd) q ↔ Divides ownVerdict (zs.map Prod.fst) q := by
  unfold Divides Wants
  simp only [List.mem_map, forall_exists_index, and_imp, forall_apply_eq_imp_iff₂]
  apply and_congr
  · exact forall₂_congr (fun z hz => (h z hz).free)
  · constructor
    · rintro ⟨s, ⟨z, hz, rfl⟩, hs⟩
      exact ⟨z.1, ⟨z, hz, rfl⟩, (h z hz).het.1 hs⟩
    · rintro ⟨s, ⟨z, hz, rfl⟩, hs⟩
      exact ⟨z.2, ⟨z, hz, rfl⟩, (h z hz).het.2 hs⟩

theorem mappedAt_value {f : String → ℚ → ℚ} {In : Boundary → Prop} {s s' : Source S C} {value value' : Boundary → String → Option ℚ}
    (h : ValuedOn In s value) (h' : ValuedOn In s' value') {q : Boundary} (hq : In q) (ha : MappedAt f q s s') {n : String}
    (hn : n ∈ splitName s.loader.dataName) : value' q n = (value q n).map (f n) := by
  obtain ⟨D, h1, h2, -⟩ := h.gives q hq
  obtain ⟨D', h1', h2', -⟩ := h'.gives q hq
  have := ha.value D D' h1 h1' n hn
  rw [h2 n hn, h2' n (by rw [ha.name]; exact hn)] at this
  simpa [valueIn] using this

/-- What is known of the meshes over a region from sources: which cells there are, and what their data is. -/
structure BuiltFrom (In start : Boundary → Prop) (parts : Boundary → List Boundary) (depth : ℕ) (full : List (Source S C))
    (value : Source S C → Boundary → String → Option ℚ) (cells : List AggCell) : Prop where
  valued : ∀ s ∈ full, ValuedOn In s (value s)
  boxes : ∀ q, (∃ c ∈ cells, c.bounds = q) ↔ ∃ k, byTurns parts (Divides ownVerdict) depth [] full (fun k q => k = 0 ∧ start q) k q
  data : ∀ c ∈ cells, ∃ anc, (∀ q ∈ c.bounds :: anc, In q) ∧ LineageBy parts start (c.bounds :: anc) ∧ DataAlong value full c anc

theorem mapped_cells {In start : Boundary → Prop} {parts : Boundary → List Boundary} {depth : ℕ} {zs : List (Source S C × Source S C)}
    {value value' : Source S C → Boundary → String → Option ℚ} {cells cells' : List AggCell} {f : String → ℚ → ℚ}
    (h : BuiltFrom In start parts depth (zs.map Prod.fst) value cells) (h' : BuiltFrom In start parts depth (zs.map Prod.snd) value' cells')
    (hfirst : ∀ q, start q → In q) (hparts : ∀ p q, In p → q ∈ parts p → In q)
    (huniq : ∀ q t t', LineageBy parts start (q :: t) → LineageBy parts start (q :: t') → t = t')
    (hm : ∀ q, In q → ∀ z ∈ zs, MappedAt f q z.1 z.2) :
    (∀ q, (∃ c ∈ cells', c.bounds = q) ↔ ∃ c ∈ cells, c.bounds = q) ∧
    ∀ c ∈ cells, ∀ c' ∈ cells', c'.bounds = c.bounds → ∀ n, c'.data.get? n = (c.data.get? n).map (valueIn (f n)) := by
  constructor
  · intro q
    rw [h.boxes, h'.boxes]
    have e1 := byTurns_map (f := Prod.fst) (parts := parts) (wants := Divides (ownVerdict (S := S) (C := C))) (sd := depth) zs []
      (fun k q => k = 0 ∧ start q)
    have e2 := byTurns_map (f := Prod.snd) (parts := parts) (wants := Divides (ownVerdict (S := S) (C := C))) (sd := depth) zs []
      (fun k q => k = 0 ∧ start q)
    rw [List.map_nil] at e1 e2
    rw [e1, e2, byTurns_congr (In := In) hparts zs [] _ (fun k q hq => hfirst q hq.2) (fun l hl q hq =>
      mappedAt_divides (f := f) (fun z hz => hm q hq z (by simpa using hl z hz)))]
  · intro c hc c' hc' e n
    obtain ⟨t, i1, i2, i3⟩ := h.data c hc
    obtain ⟨t', i1', i2', i3'⟩ := h'.data c' hc'
    rw [e] at i1' i2'
    obtain rfl := huniq _ _ _ i2 i2'
    have hb := i1 c.bounds (by simp)
    refine DataAlong.mapped (fun z hz => ⟨(hm _ hb z hz).name, (hm _ hb z hz).fill⟩) e ?_ i3 i3' n
    intro z hz n hn p hp
    exact mappedAt_value (h.valued _ (List.mem_map_of_mem hz)) (h'.valued _ (List.mem_map_of_mem hz)) (i1 p hp) (hm p (i1 p hp) z hz) hn

/-- Regions that do not cross the antimeridian. -/
theorem plain_from {b : Boundary} {W H : ℚ} {full : List (Source AnyData AnyCond)} (hf : ∀ s ∈ full, PlainAny b s)
    (hid : (full.map (fun s => s.loader.id)).Nodup) (config : MeshConfig) (hp : ProperGrid b W H) (hcr : b.longMin < b.longMax)
    (hh : b.latMin < b.latMax) (hcol : b.longMin = -180 ∧ b.longMax = 180 → W ≤ 180) (hacc : MeshBuilder.validateBounds b W H = .ok ()) (depth : ℕ) :
    ∃ m0, MeshBuilder.init b W H (fun q => trimSources q full) depth = .ok m0 ∧ ∃ N em value,
      (∀ fuel, N ≤ fuel → MeshBuilder.buildEnvironmentalMesh (sourceOps AnyData AnyCond) aggregate fuel config m0 = .ok em) ∧
      BuiltFrom (Inner b) (GridBox b W H) quarters depth full value em.cells := by
  obtain ⟨value, hv⟩ := plain_values hf
  obtain ⟨m0, h0, N, em, hb, hc, hd⟩ := plain_built (fun s hs => any_faithful (hf s hs)) hv hid config hp hcr hh hcol hacc depth
  refine ⟨m0, h0, N, em, value, hb, hv, hc, fun c hcm => ?_⟩
  obtain ⟨anc, h1, h2⟩ := hd c hcm
  refine ⟨anc, ?_, h1, h2⟩
  have hS := inner_system hp hcr hacc
  clear h2
  generalize c.bounds :: anc = l at h1
  induction h1 with
  | root hq => intro q hm; rw [List.mem_singleton] at hm; subst hm; exact hS.first _ hq
  | @quarter q p t _ hq ih =>
    intro r hr
    rcases List.mem_cons.1 hr with rfl | hr
    · exact (hS.within _ _ (ih p (by simp)) hq).1
    · exact ih r hr

/-- Regions that may cross the antimeridian. -/
theorem around_from {b : Boundary} {W H : ℚ} {full : List (Source AnyData AnyCond)} (hf : ∀ s ∈ full, AroundAny b s)
    (hid : (full.map (fun s => s.loader.id)).Nodup) (config : MeshConfig) (hp : ProperGrid b W H) (hh : b.latMin < b.latMax)
    (hcol : b.width = 360 → W ≤ 180) (hacc : MeshBuilder.validateBounds b W H = .ok ())
    (depth : ℕ) :
    ∃ m0, MeshBuilder.init b W H (fun q => trimSources q full) depth = .ok m0 ∧ ∃ N em value,
      (∀ fuel, N ≤ fuel → MeshBuilder.buildEnvironmentalMesh (sourceOps AnyData AnyCond) aggregate fuel config m0 = .ok em) ∧
      BuiltFrom (Around b) (TurnGridBox b W H) turnQuarters depth full value em.cells := by
  obtain ⟨value, hv, m0, h0, N, em, hbu, hc, hd⟩ := around_built hf hid config hp hh hcol hacc depth
  exact ⟨m0, h0, N, em, value, hbu, hv, hc, hd⟩

/-- A box belongs to one line of boxes. -/
theorem around_unique {b : Boundary} {W H : ℚ} (hu : Unwraps b) (hW : 0 < W) (hH : 0 < H) (hs : W < 360) {q : Boundary} {t t' : List Boundary}
    (h : LineageBy turnQuarters (TurnGridBox b W H) (q :: t)) (h' : LineageBy turnQuarters (TurnGridBox b W H) (q :: t')) : t = t' := by
  obtain ⟨l, k1, k2⟩ := lineage_unwrap hu hW hH hs h
  obtain ⟨l', k1', k2'⟩ := lineage_unwrap hu hW hH hs h'
  cases l with
  | nil => cases k2
  | cons x l =>
    cases l' with
    | nil => cases k2'
    | cons y l' =>
      simp only [List.map_cons, List.cons.injEq] at k2 k2'
      obtain rfl : x = y := turnBox_inj hu (lineage_flat hW hH hs k1 x (by simp)) (lineage_flat hW hH hs k1' y (by simp)) (by rw [← k2.1, ← k2'.1])
      rw [k2.2, k2'.2, lineage_unique hW hH k1 k1']

end Verif
