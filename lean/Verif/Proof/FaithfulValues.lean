import Verif.Proof.Faithful
import Verif.Proof.DictKeys

/-!
# Values of a mesh built from sources of any kind
-/

namespace Verif
open Spec

variable {S C : Type}

/-! ## Specification -/

/-- The value of a box with the given ancestors: its own one; if that is missing, the constant to fill with, or else that of the
nearest ancestor that has one. -/
def Spec.Filled (value : Boundary → Option ℚ) (fill : Fill) (q : Boundary) (anc : List Boundary) (v : Option ℚ) : Prop :=
  match fill with
  | .parent => IsFirst (value q :: anc.map value) v
  | .const (.num x) => IsFirst [value q, x] v
  | .const _ => False

/-- What becomes of the values of several sources: those that overrule replace everything before them, the others only what is
missing. -/
def Spec.Merged {σ : Type} (overrules : σ → Prop) (w : σ → Option ℚ) (l : List σ) (v : Option ℚ) : Prop :=
  ((∀ s ∈ l, ¬ overrules s) ∧ IsFirst (l.map w) v) ∨
    ∃ pre s post, l = pre ++ s :: post ∧ overrules s ∧ (∀ t ∈ post, ¬ overrules t) ∧ IsFirst ((s :: post).map w) v

/-- The loader gives one dictionary entry for each of the names in its comma separated name, on each box that of the full data;
vector sources are filled from parents. -/
structure ValuedOn (In : Boundary → Prop) (s : Source S C) (value : Boundary → String → Option ℚ) : Prop where
  names : (splitName s.loader.dataName).Nodup
  keys : ∀ q d D, s.loader.getValue q d = .ok D → (D.map Prod.fst).Nodup
  gives : ∀ q, In q → ∃ D, s.loader.getValue q (s.loader.trim q s.subset) = .ok D ∧
    (∀ n ∈ splitName s.loader.dataName, D.get? n = some (.num (value q n))) ∧ ∀ n, n ∉ splitName s.loader.dataName → D.get? n = none
  fills : s.fill = .parent ∨ ',' ∉ s.loader.dataName.toList ∧ ∃ x, s.fill = .const (.num x)

/-- Among the boxes in a region that does not cross the antimeridian. -/
abbrev Valued (b : Boundary) (s : Source S C) (value : Boundary → String → Option ℚ) : Prop := ValuedOn (Inner b) s value

/-! ## Proofs -/

theorem splitName_single {s : String} (h : ',' ∉ s.toList) : splitName s = [s] := by
  unfold splitName; rw [splitChars_single h]; simp

theorem splitName_no_comma {s n : String} (h : n ∈ splitName s) : ',' ∉ n.toList := by
  unfold splitName at h
  obtain ⟨w, hw, rfl⟩ := List.mem_map.1 h
  simpa using splitChars_no_comma _ w hw

theorem isFirst_snoc_some {l : List (Option ℚ)} {x : ℚ} (h : IsFirst l (some x)) (y : Option ℚ) : IsFirst (l ++ [y]) (some x) := by
  rcases h with ⟨pre, z, post, e1, e2, e3⟩ | ⟨-, e⟩
  · exact Or.inl ⟨pre, z, post ++ [y], by simp [e1], e2, e3⟩
  · cases e

theorem isFirst_snoc_none {l : List (Option ℚ)} (h : IsFirst l none) (y : Option ℚ) : IsFirst (l ++ [y]) y := by
  have hn : ∀ z ∈ l, z = none := by
    rcases h with ⟨pre, z, post, e1, e2, e3⟩ | ⟨e, -⟩
    · cases e3
    · exact e
  cases y with
  | some x => exact Or.inl ⟨l, x, [], rfl, hn, rfl⟩
  | none =>
    refine Or.inr ⟨?_, rfl⟩
    intro z hz
    rcases List.mem_append.1 hz with hz | hz
    · exact hn z hz
    · simpa using hz

theorem merged_snoc {σ : Type} {ov : σ → Prop} {w : σ → Option ℚ} {l : List σ} {v : Option ℚ} (h : Merged ov w l v) {s : σ} (hs : ¬ ov s) :
    Merged ov w (l ++ [s]) (v.or (w s)) := by
  have key : ∀ l' : List σ, IsFirst (l'.map w) v → IsFirst ((l' ++ [s]).map w) (v.or (w s)) := by
    intro l' h
    rw [List.map_append]
    cases v with
    | some x => exact isFirst_snoc_some h _
    | none => exact isFirst_snoc_none h _
  rcases h with ⟨h1, h2⟩ | ⟨pre, t, post, e, h1, h2, h3⟩
  · refine Or.inl ⟨?_, key _ h2⟩
    intro t ht
    rcases List.mem_append.1 ht with ht | ht
    · exact h1 t ht
    · rw [List.mem_singleton] at ht; subst ht; exact hs
  · refine Or.inr ⟨pre, t, post ++ [s], by simp [e], h1, ?_, key _ h3⟩
    intro u hu
    rcases List.mem_append.1 hu with hu | hu
    · exact h2 u hu
    · rw [List.mem_singleton] at hu; subst hu; exact hs

/-- Merging the dictionaries of the sources of a cell. -/
theorem merge_values {c : CellBox (List (Source S C))} {w : Source S C → String → Option ℚ}
    (hw : ∀ s ∈ c.data, ∃ D, sourceValue c.bounds c.anc s = .ok D ∧ (D.map Prod.fst).Nodup ∧
      (∀ n ∈ splitName s.loader.dataName, D.get? n = some (.num (w s n))) ∧ ∀ n, n ∉ splitName s.loader.dataName → D.get? n = none) :
    ∃ agg, aggregate c = .ok agg ∧ ∀ n,
      ((∀ s ∈ c.data, n ∉ splitName s.loader.dataName) → agg.get? n = none) ∧
      ((∃ s ∈ c.data, n ∈ splitName s.loader.dataName) → ∃ v, agg.get? n = some (.num v) ∧
        Merged (fun s : Source S C => ',' ∈ s.loader.dataName.toList) (fun s => w s n)
          (c.data.filter (fun s => decide (n ∈ splitName s.loader.dataName))) v) := by
  unfold aggregate
  generalize c.data = l at hw
  induction l using List.reverseRecOn with
  | nil => exact ⟨[], rfl, fun n => ⟨fun _ => rfl, by simp⟩⟩
  | append_singleton l s ih =>
    obtain ⟨acc, ha, hn⟩ := ih (fun s' hs' => hw s' (by simp [hs']))
    obtain ⟨D, d1, d2, d3, d4⟩ := hw s (by simp)
    rw [List.foldlM_append, ha]
    have hupd : ∀ n, (acc.update D).get? n = if n ∈ splitName s.loader.dataName then some (.num (w s n)) else acc.get? n := by
      intro n
      rw [get?_update _ _ _ d2]
      by_cases h : n ∈ splitName s.loader.dataName
      · rw [d3 n h, if_pos h]
      · rw [d4 n h, if_neg h]
    by_cases hc : ',' ∈ s.loader.dataName.toList
    · -- a vector source
      have h0 : acc.get? s.loader.dataName = none :=
        (hn _).1 (fun s' _ hm => splitName_no_comma hm hc)
      refine ⟨acc.update D, ?_, ?_⟩
      · show (aggregateStep c.bounds c.anc acc s >>= pure) = _
        simp only [aggregateStep, d1, h0, bind, Except.bind, pure, Except.pure]
      · intro n
        rw [hupd n]
        by_cases hm : n ∈ splitName s.loader.dataName
        · rw [if_pos hm]
          refine ⟨fun h => absurd hm (h s (by simp)), fun _ => ⟨_, rfl, Or.inr
            ⟨l.filter (fun s => decide (n ∈ splitName s.loader.dataName)), s, [], ?_, hc, by simp, ?_⟩⟩⟩
          · rw [List.filter_append]; simp [hm]
          · simp only [List.map_cons, List.map_nil]
            cases w s n with
            | some x => exact .head
            | none => exact Or.inr ⟨by simp, rfl⟩
        · rw [if_neg hm, List.filter_append]
          simp only [List.filter_cons, decide_eq_true_eq, if_neg hm, List.filter_nil, List.append_nil]
          refine ⟨fun h => (hn n).1 (fun s' hs' => h s' (by simp [hs'])), ?_⟩
          rintro ⟨s', hs', hm'⟩
          refine (hn n).2 ⟨s', ?_, hm'⟩
          rcases List.mem_append.1 hs' with h | h
          · exact h
          · rw [List.mem_singleton] at h; subst h; exact absurd hm' hm
    · -- a scalar source
      have hsn := splitName_single hc
      rw [hsn] at hupd
      simp only [List.mem_singleton] at hupd
      have hother : ∀ n, n ≠ s.loader.dataName → ∀ acc' : Dict String Val, acc'.get? n = acc.get? n →
          ((∀ s' ∈ l ++ [s], n ∉ splitName s'.loader.dataName) → acc'.get? n = none) ∧
          ((∃ s' ∈ l ++ [s], n ∈ splitName s'.loader.dataName) → ∃ v, acc'.get? n = some (.num v) ∧
            Merged (fun s : Source S C => ',' ∈ s.loader.dataName.toList) (fun s => w s n)
              ((l ++ [s]).filter (fun s => decide (n ∈ splitName s.loader.dataName))) v) := by
        intro n hne acc' e
        rw [e]
        have hm : n ∉ splitName s.loader.dataName := by rw [hsn]; simpa using hne
        rw [List.filter_append]
        simp only [List.filter_cons, decide_eq_true_eq, if_neg hm, List.filter_nil, List.append_nil]
        refine ⟨fun h => (hn n).1 (fun s' hs' => h s' (by simp [hs'])), ?_⟩
        rintro ⟨s', hs', hm'⟩
        refine (hn n).2 ⟨s', ?_, hm'⟩
        rcases List.mem_append.1 hs' with h | h
        · exact h
        · rw [List.mem_singleton] at h; subst h; exact absurd hm' hm
      have hfilt : (l ++ [s]).filter (fun s' => decide (s.loader.dataName ∈ splitName s'.loader.dataName)) =
          l.filter (fun s' => decide (s.loader.dataName ∈ splitName s'.loader.dataName)) ++ [s] := by
        rw [List.filter_append]; simp [hsn]
      by_cases hex : ∃ s' ∈ l, s.loader.dataName ∈ splitName s'.loader.dataName
      · obtain ⟨v, v1, v2⟩ := (hn _).2 hex
        have hstep : ∃ acc', aggregateStep c.bounds c.anc acc s = .ok acc' ∧ (∀ n, n ≠ s.loader.dataName → acc'.get? n = acc.get? n) ∧
            acc'.get? s.loader.dataName = some (.num (v.or (w s s.loader.dataName))) := by
          simp only [aggregateStep, d1, v1, bind, Except.bind, pure, Except.pure, Val.isNan]
          cases v with
          | some x => exact ⟨acc, by simp, fun _ _ => rfl, v1⟩
          | none => exact ⟨acc.update D, by simp, fun n h => by rw [hupd, if_neg h], by rw [hupd, if_pos rfl]; rfl⟩
        obtain ⟨acc', h1, h2, h3⟩ := hstep
        refine ⟨acc', ?_, ?_⟩
        · show (aggregateStep c.bounds c.anc acc s >>= pure) = _
          rw [h1]; rfl
        · intro n
          by_cases hne : n = s.loader.dataName
          · subst hne
            refine ⟨fun h => absurd (by rw [hsn]; simp) (h s (by simp)), fun _ => ⟨_, h3, ?_⟩⟩
            rw [hfilt]
            exact merged_snoc v2 hc
          · exact hother n hne acc' (h2 n hne)
      · push Not at hex
        have h0 := (hn _).1 hex
        refine ⟨acc.update D, ?_, ?_⟩
        · show (aggregateStep c.bounds c.anc acc s >>= pure) = _
          simp only [aggregateStep, d1, h0, bind, Except.bind, pure, Except.pure]
        · intro n
          by_cases hne : n = s.loader.dataName
          · subst hne
            refine ⟨fun h => absurd (by rw [hsn]; simp) (h s (by simp)), fun _ => ⟨w s s.loader.dataName, by rw [hupd, if_pos rfl], ?_⟩⟩
            rw [hfilt]
            have : l.filter (fun s' => decide (s.loader.dataName ∈ splitName s'.loader.dataName)) = [] := by
              rw [List.filter_eq_nil_iff]; intro s' hs'; simpa using hex s' hs'
            rw [this, List.nil_append]
            refine Or.inl ⟨by simpa using hc, ?_⟩
            simp only [List.map_cons, List.map_nil]
            cases w s s.loader.dataName with
            | some x => exact .head
            | none => exact Or.inr ⟨by simp, rfl⟩
          · exact hother n hne _ (by rw [hupd, if_neg hne])

/-! ## Filling -/

theorem fillFromParents_nodup {l : Loader S C} (hk : ∀ q d D, l.getValue q d = .ok D → (D.map Prod.fst).Nodup) (name : String) :
    ∀ (anc : List (Boundary × List (Source S C))) (D D' : Dict String Val), (D.map Prod.fst).Nodup → fillFromParents l name anc D = .ok D' →
      (D'.map Prod.fst).Nodup := by
  intro anc
  induction anc with
  | nil => intro D D' h e; cases e; exact h
  | cons a anc ih =>
    intro D D' h e
    obtain ⟨ab, ad⟩ := a
    simp only [fillFromParents, bind, Except.bind, pure, Except.pure] at e
    split at e
    · cases e
    · split at e
      · cases e
      · split at e
        · split at e
          · cases e
          · split at e
            · cases e
            · rename_i D1 h1
              exact ih D1 D' (hk _ _ _ h1) e
        · cases e; exact h

theorem fillComponent_nodup {l : Loader S C} (name : String) :
    ∀ (anc : List (Boundary × List (Source S C))) (D D' : Dict String Val), (D.map Prod.fst).Nodup → fillComponent l name anc D = .ok D' →
      (D'.map Prod.fst).Nodup := by
  intro anc
  induction anc with
  | nil => intro D D' h e; cases e; exact h
  | cons a anc ih =>
    intro D D' h e
    obtain ⟨ab, ad⟩ := a
    simp only [fillComponent, bind, Except.bind, pure, Except.pure] at e
    split at e
    · cases e
    · split at e
      · cases e
      · split at e
        · split at e
          · cases e
          · split at e
            · cases e
            · split at e
              · cases e
              · exact ih _ D' (Dict.nodup_set h _ _) e
        · cases e; exact h

theorem checkComponent_nodup {src : Source S C} {anc : List (Boundary × List (Source S C))} {n : String} {D D' : Dict String Val}
    (h : (D.map Prod.fst).Nodup) (e : checkComponent src anc D n = .ok D') : (D'.map Prod.fst).Nodup := by
  simp only [checkComponent, bind, Except.bind, pure, Except.pure] at e
  split at e
  · cases e
  · split at e
    · cases e
    · split at e
      · split at e
        · exact fillComponent_nodup _ _ _ _ h e
        · cases e; exact Dict.nodup_set h _ _
      · cases e; exact h

theorem sourceValue_nodup {q : Boundary} {anc : List (Boundary × List (Source S C))} {s : Source S C}
    (hk : ∀ q d D, s.loader.getValue q d = .ok D → (D.map Prod.fst).Nodup) {D : Dict String Val} (e : sourceValue q anc s = .ok D) :
    (D.map Prod.fst).Nodup := by
  simp only [sourceValue, bind, Except.bind, pure, Except.pure] at e
  split at e
  · cases e
  · rename_i D0 h0
    replace h0 := hk _ _ _ h0
    split at e
    · unfold checkVectorData at e
      clear hk
      generalize splitName s.loader.dataName = names at e
      induction names generalizing D0 with
      | nil => cases e; exact h0
      | cons n names ih =>
        rw [List.foldlM_cons] at e
        cases hst : checkComponent s anc D0 n with
        | error _ => rw [hst] at e; cases e
        | ok D1 =>
          rw [hst] at e
          exact ih D1 (checkComponent_nodup h0 hst) e
    · split at e
      · cases e
      · split at e
        · cases e
        · split at e
          · split at e
            · exact fillFromParents_nodup hk _ _ _ _ h0 e
            · cases e; exact Dict.nodup_set h0 _ _
          · cases e; exact h0

open Classical in
/-- The value of a source in a cell whose data and ancestors are what they should be. -/
theorem source_filled {In : Boundary → Prop} {full : List (Source S C)} (hid : (full.map (fun s => s.loader.id)).Nodup)
    {s : Source S C} (hs : s ∈ full) {value : Boundary → String → Option ℚ} (hv : ValuedOn In s value) {q : Boundary} (hq : In q)
    {anc : List (Boundary × List (Source S C))} (hanc : ∀ a ∈ anc, Traced In full a) :
    ∃ D, sourceValue q anc { s with subset := s.loader.trim q s.subset } = .ok D ∧ (D.map Prod.fst).Nodup ∧
      (∀ n ∈ splitName s.loader.dataName, ∃ v, D.get? n = some (.num v) ∧ Filled (fun q => value q n) s.fill q (anc.map Prod.fst) v) ∧
      ∀ n, n ∉ splitName s.loader.dataName → D.get? n = none := by
  suffices h : ∃ D, sourceValue q anc { s with subset := s.loader.trim q s.subset } = .ok D ∧
      (∀ n ∈ splitName s.loader.dataName, ∃ v, D.get? n = some (.num v) ∧ Filled (fun q => value q n) s.fill q (anc.map Prod.fst) v) ∧
      ∀ n, n ∉ splitName s.loader.dataName → D.get? n = none by
    obtain ⟨D, h1, h2⟩ := h
    exact ⟨D, h1, sourceValue_nodup (s := { s with subset := s.loader.trim q s.subset }) hv.keys h1, h2⟩
  by_cases hc : ',' ∈ s.loader.dataName.toList
  · have hfill : s.fill = .parent := hv.fills.resolve_right (fun h => h.1 hc)
    -- what the loader gives, where it is as it should be
    let good : Boundary → S → (String → Option ℚ) → Prop := fun q d f => ∃ D, s.loader.getValue q d = .ok D ∧
      (∀ n ∈ splitName s.loader.dataName, D.get? n = some (.num (f n))) ∧ ∀ n, n ∉ splitName s.loader.dataName → D.get? n = none
    let val : Boundary → S → Py (String → Option ℚ) := fun q d => if h : ∃ f, good q d f then .ok h.choose else .error .valueError
    have hl : IsVector s.loader (splitName s.loader.dataName) val := by
      refine ⟨hc, rfl, ?_⟩
      intro q d f h
      simp only [val] at h
      split at h
      · rename_i hex
        cases h
        exact hex.choose_spec
      · cases h
    have hval : ∀ q, In q → ∃ f, val q (s.loader.trim q s.subset) = .ok f ∧ ∀ n ∈ splitName s.loader.dataName, f n = value q n := by
      intro q hq
      have hex : ∃ f, good q (s.loader.trim q s.subset) f := ⟨value q, hv.gives q hq⟩
      refine ⟨hex.choose, by simp only [val, dif_pos hex], ?_⟩
      intro n hn
      obtain ⟨D, e1, e2, -⟩ := hex.choose_spec
      obtain ⟨D', e1', e2', -⟩ := hv.gives q hq
      rw [e1] at e1'
      cases e1'
      have := e2 n hn
      rw [e2' n hn] at this
      simpa using this.symm
    have hall : ∃ fs : List (String → Option ℚ), List.Forall₂ (VectorAt s.loader val) anc fs ∧
        ∀ n ∈ splitName s.loader.dataName, fs.map (fun f => f n) = (anc.map Prod.fst).map (fun q => value q n) := by
      induction anc with
      | nil => exact ⟨[], .nil, by simp⟩
      | cons a anc ih =>
        obtain ⟨fs, i1, i2⟩ := ih (fun a ha => hanc a (by simp [ha]))
        obtain ⟨ab, ad⟩ := a
        obtain ⟨g1, g2⟩ := hanc (ab, ad) (by simp)
        simp only at g1 g2
        obtain ⟨f, f1, f2⟩ := hval ab g1
        refine ⟨f :: fs, .cons ?_ i1, ?_⟩
        · subst g2
          obtain ⟨pre, post, rfl⟩ := List.append_of_mem hs
          refine ⟨trimSources ab pre, { s with subset := s.loader.trim ab s.subset }, trimSources ab post, by simp [trimSources], rfl, ?_, f1⟩
          intro s' hs'
          obtain ⟨s0, h0, rfl⟩ := List.mem_map.1 hs'
          rw [List.map_append, List.map_cons, List.nodup_append] at hid
          exact hid.2.2 _ (List.mem_map.2 ⟨s0, h0, rfl⟩) _ (by simp)
        · intro n hn
          simp only [List.map_cons, f2 n hn, i2 n hn]
    obtain ⟨fs, v1, v2⟩ := hall
    obtain ⟨f, f1, f2⟩ := hval q hq
    obtain ⟨D, e1, e2, e3⟩ := C33_parent_partial (src := { s with subset := s.loader.trim q s.subset }) hl hv.names (b := q) (anc := anc) f1 hfill v1
    refine ⟨D, e1, ?_, e3⟩
    intro n hn
    obtain ⟨r, r1, r2⟩ := e2 n hn
    refine ⟨r, r1, ?_⟩
    rw [v2 n hn, f2 n hn] at r2
    rw [hfill]
    exact r2
  · have hsn := splitName_single hc
    let val : Boundary → S → Py (Option ℚ) := fun q d =>
      if h : ∃ v, s.loader.getValue q d = .ok [(s.loader.dataName, .num v)] then .ok h.choose else .error .valueError
    have hl : IsScalar s.loader val := by
      refine ⟨hc, ?_⟩
      intro q d f h
      simp only [val] at h
      split at h
      · rename_i hex
        cases h
        exact hex.choose_spec
      · cases h
    have hval : ∀ q, In q → val q (s.loader.trim q s.subset) = .ok (value q s.loader.dataName) := by
      intro q hq
      have hg : s.loader.getValue q (s.loader.trim q s.subset) = .ok [(s.loader.dataName, .num (value q s.loader.dataName))] := by
        obtain ⟨D, e1, e2, e3⟩ := hv.gives q hq
        rw [hsn] at e2 e3
        have hk := hv.keys _ _ _ e1
        rw [e1]
        have e2 := e2 s.loader.dataName (by simp)
        congr 1
        have hkeys : ∀ k ∈ D.map Prod.fst, k = s.loader.dataName := by
          intro k hm
          by_contra hne
          have := e3 k (by simpa using hne)
          have h := (Dict.mem_keys_iff D k).1 hm
          rw [this] at h
          cases h
        match D, e2, hk, hkeys with
        | [(k, v)], e2, _, hkeys =>
          have : k = s.loader.dataName := hkeys k (by simp)
          subst this
          simp only [Dict.get?, if_true, Option.some.injEq] at e2
          rw [e2]
        | (k, v) :: (k', v') :: D, _, hk, hkeys =>
          have h1 : k = s.loader.dataName := hkeys k (by simp)
          have h2 : k' = s.loader.dataName := hkeys k' (by simp)
          simp [h1, h2] at hk
      have hex : ∃ v, s.loader.getValue q (s.loader.trim q s.subset) = .ok [(s.loader.dataName, .num v)] := ⟨_, hg⟩
      simp only [val, dif_pos hex]
      have := hg.symm.trans hex.choose_spec
      simp only [Except.ok.injEq, List.cons.injEq, Prod.mk.injEq, Val.num.injEq, and_true, true_and] at this
      rw [← this]
    obtain ⟨own, hown⟩ : ∃ o, value q s.loader.dataName = o := ⟨_, rfl⟩
    have hC := C31_fill (src := { s with subset := s.loader.trim q s.subset }) (val := val) hl (b := q) (anc := anc) (v := own)
      (by rw [← hown]; exact hval q hq)
    have hend : ∀ v, sourceValue q anc { s with subset := s.loader.trim q s.subset } = .ok [(s.loader.dataName, .num v)] →
        Filled (fun q => value q s.loader.dataName) s.fill q (anc.map Prod.fst) v →
        ∃ D, sourceValue q anc { s with subset := s.loader.trim q s.subset } = .ok D ∧
          (∀ n ∈ splitName s.loader.dataName, ∃ v, D.get? n = some (.num v) ∧ Filled (fun q => value q n) s.fill q (anc.map Prod.fst) v) ∧
          ∀ n, n ∉ splitName s.loader.dataName → D.get? n = none := by
      intro v h1 h2
      refine ⟨_, h1, ?_, ?_⟩
      · intro n hn
        rw [hsn, List.mem_singleton] at hn
        subst hn
        exact ⟨v, by simp [Dict.get?], h2⟩
      · intro n hn
        rw [hsn, List.mem_singleton] at hn
        simp [Dict.get?, Ne.symm hn]
    rcases hv.fills with hfill | ⟨-, x, hfill⟩
    · have hall : List.Forall₂ (ValueAt s.loader val) anc ((anc.map Prod.fst).map (fun q => value q s.loader.dataName)) := by
        clear hC hend
        induction anc with
        | nil => exact .nil
        | cons a anc ih =>
          obtain ⟨ab, ad⟩ := a
          obtain ⟨g1, g2⟩ := hanc (ab, ad) (by simp)
          simp only at g1 g2
          subst g2
          exact .cons (valueAt_trimSources hid hs (hval ab g1)) (ih (fun a ha => hanc a (by simp [ha])))
      obtain ⟨r, r1, r2⟩ := hC.1 hfill _ hall
      exact hend r r2 (by rw [hfill]; simp only [Filled, hown]; exact r1)
    · have h1 := hC.2.1 _ hfill
      cases own with
      | some y =>
        exact hend (some y) h1 (by rw [hfill]; simp only [Filled, hown]; exact .head)
      | none =>
        refine hend x h1 ?_
        rw [hfill]
        simp only [Filled, hown]
        refine .skip ?_
        cases x with
        | some y => exact .head
        | none => exact Or.inr ⟨by simp, rfl⟩

/-- Building never raises, and the values of the mesh are those of the sources, filled and merged. -/
theorem faithful_values {b : Boundary} {W H : ℚ} {In start : Boundary → Prop} {parts : Boundary → List Boundary} {full : List (Source S C)} {verdict : Source S C → Boundary → C → Verdict}
    {value : Source S C → Boundary → String → Option ℚ} (hf : ∀ s ∈ full, FaithfulOn In s (verdict s))
    (hv : ∀ s ∈ full, ValuedOn In s (value s))
    (hid : (full.map (fun s => s.loader.id)).Nodup)
    (config : MeshConfig) (hS : BoxSystem b W H In start parts) (hp : ProperGrid b W H) (hh : b.latMin < b.latMax)
    (hcol : b.width = 360 → W ≤ 180) (hacc : MeshBuilder.validateBounds b W H = .ok ()) (depth : ℕ) :
    ∃ m0, MeshBuilder.init b W H (fun q => trimSources q full) depth = .ok m0 ∧ ∃ N em,
      (∀ fuel, N ≤ fuel → MeshBuilder.buildEnvironmentalMesh (sourceOps S C) aggregate fuel config m0 = .ok em) ∧
      (NoLocks verdict In full → ∀ q, (∃ c ∈ em.cells, c.bounds = q) ↔
        ∃ k, RefinedBy parts (Wants verdict full) start depth k q ∧ (k = depth ∨ ¬ Wants verdict full q)) ∧
      ∀ c ∈ em.cells, ∃ anc, LineageBy parts start (c.bounds :: anc) ∧ ∃ w : Source S C → String → Option ℚ,
        (∀ s ∈ full, ∀ n ∈ splitName s.loader.dataName, Filled (fun q => value s q n) s.fill c.bounds anc (w s n)) ∧ ∀ n,
        ((∀ s ∈ full, n ∉ splitName s.loader.dataName) → c.data.get? n = none) ∧
        ((∃ s ∈ full, n ∈ splitName s.loader.dataName) → ∃ v, c.data.get? n = some (.num v) ∧
          Merged (fun s : Source S C => ',' ∈ s.loader.dataName.toList) (fun s => w s n)
            (full.filter (fun s => decide (n ∈ splitName s.loader.dataName))) v) := by
  obtain ⟨m0, h0, N, m, hrun⟩ := faithful_runs hf hS hp hh hcol hacc depth depth
  have hmax : m0.maxDepth = depth := by
    obtain ⟨boxes, g, glob, -, -, -, rfl⟩ := init_inv h0; rfl
  obtain ⟨roots, g, glob, -, hr, -, -⟩ := init_inv h0
  have hroots := hS.roots roots hr
  obtain ⟨c0, hc0, hT⟩ := tracked_splitToDepth h0 hr (hrun N le_rfl)
  have hagg : ∀ i c, Live m i c → ∃ agg, aggregate c = .ok agg ∧ ∃ w : Source S C → String → Option ℚ,
      LineageBy parts start (c.bounds :: c.anc.map Prod.fst) ∧
      (∀ s ∈ full, ∀ n ∈ splitName s.loader.dataName, Filled (fun q => value s q n) s.fill c.bounds (c.anc.map Prod.fst) (w s n)) ∧ ∀ n,
        ((∀ s ∈ full, n ∉ splitName s.loader.dataName) → agg.get? n = none) ∧
        ((∃ s ∈ full, n ∈ splitName s.loader.dataName) → ∃ v, agg.get? n = some (.num v) ∧
          Merged (fun s : Source S C => ',' ∈ s.loader.dataName.toList) (fun s => w s n)
            (full.filter (fun s => decide (n ∈ splitName s.loader.dataName))) v) := by
    intro i c hl
    obtain ⟨-, -, hch⟩ := hT.sound i c hl
    obtain ⟨hgood, hlin⟩ := chains_traced hf hS hroots _ _ hch
    obtain ⟨hq, hd⟩ := hgood (c.bounds, c.data) (by simp [CellBox.chain])
    simp only at hq hd
    have hval := fun s (hs : s ∈ full) => source_filled hid hs (hv s hs) hq (anc := c.anc) (fun a ha => hgood a (by simp [CellBox.chain, ha]))
    classical
    let w' : Source S C → String → Option ℚ := fun s' n => match sourceValue c.bounds c.anc s' with
      | .ok D => match D.get? n with
        | some (.num v) => v
        | _ => none
      | .error _ => none
    have hw' : ∀ s' ∈ c.data, ∃ D, sourceValue c.bounds c.anc s' = .ok D ∧ (D.map Prod.fst).Nodup ∧
        (∀ n ∈ splitName s'.loader.dataName, D.get? n = some (.num (w' s' n))) ∧ ∀ n, n ∉ splitName s'.loader.dataName → D.get? n = none := by
      intro s' hs'
      rw [hd] at hs'
      obtain ⟨s, hs, rfl⟩ := List.mem_map.1 hs'
      obtain ⟨D, e1, e2, e3, e4⟩ := hval s hs
      refine ⟨D, e1, e2, ?_, e4⟩
      intro n hn
      obtain ⟨v, v1, -⟩ := e3 n hn
      simp only [w', e1, v1]
    obtain ⟨agg, ha, hn⟩ := merge_values hw'
    refine ⟨agg, ha, fun s => w' { s with subset := s.loader.trim c.bounds s.subset }, hlin, ?_, ?_⟩
    · intro s hs n hn
      obtain ⟨D, e1, e2, e3, e4⟩ := hval s hs
      obtain ⟨v, v1, v2⟩ := e3 n hn
      simp only [w', e1, v1]
      exact v2
    · intro n
      obtain ⟨n1, n2⟩ := hn n
      constructor
      · intro h
        apply n1
        intro s' hs'
        rw [hd] at hs'
        obtain ⟨s, hs, rfl⟩ := List.mem_map.1 hs'
        exact h s hs
      · rintro ⟨s, hs, e⟩
        obtain ⟨v, v1, v2⟩ := n2 ⟨{ s with subset := s.loader.trim c.bounds s.subset }, by rw [hd]; exact List.mem_map.2 ⟨s, hs, rfl⟩, e⟩
        refine ⟨v, v1, ?_⟩
        rw [hd] at v2
        unfold trimSources at v2
        rw [List.filter_map] at v2
        rcases v2 with ⟨k1, k2⟩ | ⟨pre, t, post, k1, k2, k3, k4⟩
        · refine Or.inl ⟨fun s hs => k1 { s with subset := s.loader.trim c.bounds s.subset } (List.mem_map.2 ⟨s, hs, rfl⟩), ?_⟩
          rw [List.map_map] at k2
          exact k2
        · obtain ⟨pre', rest, f1, rfl, f3⟩ := List.map_eq_append_iff.1 k1
          obtain ⟨t', post', rfl, rfl, rfl⟩ := List.map_eq_cons_iff.1 f3
          refine Or.inr ⟨pre', t', post', f1, k2, fun u hu => k3 { u with subset := u.loader.trim c.bounds u.subset }
            (List.mem_map.2 ⟨u, hu, rfl⟩), ?_⟩
          rw [List.map_cons, List.map_map] at k4
          exact k4
  obtain ⟨em, hem⟩ := toEnvMesh_total (agg := aggregate) config (m := m) (fun i c hl => by
    obtain ⟨d, hd, -⟩ := hagg i c hl
    exact ⟨d, hd⟩)
  have hbuild : ∀ fuel, N ≤ fuel →
      MeshBuilder.buildEnvironmentalMesh (sourceOps S C) aggregate fuel config m0 = .ok em := by
    intro fuel hfu
    unfold MeshBuilder.buildEnvironmentalMesh
    rw [hmax, hrun fuel hfu]
    exact hem
  have hreach : CellsOK b W H m := reach_cells (ops := sourceOps S C) hp (splitToDepth_reach h0 (hrun N le_rfl))
  obtain ⟨-, -, -, -, hA, hB⟩ := toEnvMesh_ok hreach hem
  refine ⟨m0, h0, N, em, hbuild, ?_, ?_⟩
  · intro hlock q
    obtain ⟨m1, h1, N1, m', hrun1, hm⟩ := faithful_cells hf hlock hS hp hh hcol hacc depth depth
    have e1 : m1 = m0 := by rw [h0] at h1; simpa using h1.symm
    subst e1
    have e2 : m' = m := by
      have a := hrun1 (max N N1) (by omega)
      rw [hrun (max N N1) (by omega)] at a
      simpa using a.symm
    subst e2
    constructor
    · rintro ⟨c, hcm, rfl⟩
      obtain ⟨c0, hl, e, -⟩ := hA c hcm
      exact ⟨_, (hm _ _).1 ⟨_, c0, hl, e.symm, rfl⟩⟩
    · rintro ⟨k, hk⟩
      obtain ⟨i, c0, hl, e, -⟩ := (hm _ _).2 hk
      obtain ⟨a, ha, -, h2, -⟩ := hB i c0 hl
      exact ⟨a, ha, by rw [h2, e]⟩
  · intro c hc
    obtain ⟨c0, hl, e, ha⟩ := hA c hc
    obtain ⟨agg, ha', w, l1, l2, l3⟩ := hagg _ c0 hl
    rw [ha] at ha'
    cases ha'
    rw [e]
    exact ⟨_, l1, w, l2, l3⟩

/-- Over a region that does not cross the antimeridian the mesh is well formed as well. -/
theorem faithful_plain {b : Boundary} {W H : ℚ} {full : List (Source S C)} {verdict : Source S C → Boundary → C → Verdict}
    {value : Source S C → Boundary → String → Option ℚ} (hf : ∀ s ∈ full, Faithful b s (verdict s)) (hv : ∀ s ∈ full, Valued b s (value s))
    (hid : (full.map (fun s => s.loader.id)).Nodup)
    (config : MeshConfig) (hp : ProperGrid b W H) (hcr : b.longMin < b.longMax) (hh : b.latMin < b.latMax)
    (hcol : b.longMin = -180 ∧ b.longMax = 180 → W ≤ 180) (hacc : MeshBuilder.validateBounds b W H = .ok ()) (depth : ℕ) :
    ∃ m0, MeshBuilder.init b W H (fun q => trimSources q full) depth = .ok m0 ∧ ∃ N em, BuiltOK b W H depth em ∧ em.config = config ∧
      (∀ fuel, N ≤ fuel → MeshBuilder.buildEnvironmentalMesh (sourceOps S C) aggregate fuel config m0 = .ok em) ∧
      (NoLocks verdict (Inner b) full → ∀ q, (∃ c ∈ em.cells, c.bounds = q) ↔
        ∃ k, Refined (Wants verdict full) (GridBox b W H) depth k q ∧ (k = depth ∨ ¬ Wants verdict full q)) ∧
      ∀ c ∈ em.cells, ∃ anc, Lineage (GridBox b W H) (c.bounds :: anc) ∧ ∃ w : Source S C → String → Option ℚ,
        (∀ s ∈ full, ∀ n ∈ splitName s.loader.dataName, Filled (fun q => value s q n) s.fill c.bounds anc (w s n)) ∧ ∀ n,
        ((∀ s ∈ full, n ∉ splitName s.loader.dataName) → c.data.get? n = none) ∧
        ((∃ s ∈ full, n ∈ splitName s.loader.dataName) → ∃ v, c.data.get? n = some (.num v) ∧
          Merged (fun s : Source S C => ',' ∈ s.loader.dataName.toList) (fun s => w s n)
            (full.filter (fun s => decide (n ∈ splitName s.loader.dataName))) v) := by
  have hcol' : b.width = 360 → W ≤ 180 := by
    intro h
    rw [width_of_lt hcr] at h
    obtain ⟨-, v1, v2, v3, v4, -⟩ := hp.valid
    exact hcol ⟨by linarith, by linarith⟩
  obtain ⟨m0, h0, N, em, hbuild, h1, h2⟩ := faithful_values hf hv hid config (inner_system hp hcr hacc) hp hh hcol'
    hacc depth
  obtain ⟨m0', h0', N', hC⟩ := C52_build_partial (sourceOps S C) aggregate config b W H hp hcr hh hcol hacc
    (fun q => trimSources q full) depth
  have e0 : m0' = m0 := by rw [h0] at h0'; simpa using h0'.symm
  subst e0
  have hwell : BuiltOK b W H depth em ∧ em.config = config := by
    rcases hC (max N N') (by omega) with ⟨em', m', h1, h2, h3, -⟩ | ⟨e, h1, -⟩
    · rw [hbuild _ (by omega)] at h1
      cases h1
      exact ⟨h2, h3⟩
    · rw [hbuild _ (by omega)] at h1
      cases h1
  exact ⟨m0', h0, N, em, hwell.1, hwell.2, hbuild, h1, h2⟩

end Verif
