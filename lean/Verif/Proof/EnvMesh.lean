import Mathlib.Data.List.Nodup
import Verif.Spec.EnvMesh
import Verif.Proof.EnvSplit
import Verif.Proof.Removal
import Verif.Props.Boundary

/-!
# Invariants of aggregated meshes
-/

namespace Verif
open Spec

theorem getCellbox_some {cells : List AggCell} {i : ℕ} {c : AggCell} (h : EnvMesh.getCellbox cells i = some c) :
    c ∈ cells ∧ c.id = i := by
  unfold EnvMesh.getCellbox at h
  exact ⟨List.mem_of_find?_eq_some h, by simpa using List.find?_some h⟩

theorem getCellbox_mem {cells : List AggCell} (hids : (cells.map (·.id)).Nodup) {c : AggCell} (hc : c ∈ cells) :
    EnvMesh.getCellbox cells c.id = some c := by
  cases h : EnvMesh.getCellbox cells c.id with
  | none =>
    unfold EnvMesh.getCellbox at h
    rw [List.find?_eq_none] at h
    exact absurd (h c hc) (by simp)
  | some x =>
    obtain ⟨hx, hid⟩ := getCellbox_some h
    rw [List.inj_on_of_nodup_map hids hx hc hid]

theorem envRect_iff {m : EnvMesh} (hids : (m.cells.map (·.id)).Nodup) (i : ℕ) (r : Rect) :
    envRect m i = some r ↔ ∃ c ∈ m.cells, c.id = i ∧ rectOf c.bounds = r := by
  constructor
  · intro h
    unfold envRect at h
    rw [Option.map_eq_some_iff] at h
    obtain ⟨c, hc, rfl⟩ := h
    obtain ⟨h1, h2⟩ := getCellbox_some hc
    exact ⟨c, h1, h2, rfl⟩
  · rintro ⟨c, hc, rfl, rfl⟩
    have := getCellbox_mem hids hc
    unfold EnvMesh.getCellbox at this
    unfold envRect
    rw [this]; rfl

theorem le_foldl_max (cells : List AggCell) (a : ℕ) :
    a ≤ cells.foldl (fun acc c => if c.id > acc then c.id else acc) a ∧
    ∀ c ∈ cells, c.id ≤ cells.foldl (fun acc c => if c.id > acc then c.id else acc) a := by
  induction cells generalizing a with
  | nil => simp
  | cons x l ih =>
    obtain ⟨h1, h2⟩ := ih (if x.id > a then x.id else a)
    simp only [List.foldl_cons, List.mem_cons]
    constructor
    · refine le_trans ?_ h1; split <;> omega
    · rintro c (rfl | hc)
      · refine le_trans ?_ h1; split <;> omega
      · exact h2 c hc

theorem le_maxId {cells : List AggCell} {c : AggCell} (hc : c ∈ cells) : c.id ≤ EnvMesh.maxId cells :=
  (le_foldl_max cells 0).2 c hc

theorem EnvOK.pos {m : EnvMesh} (h : EnvOK m) {c : AggCell} (hc : c ∈ m.cells) : CellOK false (rectOf c.bounds) :=
  h.graph.ok c.id _ ((envRect_iff h.ids _ _).2 ⟨c, hc, rfl, rfl⟩)

/-- `Boundary.split` of a box of positive size that does not cross the antimeridian. -/
theorem split_noncrossing (b : Boundary) (hv : Valid b) (hp : (rectOf b).Pos) :
    ∃ f : Spec.Quad → Boundary, b.split = .ok [f .sw, f .nw, f .se, f .ne] ∧
      (∀ q, rectOf (f q) = (rectOf b).quarter q ∧ Valid (f q) ∧ (f q).time = b.time ∧
        (f q).width = b.width / 2 ∧ (f q).height = b.height / 2) ∧
      Tiles [f .sw, f .nw, f .se, f .ne] b := by
  obtain ⟨h1, h2⟩ := hp
  simp only [rectOf] at h1 h2
  have hw := width_of_lt h1
  have hv' := hv
  obtain ⟨v1, v2, v3, v4, v5, v6⟩ := hv
  have hE : eastEdge b = b.longMax := by simp [eastEdge, h1]
  have hd : ¬ (b.longMin = 180 ∧ b.longMax = -180) := by rintro ⟨e1, e2⟩; linarith
  have hmid : b.longMin + (eastEdge b - b.longMin) / 2 ≤ 180 := by rw [hE]; linarith
  obtain ⟨l, hl, h4, ht, hall⟩ := C07_split_partial b hv' hd hmid
  have mkOk : ∀ a a' c d : ℚ, a ≤ a' → -180 ≤ c → d ≤ 180 →
      Boundary.mk? [a, a'] [c, d] b.time = .ok ⟨a, a', c, d, b.time⟩ := by
    intro a a' c d ha hc hd
    exact (C03_construction_table _ _ _ _).2 ⟨_, _, [], _, _, [], rfl, rfl, ha, hc, hd, v6, rfl⟩
  have hs : b.split = .ok [⟨b.latMin, b.latMin + b.height / 2, b.longMin, b.longMin + b.width / 2, b.time⟩,
      ⟨b.latMin + b.height / 2, b.latMax, b.longMin, b.longMin + b.width / 2, b.time⟩,
      ⟨b.latMin, b.latMin + b.height / 2, b.longMin + b.width / 2, b.longMax, b.time⟩,
      ⟨b.latMin + b.height / 2, b.latMax, b.longMin + b.width / 2, b.longMax, b.time⟩] := by
    have hh : b.height = b.latMax - b.latMin := rfl
    have e1 := mkOk b.latMin (b.latMin + b.height / 2) b.longMin (b.longMin + b.width / 2) (by linarith) (by linarith) (by linarith)
    have e2 := mkOk (b.latMin + b.height / 2) b.latMax b.longMin (b.longMin + b.width / 2) (by linarith) (by linarith) (by linarith)
    have e3 := mkOk b.latMin (b.latMin + b.height / 2) (b.longMin + b.width / 2) b.longMax (by linarith) (by linarith) (by linarith)
    have e4 := mkOk (b.latMin + b.height / 2) b.latMax (b.longMin + b.width / 2) b.longMax (by linarith) (by linarith) (by linarith)
    simp only [Boundary.split, e1, e2, e3, e4, bind, Except.bind, pure, Except.pure]
  rw [hs] at hl
  injection hl with hl
  subst hl
  refine ⟨fun q => match q with
    | .sw => ⟨b.latMin, b.latMin + b.height / 2, b.longMin, b.longMin + b.width / 2, b.time⟩
    | .nw => ⟨b.latMin + b.height / 2, b.latMax, b.longMin, b.longMin + b.width / 2, b.time⟩
    | .se => ⟨b.latMin, b.latMin + b.height / 2, b.longMin + b.width / 2, b.longMax, b.time⟩
    | .ne => ⟨b.latMin + b.height / 2, b.latMax, b.longMin + b.width / 2, b.longMax, b.time⟩, hs, ?_, ht⟩
  intro q
  have hh : b.height = b.latMax - b.latMin := rfl
  refine ⟨?_, ?_⟩
  · cases q <;> simp only [rectOf, Rect.quarter, hw, hh] <;> ext <;> simp only <;> ring
  · cases q <;> exact hall _ (by simp)

/-- The ids given to the four quarters. -/
def envChild (mx : ℕ) : Spec.Quad → ℕ
  | .sw => mx + 1 | .nw => mx + 2 | .se => mx + 3 | .ne => mx + 4

theorem envChild_inj (mx : ℕ) : Function.Injective (envChild mx) := by
  intro a b h
  cases a <;> cases b <;> simp [envChild] at h ⊢

theorem eraseP_append_unique {α : Type} (p : α → Bool) (l l' : List α) (c : α) (hc : c ∈ l) (hp : p c = true)
    (hu : ∀ x ∈ l, p x = true → x = c) (hnd : l.Nodup) [DecidableEq α] :
    (l ++ l').eraseP p = l.filter (fun x => x ≠ c) ++ l' := by
  rw [List.eraseP_append_left hp _ hc]
  congr 1
  obtain ⟨pre, suf, rfl⟩ := List.append_of_mem hc
  rw [List.nodup_append] at hnd
  obtain ⟨h1, h2, h3⟩ := hnd
  have h2' := (List.nodup_cons.1 h2).1
  have hpre : ∀ x ∈ pre, ¬ p x = true := by
    intro x hx hpx
    have := hu x (by simp [hx]) hpx
    exact h3 x hx c (by simp) this
  rw [List.eraseP_append_right _ hpre, List.eraseP_cons_of_pos hp, List.filter_append, List.filter_cons]
  simp only [ne_eq, not_true_eq_false, decide_false, Bool.false_eq_true, if_false]
  congr 1
  · symm; rw [List.filter_eq_self]
    intro a ha
    simpa using h3 a ha c (by simp)
  · symm; rw [List.filter_eq_self]
    intro a ha
    simp only [decide_eq_true_eq]
    rintro rfl
    exact h2' ha

theorem AggCell.pyEq_self (c : AggCell) : c.pyEq c = true := by simp [AggCell.pyEq, Boundary.pyEq]

theorem AggCell.pyEq_id {a c : AggCell} (h : a.pyEq c = true) : a.id = c.id := by
  simp only [AggCell.pyEq, Bool.and_eq_true, decide_eq_true_eq] at h
  exact h.1.1

theorem nodup_of_ids {cells : List AggCell} (h : (cells.map (·.id)).Nodup) : cells.Nodup := List.Nodup.of_map _ h

theorem removeFromList_eq {cells : List AggCell} (hids : (cells.map (·.id)).Nodup) {c : AggCell} (hc : c ∈ cells) (l : List AggCell) :
    EnvMesh.removeFromList (cells ++ l) c = cells.filter (fun x => x ≠ c) ++ l := by
  unfold EnvMesh.removeFromList
  exact eraseP_append_unique (fun x => x.pyEq c) cells l c hc c.pyEq_self
    (fun x hx h => List.inj_on_of_nodup_map hids hx hc (AggCell.pyEq_id h)) (nodup_of_ids hids)

/-- **One split of an aggregated mesh.** -/
theorem envSplit_ok (m : EnvMesh) (h : EnvOK m) (hl : Loaded m) (c : AggCell) (hc : c ∈ m.cells) :
    ∃ (m' : EnvMesh) (f : Spec.Quad → AggCell), m.splitAndReplace c.id = .ok m' ∧ EnvOK m' ∧ Loaded m' ∧ m'.config = m.config ∧ m'.bounds = m.bounds ∧
      m'.graph.isGlobal = m.graph.isGlobal ∧
      m'.cells = m.cells.filter (fun x => x ≠ c) ++ [f .sw, f .nw, f .se, f .ne] ∧
      Tiles ([f .sw, f .nw, f .se, f .ne].map (·.bounds)) c.bounds ∧
      ∀ q, (f q).id = envChild (EnvMesh.maxId m.cells) q ∧ rectOf (f q).bounds = (rectOf c.bounds).quarter q ∧
        Valid (f q).bounds ∧ (f q).bounds.time = c.bounds.time ∧ (f q).bounds.width = c.bounds.width / 2 ∧
        (f q).bounds.height = c.bounds.height / 2 ∧ SameData (f q) c := by
  have hpos := EnvOK.pos h hc
  obtain ⟨fb, hs, hfb, ht⟩ := split_noncrossing c.bounds (h.valid c hc) hpos.1
  set mx := EnvMesh.maxId m.cells with hmx
  set f : Spec.Quad → AggCell := fun q => EnvMesh.splitCell c (fb q) (envChild mx q) with hf
  have hsim : EnvMesh.simSplit m.cells c.id = .ok [f .sw, f .nw, f .se, f .ne] := by
    unfold EnvMesh.simSplit
    rw [getCellbox_mem h.ids hc]
    simp only [bind, Except.bind, hs]
    rfl
  have fresh : ∀ x ∈ m.cells, ∀ q, x.id ≠ (f q).id := by
    intro x hx q
    have := le_maxId hx
    rw [← hmx] at this
    cases q <;> simp [hf, EnvMesh.splitCell, envChild] <;> omega
  have hids4 : (([f .sw, f .nw, f .se, f .ne] : List AggCell).map (·.id)).Nodup := by
    simp [hf, EnvMesh.splitCell, envChild]
  have hfmem : ∀ x, x ∈ ([f .sw, f .nw, f .se, f .ne] : List AggCell) ↔ ∃ q, x = f q := by
    intro x
    simp only [List.mem_cons, List.not_mem_nil, or_false]
    constructor
    · rintro (h | h | h | h) <;> exact ⟨_, h⟩
    · rintro ⟨q, rfl⟩; cases q <;> simp
  have hidsAll : ((m.cells ++ [f .sw, f .nw, f .se, f .ne]).map (·.id)).Nodup := by
    rw [List.map_append, List.nodup_append]
    refine ⟨h.ids, hids4, ?_⟩
    intro a ha b hb
    obtain ⟨x, hx, rfl⟩ := List.mem_map.1 ha
    obtain ⟨y, hy, rfl⟩ := List.mem_map.1 hb
    obtain ⟨q, rfl⟩ := (hfmem y).1 hy
    exact fresh x hx q
  have bndOf : ∀ x ∈ m.cells ++ [f .sw, f .nw, f .se, f .ne],
      EnvMesh.boundsOf (m.cells ++ [f .sw, f .nw, f .se, f .ne]) x.id = .ok x.bounds := by
    intro x hx
    unfold EnvMesh.boundsOf
    rw [getCellbox_mem hidsAll hx]
  obtain ⟨g', hg', hgg, hE⟩ := envSplitGraph_exact (envRect m) m.graph h.graph c.id (rectOf c.bounds)
    ((envRect_iff h.ids _ _).2 ⟨c, hc, rfl, rfl⟩) (envChild mx)
    (by
      intro q
      rw [Option.eq_none_iff_forall_ne_some]
      intro r hr
      obtain ⟨x, hx, hid, -⟩ := (envRect_iff h.ids _ _).1 hr
      exact fresh x hx q hid)
    (envChild_inj mx) (EnvMesh.boundsOf (m.cells ++ [f .sw, f .nw, f .se, f .ne]))
    (by
      intro i r hr
      obtain ⟨x, hx, rfl, rfl⟩ := (envRect_iff h.ids _ _).1 hr
      exact ⟨_, bndOf x (List.mem_append_left _ hx), rfl⟩)
    (by
      intro q
      exact ⟨_, bndOf (f q) (List.mem_append_right _ ((hfmem _).2 ⟨q, rfl⟩)), (hfb q).1⟩)
  have hfilt : ∀ x, x ∈ m.cells.filter (fun x => x ≠ c) ++ [f .sw, f .nw, f .se, f .ne] ↔
      (x ∈ m.cells ∧ x ≠ c) ∨ ∃ q, x = f q := by
    intro x
    rw [List.mem_append, hfmem, List.mem_filter]; simp
  let m' : EnvMesh := { m with cells := m.cells.filter (fun x => x ≠ c) ++ [f .sw, f .nw, f .se, f .ne], graph := g' }
  have hids' : (m'.cells.map (·.id)).Nodup := by
    exact List.Nodup.sublist (List.Sublist.map _ (List.Sublist.append List.filter_sublist (List.Sublist.refl _))) hidsAll
  refine ⟨m', f, ?_, ⟨hids', ?_, ?_⟩, hl, rfl, rfl, hgg, rfl, ?_, ?_⟩
  · unfold EnvMesh.splitAndReplace
    rw [hsim]
    simp only [bind, Except.bind]
    rw [if_neg (by rw [hl.1, hl.2]; simp)]
    have hg'' : EnvMesh.splitGraph (EnvMesh.boundsOf (m.cells ++ [f .sw, f .nw, f .se, f .ne])) m.graph c.id
      (EnvMesh.maxId m.cells + 2) (EnvMesh.maxId m.cells + 4) (EnvMesh.maxId m.cells + 1) (EnvMesh.maxId m.cells + 3) = .ok g' := hg'
    rw [hg'']
    simp only
    rw [getCellbox_mem hidsAll (List.mem_append_left _ hc)]
    simp only
    rw [removeFromList_eq h.ids hc]
    rfl
  · intro x hx
    rcases (hfilt x).1 hx with ⟨hx, -⟩ | ⟨q, rfl⟩
    · exact h.valid x hx
    · exact (hfb q).2.1
  · have hcells : envRect m' = replaced (envRect m) c.id (rectOf c.bounds) (envChild mx) := by
      funext i
      have hkc : ∀ q, c.id ≠ envChild mx q := fun q => fresh c hc q
      apply Option.ext
      intro r
      rw [envRect_iff hids']
      constructor
      · rintro ⟨x, hx, rfl, rfl⟩
        rcases (hfilt x).1 hx with ⟨hx, hne⟩ | ⟨q, rfl⟩
        · have h1 : x.id ≠ c.id := fun hid => hne (List.inj_on_of_nodup_map h.ids hx hc hid)
          rw [replaced_other (ch := envChild mx) h1 (fun q => fresh x hx q)]
          exact (envRect_iff h.ids _ _).2 ⟨x, hx, rfl, rfl⟩
        · have := replaced_child (cell := envRect m) (k := c.id) (K := rectOf c.bounds) (envChild_inj mx) hkc q
          exact this.trans (by rw [← (hfb q).1]; rfl)
      · intro hr
        by_cases h1 : i = c.id
        · subst h1; rw [replaced_self] at hr; cases hr
        · by_cases h2 : ∃ q, i = envChild mx q
          · obtain ⟨q, rfl⟩ := h2
            rw [replaced_child (envChild_inj mx) hkc] at hr
            cases hr
            exact ⟨f q, (hfilt _).2 (Or.inr ⟨q, rfl⟩), rfl, (hfb q).1⟩
          · rw [replaced_other h1 (fun q hq => h2 ⟨q, hq⟩)] at hr
            obtain ⟨x, hx, rfl, rfl⟩ := (envRect_iff h.ids _ _).1 hr
            exact ⟨x, (hfilt x).2 (Or.inl ⟨hx, fun e => h1 (by rw [e])⟩), rfl, rfl⟩
    rw [hcells]
    exact hE
  · exact ht
  · intro q
    refine ⟨rfl, (hfb q).1, (hfb q).2.1, (hfb q).2.2.1, (hfb q).2.2.2.1, (hfb q).2.2.2.2, ?_⟩
    intro key hkey
    show (c.data.set "id" _).get? key = _
    rw [Dict.get?_set, if_neg (fun e => hkey e.symm)]

/-- A box tiled by boxes may be replaced by these boxes. -/
theorem Spec.Tiles.replace {l l' : List Boundary} {b c : Boundary} {pre suf : List Boundary} (h : Tiles l b) (hl : l = pre ++ c :: suf)
    (h' : Tiles l' c) : Tiles (pre ++ suf ++ l') b := by
  subst hl
  obtain ⟨h1, h2⟩ := h
  obtain ⟨h3, h4⟩ := h'
  constructor
  · intro x y
    rw [h1 x y]
    constructor
    · rintro ⟨d, hd, hx⟩
      rw [List.mem_append, List.mem_cons] at hd
      rcases hd with hd | rfl | hd
      · exact ⟨d, by simp [hd], hx⟩
      · obtain ⟨e, he, hx⟩ := (h3 x y).1 hx
        exact ⟨e, by simp [he], hx⟩
      · exact ⟨d, by simp [hd], hx⟩
    · rintro ⟨d, hd, hx⟩
      rw [List.mem_append, List.mem_append] at hd
      rcases hd with (hd | hd) | hd
      · exact ⟨d, by simp [hd], hx⟩
      · exact ⟨d, by simp [hd], hx⟩
      · exact ⟨c, by simp, (h3 x y).2 ⟨d, hd, hx⟩⟩
  · rw [List.pairwise_append, List.pairwise_cons] at h2
    obtain ⟨p1, ⟨p2, p3⟩, p4⟩ := h2
    rw [List.pairwise_append, List.pairwise_append]
    refine ⟨⟨p1, p3, fun a ha b hb => p4 a ha b (by simp [hb])⟩, h4, ?_⟩
    intro a ha d hd x y hxy
    have hcx := (h3 x y).2 ⟨d, hd, hxy.2⟩
    rw [List.mem_append] at ha
    rcases ha with ha | ha
    · exact p4 a ha c (by simp) x y ⟨hxy.1, hcx⟩
    · exact p2 a ha x y ⟨hcx, hxy.1⟩

theorem filter_ne_split {α : Type} [DecidableEq α] {l : List α} (hnd : l.Nodup) {c : α} (hc : c ∈ l) :
    ∃ pre suf, l = pre ++ c :: suf ∧ l.filter (fun x => x ≠ c) = pre ++ suf := by
  obtain ⟨pre, suf, rfl⟩ := List.append_of_mem hc
  refine ⟨pre, suf, rfl, ?_⟩
  rw [List.nodup_append] at hnd
  obtain ⟨h1, h2, h3⟩ := hnd
  have h2' := (List.nodup_cons.1 h2).1
  rw [List.filter_append, List.filter_cons]
  simp only [ne_eq, not_true_eq_false, decide_false, Bool.false_eq_true, if_false]
  congr 1
  · rw [List.filter_eq_self]
    intro a ha
    simpa using h3 a ha c (by simp)
  · rw [List.filter_eq_self]
    intro a ha
    simp only [decide_eq_true_eq]
    rintro rfl
    exact h2' ha

end Verif
