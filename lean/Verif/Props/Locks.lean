import Verif.Props.Mixed
import Verif.Proof.SplitTurns

/-!
# Meshes from sources that lock

Which cells a mesh has if some conditions prevent splitting (C114).
-/

namespace Verif
open Spec

/-! ## Specification -/

/-- The sources together want a box divided: one finds it inhomogeneous, and none prevents it. -/
def Spec.Agreed (l : List (Source AnyData AnyCond)) (q : Boundary) : Prop := (∃ s ∈ l, Uneven q s) ∧ ∀ s ∈ l, ¬ Locks q s

/-! ## The cells -/

theorem divides_agreed {b q : Boundary} {l : List (Source AnyData AnyCond)} (hf : ∀ s ∈ l, PlainAny b s ∧ Decided s) (hq : Inner b q) :
    Divides ownVerdict l q ↔ Agreed l q := by
  constructor
  · rintro ⟨h1, s, hs, h2⟩
    refine ⟨⟨s, hs, (any_uneven (hf s hs).1 (hf s hs).2 hq).1 h2⟩, ?_⟩
    intro t ht hl
    obtain ⟨c, hc, hv⟩ := (any_locks (hf t ht).1 (hf t ht).2 hq).2 hl
    exact hv (h1 t ht c hc)
  · rintro ⟨⟨s, hs, h1⟩, h2⟩
    refine ⟨?_, s, hs, (any_uneven (hf s hs).1 (hf s hs).2 hq).2 h1⟩
    intro t ht c hc
    by_contra hv
    exact h2 t ht ((any_locks (hf t ht).1 (hf t ht).2 hq).1 ⟨c, hc, hv⟩)

/-- **C114**: from sources of the three kinds, whether they lock or not, a mesh is built without raising, and its cells are exactly
those that come out if the sources take turns: in the turn of a source each box above the depth is divided that some source so far finds
inhomogeneous and no source so far locks. -/
theorem C114_cells {b : Boundary} {W H : ℚ} {full : List (Source AnyData AnyCond)} (hf : ∀ s ∈ full, PlainAny b s)
    (hid : (full.map (fun s => s.loader.id)).Nodup) (hd : ∀ s ∈ full, Decided s)
    (config : MeshConfig) (hp : ProperGrid b W H) (hcr : b.longMin < b.longMax) (hh : b.latMin < b.latMax)
    (hcol : b.longMin = -180 ∧ b.longMax = 180 → W ≤ 180) (hacc : MeshBuilder.validateBounds b W H = .ok ()) (depth : ℕ) :
    ∃ m0, MeshBuilder.init b W H (fun q => trimSources q full) depth = .ok m0 ∧ ∃ N em,
      (∀ fuel, N ≤ fuel → MeshBuilder.buildEnvironmentalMesh (sourceOps AnyData AnyCond) aggregate fuel config m0 = .ok em) ∧
      ∀ q, (∃ c ∈ em.cells, c.bounds = q) ↔ ∃ k, byTurns quarters Agreed depth [] full (fun k q => k = 0 ∧ GridBox b W H q) k q := by
  obtain ⟨value, -, m0, h0, N, em, -, -, hb, -⟩ := C110_values hf hid config hp hcr hh hcol hacc depth
  refine ⟨m0, h0, N, em, hb, fun q => ?_⟩
  have hcol' : b.width = 360 → W ≤ 180 := by
    intro h
    rw [width_of_lt hcr] at h
    obtain ⟨-, v1, v2, v3, v4, -⟩ := hp.valid
    exact hcol ⟨by linarith, by linarith⟩
  rw [turns_built (In := Inner b) (fun s hs => any_faithful (hf s hs)) (fun q hq => hq.1) (inner_system hp hcr hacc) hp hh hcol'
    hacc h0 hb q]
  rw [byTurns_congr (In := Inner b) (fun p q hp hq => (inner_quarter hp hq).trans hp) full [] _
    (fun k q h => gridBox_proper hp hcr h.2) (fun l hl q hq => divides_agreed (fun s hs => ⟨hf s (by simpa using hl s hs), hd s (by simpa using hl s hs)⟩) hq)]

/-- **C114**, what locks: every cell has a line of boxes it was split from.  Each of these was divided in the turn of some source: some
source up to it found the box inhomogeneous, and none of those up to it locked the box.  So a box that a source locks and that no
source before it finds inhomogeneous is never divided. -/
theorem C114_locked {b : Boundary} {W H : ℚ} {full : List (Source AnyData AnyCond)} (hf : ∀ s ∈ full, PlainAny b s)
    (hid : (full.map (fun s => s.loader.id)).Nodup) (hd : ∀ s ∈ full, Decided s)
    (config : MeshConfig) (hp : ProperGrid b W H) (hcr : b.longMin < b.longMax) (hh : b.latMin < b.latMax)
    (hcol : b.longMin = -180 ∧ b.longMax = 180 → W ≤ 180) (hacc : MeshBuilder.validateBounds b W H = .ok ()) (depth : ℕ) :
    ∃ m0, MeshBuilder.init b W H (fun q => trimSources q full) depth = .ok m0 ∧ ∃ N em,
      (∀ fuel, N ≤ fuel → MeshBuilder.buildEnvironmentalMesh (sourceOps AnyData AnyCond) aggregate fuel config m0 = .ok em) ∧
      ∀ c ∈ em.cells, ∃ anc, Lineage (GridBox b W H) (c.bounds :: anc) ∧ anc.length ≤ depth ∧
        ∀ p ∈ anc, (∃ l s r, full = l ++ s :: r ∧ Agreed (l ++ [s]) p) ∧
          ∀ l s r, full = l ++ s :: r → Locks p s → ∃ t ∈ l, Uneven p t := by
  obtain ⟨m0, h0, N, em, hb, hcells⟩ := C114_cells hf hid hd config hp hcr hh hcol hacc depth
  refine ⟨m0, h0, N, em, hb, fun c hc => ?_⟩
  obtain ⟨k, hk⟩ := (hcells _).1 ⟨c, hc, rfl⟩
  obtain ⟨anc, h1, h2, h3⟩ := byTurns_lineage (start := GridBox b W H) full [] _ (by
    rintro k q ⟨rfl, hq⟩
    exact ⟨[], .root hq, rfl, by simp⟩) k _ hk
  refine ⟨anc, h1, ?_, ?_⟩
  · rw [h2]
    exact byTurns_depth full [] _ (by rintro k q ⟨rfl, -⟩; exact Nat.zero_le _) _ _ hk
  · intro p hpa
    obtain ⟨l, s, r, e, ha⟩ := h3 p hpa
    rw [List.nil_append] at e
    refine ⟨⟨l, s, r, e, ha⟩, ?_⟩
    intro l' s' r' e' hl
    have hns : s' ∉ l ++ [s] := fun h => ha.2 s' h hl
    rw [e] at e'
    have hpre : l ++ [s] <+: l' := by
      have h1 : l ++ [s] <+: l ++ s :: r := ⟨r, by simp⟩
      have h2 : l' ++ [s'] <+: l ++ s :: r := ⟨r', by rw [e']; simp⟩
      rcases List.prefix_or_prefix_of_prefix h1 h2 with h | h
      · rcases List.prefix_concat_iff.1 h with h | h
        · exact absurd (by rw [h]; simp) hns
        · exact h
      · exact absurd (h.subset (by simp)) hns
    obtain ⟨t, ht, hu⟩ := ha.1
    exact ⟨t, hpre.subset ht, hu⟩

/-- In particular what the first source locks stays in one piece. -/
theorem C114_first {b : Boundary} {W H : ℚ} {first : Source AnyData AnyCond} {others : List (Source AnyData AnyCond)}
    (hf : ∀ s ∈ first :: others, PlainAny b s) (hid : ((first :: others).map (fun s => s.loader.id)).Nodup) (hd : ∀ s ∈ first :: others, Decided s)
    (config : MeshConfig) (hp : ProperGrid b W H) (hcr : b.longMin < b.longMax) (hh : b.latMin < b.latMax)
    (hcol : b.longMin = -180 ∧ b.longMax = 180 → W ≤ 180) (hacc : MeshBuilder.validateBounds b W H = .ok ()) (depth : ℕ) :
    ∃ m0, MeshBuilder.init b W H (fun q => trimSources q (first :: others)) depth = .ok m0 ∧ ∃ N em,
      (∀ fuel, N ≤ fuel → MeshBuilder.buildEnvironmentalMesh (sourceOps AnyData AnyCond) aggregate fuel config m0 = .ok em) ∧
      ∀ c ∈ em.cells, ∃ anc, Lineage (GridBox b W H) (c.bounds :: anc) ∧ ∀ p ∈ anc, ¬ Locks p first := by
  obtain ⟨m0, h0, N, em, hb, h⟩ := C114_locked hf hid hd config hp hcr hh hcol hacc depth
  refine ⟨m0, h0, N, em, hb, fun c hc => ?_⟩
  obtain ⟨anc, h1, -, h2⟩ := h c hc
  refine ⟨anc, h1, fun p hpa hl => ?_⟩
  obtain ⟨t, ht, -⟩ := (h2 p hpa).2 [] first others rfl hl
  cases ht

/-! ## Locks of later sources -/

/-- The sources of `exLock`: the first finds the region inhomogeneous, the second locks it. -/
theorem exLock_plain {l : List (Source (Dataset (Option ℚ)) Cond)} (hl : ∀ s ∈ l, s ∈ exLock) :
    (∀ s ∈ l.map Source.ofScalar, PlainAny exRegion s) ∧ ∀ s ∈ l.map Source.ofScalar, Decided s := by
  refine ⟨?_, ?_⟩
  · intro s hs
    obtain ⟨t, ht, rfl⟩ := List.mem_map.1 hs
    have := hl t ht
    simp only [exLock, List.mem_cons, List.not_mem_nil, or_false] at this
    rcases this with rfl | rfl
    · exact .scalar ⟨⟨_, _, _, _, rfl, by decide, by simp⟩, Or.inl rfl, trivial, _, rfl⟩
    · exact .scalar ⟨⟨_, _, _, _, rfl, by decide, by simp⟩, Or.inl rfl, trivial, _, rfl⟩
  · intro s hs
    obtain ⟨t, ht, rfl⟩ := List.mem_map.1 hs
    exact .scalar

theorem exLock_uneven {s : Source (Dataset (Option ℚ)) Cond} (h : exLock[0]? = some s) : Uneven exRegion (.ofScalar s) := by
  simp only [exLock, List.getElem?_cons_zero, Option.some.injEq] at h
  subst h
  refine .scalar rfl (List.mem_singleton.2 rfl) ?_ ?_ ?_ <;> decide +kernel

theorem exLock_locks {s : Source (Dataset (Option ℚ)) Cond} (h : exLock[1]? = some s) : Locks exRegion (.ofScalar s) := by
  simp only [exLock, List.getElem?_cons_succ, List.getElem?_cons_zero, Option.some.injEq] at h
  subst h
  refine .scalar rfl (List.mem_singleton.2 rfl) rfl ?_ ?_ ?_ <;> decide +kernel

theorem exRegion_whole : ProperGrid exRegion 20 10 := by
  refine ⟨by norm_num [Valid, exRegion], by norm_num [exRegion], by norm_num, by norm_num, ?_⟩
  intro _
  exact ⟨1, by norm_num [Boundary.width, exRegion]⟩

theorem exRegion_box : GridBox exRegion 20 10 exRegion := ⟨0, 0, by norm_num [exRegion], by norm_num [exRegion], by norm_num [exRegion]⟩

theorem exRegion_only {q : Boundary} (h : GridBox exRegion 20 10 q) : q = exRegion := by
  obtain ⟨i, j, rfl, h1, h2⟩ := h
  norm_num [exRegion] at h1 h2
  have hi : (i : ℚ) < 1 := by linarith
  have hj : (j : ℚ) < 1 := by linarith
  have hi : i = 0 := by have : i < 1 := by exact_mod_cast hi
                        omega
  have hj : j = 0 := by have : j < 1 := by exact_mod_cast hj
                        omega
  subst hi hj
  norm_num [exRegion]

/-- **C114**: that a locked box is never divided is false.  The lock of the second source does not hold against the first, and this
although the sources together do not want the box divided. -/
theorem C114_lock_false : ∃ (full : List (Source AnyData AnyCond)) (b p : Boundary) (m0 : MeshState (List (Source AnyData AnyCond))) (N : ℕ) (em : EnvMesh),
    (∀ s ∈ full, PlainAny b s) ∧ MeshBuilder.init b 20 10 (fun q => trimSources q full) 1 = .ok m0 ∧
    (∀ fuel, N ≤ fuel → MeshBuilder.buildEnvironmentalMesh (sourceOps AnyData AnyCond) aggregate fuel exConfig m0 = .ok em) ∧
    GridBox b 20 10 p ∧ (∃ s ∈ full, Locks p s) ∧ ¬ Agreed full p ∧ ¬ (∃ c ∈ em.cells, c.bounds = p) ∧ ∀ q ∈ quarters p, ∃ c ∈ em.cells, c.bounds = q := by
  obtain ⟨h1, h2⟩ := exLock_plain (l := exLock) (fun _ h => h)
  obtain ⟨m0, h0, N, em, hb, hcells⟩ := C114_cells (W := 20) (H := 10) h1 (by decide) h2 exConfig exRegion_whole (by norm_num [exRegion])
    (by norm_num [exRegion]) (by norm_num [exRegion]) (by decide +kernel) 1
  have hu := exLock_uneven rfl
  have hl := exLock_locks rfl
  have hag : Agreed [Source.ofScalar exLock[0]] exRegion := by
    refine ⟨⟨_, List.mem_singleton.2 rfl, hu⟩, ?_⟩
    intro s hs
    rw [List.mem_singleton] at hs
    subst hs
    exact Unlocked.not_locks (.scalar (by intro c hc; rw [show exLock[0].conds = [⟨3, 0, 1, false⟩] from rfl, List.mem_singleton] at hc; subst hc; rfl))
  have hbox : ∀ q, GridBox exRegion 20 10 q → q = exRegion := fun q h => exRegion_only h
  refine ⟨_, exRegion, exRegion, m0, N, em, h1, h0, hb, exRegion_box, ⟨_, by simp [exLock], hl⟩, ?_, ?_, ?_⟩
  · exact fun h => h.2 _ (by simp [exLock]) hl
  · rw [hcells]
    rintro ⟨k, hk⟩
    replace hk : turn quarters (Agreed (exLock.map Source.ofScalar)) 1
      (turn quarters (Agreed [Source.ofScalar exLock[0]]) 1 (fun k q => k = 0 ∧ GridBox exRegion 20 10 q)) k exRegion := hk
    have hone : ∀ k q, turn quarters (Agreed [Source.ofScalar exLock[0]]) 1 (fun k q => k = 0 ∧ GridBox exRegion 20 10 q) k q →
        k = 1 ∧ q ∈ quarters exRegion := by
      rintro k q ⟨hd, he⟩
      cases hd with
      | cell h =>
        obtain ⟨rfl, h⟩ := h
        rw [hbox q h] at he
        rcases he with he | he
        · omega
        · exact absurd hag he
      | quarter hd hk hw hq =>
        cases hd with
        | cell h =>
          obtain ⟨rfl, h⟩ := h
          rw [hbox _ h] at hq
          exact ⟨rfl, hq⟩
        | quarter => omega
    obtain ⟨hd, -⟩ := hk
    cases hd with
    | cell h =>
      have := (hone _ _ h).2
      norm_num [quarters, exRegion] at this
    | quarter hd hk _ _ =>
      cases hd with
      | cell h => have := (hone _ _ h).1; omega
      | quarter => omega
  · intro q hq
    rw [hcells]
    refine ⟨1, ?_⟩
    show turn quarters (Agreed (exLock.map Source.ofScalar)) 1
      (turn quarters (Agreed [Source.ofScalar exLock[0]]) 1 (fun k q => k = 0 ∧ GridBox exRegion 20 10 q)) 1 q
    exact ⟨.cell ⟨.quarter (.cell ⟨rfl, exRegion_box⟩) (by norm_num) hag hq, Or.inl le_rfl⟩, Or.inl le_rfl⟩

/-- In the other order the lock holds, as `C114_first` says: the hypotheses are met, and the region remains one cell. -/
example : ∃ m0, MeshBuilder.init exRegion 20 10 (fun q => trimSources q (exLock.reverse.map Source.ofScalar)) 1 = .ok m0 ∧ ∃ N em,
    (∀ fuel, N ≤ fuel → MeshBuilder.buildEnvironmentalMesh (sourceOps AnyData AnyCond) aggregate fuel exConfig m0 = .ok em) ∧
    (∃ s ∈ exLock.reverse.map Source.ofScalar, Uneven exRegion s) ∧ ∀ q, (∃ c ∈ em.cells, c.bounds = q) → q = exRegion := by
  obtain ⟨h1, h2⟩ := exLock_plain (l := exLock.reverse) (fun _ h => List.mem_reverse.1 h)
  obtain ⟨m0, h0, N, em, hb, h⟩ := C114_first (W := 20) (H := 10) (first := .ofScalar exLock[1]) (others := [.ofScalar exLock[0]]) h1 (by decide) h2
    exConfig exRegion_whole (by norm_num [exRegion]) (by norm_num [exRegion]) (by norm_num [exRegion]) (by decide +kernel) 1
  refine ⟨m0, h0, N, em, hb, ⟨_, by simp [exLock], exLock_uneven rfl⟩, ?_⟩
  rintro q ⟨c, hc, rfl⟩
  obtain ⟨anc, hlin, hno⟩ := h c hc
  have hlast : ∀ l, Lineage (GridBox exRegion 20 10) l → exRegion ∈ l := by
    intro l hl
    induction hl with
    | root h => simp [exRegion_only h]
    | quarter _ _ ih => exact List.mem_cons_of_mem _ ih
  rcases List.mem_cons.1 (hlast _ hlin) with h | h
  · exact h.symm
  · exact absurd (exLock_locks rfl) (hno _ h)

end Verif
