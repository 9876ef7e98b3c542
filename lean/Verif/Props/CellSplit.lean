import Verif.Props.Boundary
import Verif.Model.CellBox

/-!
# C14: splitting a cell quarters it
-/

namespace Verif
open Spec

/-- An arc that starts at `a`, runs `h < 360` degrees east and ends at `d`. -/
theorem eastEdge_arc (a h d la lb : ℚ) (t : List ℤ) (ha0 : -180 ≤ a) (ha1 : a ≤ 180) (h0 : 0 < h) (h1 : h < 360)
    (d0 : -180 ≤ d) (d1 : d ≤ 180) (hs : SameMeridian d (a + h)) :
    eastEdge ⟨la, lb, a, d, t⟩ = a + h := by
  obtain ⟨n, hn⟩ := hs
  unfold eastEdge
  simp only
  split
  · rename_i hlt
    rw [hn] at hlt d1 ⊢
    have l1 : (-1 : ℚ) < n := by linarith
    have l2 : (n : ℚ) < 1 := by linarith
    have l1' : -1 < n := by exact_mod_cast l1
    have l2' : n < 1 := by exact_mod_cast l2
    have : n = 0 := by omega
    subst this; simp
  · rename_i hlt
    push Not at hlt
    rw [hn] at hlt d0 ⊢
    have l1 : (-2 : ℚ) < n := by linarith
    have l2 : (n : ℚ) < 0 := by linarith
    have l1' : -2 < n := by exact_mod_cast l1
    have l2' : n < 0 := by exact_mod_cast l2
    have : n = -1 := by omega
    subst this; push_cast; ring

/-- C14: splitting a valid cell (only the zero-width box `[180,-180]` is excluded) never raises and
yields NW, NE, SW, SE with consecutive ids, which tile the parent, each of half the size, at depth
one more, with the parent's time range and ancestors. -/
theorem C14_cell_split_partial {D : Type} (ops : DataOps D) (c : CellBox D) (start : ℕ) (hv : Valid c.bounds)
    (hd : ¬ (c.bounds.longMin = 180 ∧ c.bounds.longMax = -180)) :
    ∃ nw ne sw se : CellBox D, c.split ops start = .ok [nw, ne, sw, se] ∧
      nw.id = start ∧ ne.id = start + 1 ∧ sw.id = start + 2 ∧ se.id = start + 3 ∧
      Tiles [nw.bounds, ne.bounds, sw.bounds, se.bounds] c.bounds ∧
      (∀ q ∈ [nw, ne, sw, se], Valid q.bounds ∧ ¬ (q.bounds.longMin = 180 ∧ q.bounds.longMax = -180) ∧
        q.depth = c.depth + 1 ∧ q.bounds.time = c.bounds.time ∧
        q.bounds.width = c.bounds.width / 2 ∧ q.bounds.height = c.bounds.height / 2 ∧
        q.data = ops.trim q.bounds c.data ∧ q.anc = (c.bounds, c.data) :: c.anc) ∧
      nw.bounds.longMin = c.bounds.longMin ∧ sw.bounds.longMin = c.bounds.longMin ∧
      ne.bounds.longMin = se.bounds.longMin ∧ SameMeridian ne.bounds.longMin (c.bounds.longMin + c.bounds.width / 2) ∧
      nw.bounds.latMax = c.bounds.latMax ∧ ne.bounds.latMax = c.bounds.latMax ∧
      sw.bounds.latMin = c.bounds.latMin ∧ se.bounds.latMin = c.bounds.latMin := by
  set b := c.bounds with hb
  have hw := Boundary.width_eq b
  have hpos := (C04_geometry_partial b hv hd).1
  obtain ⟨h1, h2, h3, h4, h5, h6⟩ := hv
  have hh : 0 ≤ b.height := by unfold Boundary.height; linarith
  have hlat : b.latMin + b.height = b.latMax := by unfold Boundary.height; ring
  obtain ⟨⟨m0, m1⟩, ⟨km, hkm⟩, -, -⟩ := C01_longitude_domain (b.longMin + b.width / 2)
  obtain ⟨⟨e0, e1⟩, ⟨kE, hkE⟩, -, -⟩ := C01_longitude_domain (b.longMin + b.width)
  set m := longitudeDomain (b.longMin + b.width / 2) with hm
  set e := longitudeDomain (b.longMin + b.width) with he
  have mkOk : ∀ a a' c d : ℚ, a ≤ a' → -180 ≤ c → d ≤ 180 →
      Boundary.mk? [a, a'] [c, d] b.time = .ok ⟨a, a', c, d, b.time⟩ := by
    intro a a' c d ha hc hd
    exact (C03_construction_table _ _ _ _).2 ⟨_, _, [], _, _, [], rfl, rfl, ha, hc, hd, h6, rfl⟩
  have hyl : b.latMin ≤ b.latMin + b.height / 2 := by linarith
  have hyu : b.latMin + b.height / 2 ≤ b.latMin + b.height := by linarith
  have hcs : CellBox.createSplitted b start = .ok
      [(⟨b.latMin + b.height / 2, b.latMin + b.height, b.longMin, m, b.time⟩, start),
       (⟨b.latMin + b.height / 2, b.latMin + b.height, m, e, b.time⟩, start + 1),
       (⟨b.latMin, b.latMin + b.height / 2, b.longMin, m, b.time⟩, start + 2),
       (⟨b.latMin, b.latMin + b.height / 2, m, e, b.time⟩, start + 3)] := by
    unfold CellBox.createSplitted
    simp only [← hm, ← he]
    rw [mkOk _ _ _ _ hyu h2 m1, mkOk _ _ _ _ hyu m0 e1, mkOk _ _ _ _ hyl h2 m1, mkOk _ _ _ _ hyl m0 e1]
    rfl
  have w0 : 0 < b.width / 2 := by linarith [hpos.1]
  have w1 : b.width / 2 < 360 := by linarith [hpos.2]
  have eW : ∀ la lb, eastEdge ⟨la, lb, b.longMin, m, b.time⟩ = b.longMin + b.width / 2 := fun la lb =>
    eastEdge_arc b.longMin (b.width / 2) m la lb b.time h2 h3 w0 w1 m0 m1 ⟨km, hkm⟩
  have eE : ∀ la lb, eastEdge ⟨la, lb, m, e, b.time⟩ = m + b.width / 2 := fun la lb =>
    eastEdge_arc m (b.width / 2) e la lb b.time m0 m1 w0 w1 e0 e1
      ⟨kE - km, by rw [hkE, hkm]; push_cast; ring⟩
  have wW : ∀ la lb, Boundary.width ⟨la, lb, b.longMin, m, b.time⟩ = b.width / 2 := by
    intro la lb; rw [Boundary.width_eq, eW]; ring
  have wE : ∀ la lb, Boundary.width ⟨la, lb, m, e, b.time⟩ = b.width / 2 := by
    intro la lb; rw [Boundary.width_eq, eE]; ring
  have ndeg : ∀ q : Boundary, q.width = b.width / 2 → ¬ (q.longMin = 180 ∧ q.longMax = -180) := by
    rintro q hq ⟨q1, q2⟩
    have : q.width = 0 := by unfold Boundary.width; rw [q1, q2]; norm_num
    linarith [hpos.1]
  have hTiles : Tiles [⟨b.latMin + b.height / 2, b.latMin + b.height, b.longMin, m, b.time⟩,
       ⟨b.latMin + b.height / 2, b.latMin + b.height, m, e, b.time⟩,
       ⟨b.latMin, b.latMin + b.height / 2, b.longMin, m, b.time⟩,
       ⟨b.latMin, b.latMin + b.height / 2, m, e, b.time⟩] b := by
    refine tiles_of_cut b (eastEdge b) (b.longMin + b.width / 2) (b.latMin + b.height / 2) (by linarith)
      (by linarith) hyl (by rw [← hlat]; exact hyu) rfl (by linarith [hpos.2])
      ⟨b.latMin, b.latMin + b.height / 2, b.longMin, m, b.time⟩
      ⟨b.latMin + b.height / 2, b.latMin + b.height, b.longMin, m, b.time⟩
      ⟨b.latMin, b.latMin + b.height / 2, m, e, b.time⟩
      ⟨b.latMin + b.height / 2, b.latMin + b.height, m, e, b.time⟩
      ⟨rfl, rfl⟩ ⟨rfl, hlat⟩ ⟨rfl, rfl⟩ ⟨rfl, hlat⟩ 0 km ?_ ?_ ?_ ?_ _ ?_
    · exact ⟨by simp, by rw [eW]; simp⟩
    · exact ⟨by simp, by rw [eW]; simp⟩
    · exact ⟨hkm, by rw [eE, hkm]; linarith⟩
    · exact ⟨hkm, by rw [eE, hkm]; linarith⟩
    · -- [nw, ne, sw, se] is a permutation of [sw, nw, se, ne]
      refine (List.perm_iff_count).2 (fun a => ?_)
      simp only [List.count_cons, List.count_nil]
      omega
  have hv2 : ∀ la lb, la ≤ lb → Valid ⟨la, lb, b.longMin, m, b.time⟩ := fun la lb h => ⟨h, h2, h3, m0, m1, h6⟩
  have hv3 : ∀ la lb, la ≤ lb → Valid ⟨la, lb, m, e, b.time⟩ := fun la lb h => ⟨h, m0, m1, e0, e1, h6⟩
  have hu : b.latMin + b.height - (b.latMin + b.height / 2) = b.height / 2 := by ring
  have hl : b.latMin + b.height / 2 - b.latMin = b.height / 2 := by ring
  refine ⟨⟨⟨b.latMin + b.height / 2, b.latMin + b.height, b.longMin, m, b.time⟩, start, c.depth + 1, ops.trim _ c.data, (b, c.data) :: c.anc⟩,
    ⟨⟨b.latMin + b.height / 2, b.latMin + b.height, m, e, b.time⟩, start + 1, c.depth + 1, ops.trim _ c.data, (b, c.data) :: c.anc⟩,
    ⟨⟨b.latMin, b.latMin + b.height / 2, b.longMin, m, b.time⟩, start + 2, c.depth + 1, ops.trim _ c.data, (b, c.data) :: c.anc⟩,
    ⟨⟨b.latMin, b.latMin + b.height / 2, m, e, b.time⟩, start + 3, c.depth + 1, ops.trim _ c.data, (b, c.data) :: c.anc⟩,
    by unfold CellBox.split; rw [← hb, hcs]; rfl, rfl, rfl, rfl, rfl, hTiles, ?_, rfl, rfl, rfl,
    ⟨km, hkm⟩, hlat, hlat, rfl, rfl⟩
  intro q hq
  simp only [List.mem_cons, List.not_mem_nil, or_false] at hq
  rcases hq with rfl | rfl | rfl | rfl
  · exact ⟨hv2 _ _ hyu, ndeg _ (wW _ _), rfl, rfl, wW _ _, hu, rfl, rfl⟩
  · exact ⟨hv3 _ _ hyu, ndeg _ (wE _ _), rfl, rfl, wE _ _, hu, rfl, rfl⟩
  · exact ⟨hv2 _ _ hyl, ndeg _ (wW _ _), rfl, rfl, wW _ _, hl, rfl, rfl⟩
  · exact ⟨hv3 _ _ hyl, ndeg _ (wE _ _), rfl, rfl, wE _ _, hl, rfl, rfl⟩

/-- A crossing cell split at the antimeridian. -/
example : CellBox.createSplitted ⟨-60, -50, 175, -165, [1, 2]⟩ 7 = .ok
    [(⟨-55, -50, 175, -175, [1, 2]⟩, 7), (⟨-55, -50, -175, -165, [1, 2]⟩, 8),
     (⟨-60, -55, 175, -175, [1, 2]⟩, 9), (⟨-60, -55, -175, -165, [1, 2]⟩, 10)] := by decide +kernel

/-- C14 fails for the accepted zero-width box `[180,-180]`: its "halves" are full circles. -/
theorem C14_degenerate : ∃ b l, Valid b ∧ CellBox.createSplitted b 0 = .ok l ∧
    ∃ c ∈ l, c.1.width ≠ b.width / 2 := by
  refine ⟨⟨0, 2, 180, -180, []⟩, [(⟨1, 2, 180, 180, []⟩, 0), (⟨1, 2, 180, 180, []⟩, 1),
    (⟨0, 1, 180, 180, []⟩, 2), (⟨0, 1, 180, 180, []⟩, 3)], by norm_num [Valid], by decide +kernel,
    (⟨1, 2, 180, 180, []⟩, 0), by simp, ?_⟩
  decide +kernel

end Verif
