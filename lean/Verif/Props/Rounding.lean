import Verif.Proof.Rounding
import Verif.Props.Build

/-!
# C101: building in double precision

The mesh built in floating point is that of exact arithmetic as long as the edges of the region and the sizes of the
cells are multiples of a power of two that leaves room for the splits.  The rounding is any that keeps numbers of
double precision, in particular that to the nearest of them.
-/

namespace Verif

open Spec

section Split
variable {r : ℚ → ℚ} {D : Type}

theorem fl_caseAt_exact (hr : Faithful r) (isG : Bool) {bnd : ℕ → Py Boundary}
    (hb : ∀ i b, bnd i = .ok b → DyadicBox 43 b) : Fl.caseAt r isG bnd = Graph.caseAt isG bnd := by
  funext i j
  unfold Fl.caseAt Graph.caseAt
  cases hi : bnd i with
  | error e => rfl
  | ok a =>
    cases hj : bnd j with
    | error e => rfl
    | ok b =>
      simp only [bind, Except.bind, pure, Except.pure]
      rw [case_exact hr le_rfl isG (hb i a hi) (hb j b hj)]

theorem fl_splitGraph_exact (hr : Faithful r) {bnd : ℕ → Py Boundary} (hb : ∀ i b, bnd i = .ok b → DyadicBox 43 b) :
    Fl.splitGraph r bnd = MeshBuilder.splitGraph bnd := by
  have h0 : ∀ isG, Fl.caseAt r isG bnd = Graph.caseAt isG bnd := fun isG => fl_caseAt_exact hr isG hb
  have h1 : ∀ isG, Fl.fillStep r isG bnd = MeshBuilder.fillStep isG bnd := by
    intro isG; funext a b c d e
    unfold Fl.fillStep MeshBuilder.fillStep
    rw [h0]
  have h2 : ∀ isG, Fl.fillMap r isG bnd = MeshBuilder.fillMap isG bnd := by
    intro isG
    unfold Fl.fillMap MeshBuilder.fillMap
    rw [h1]
  have h3 : Fl.appendCase r bnd = Graph.appendCase bnd := by
    unfold Fl.appendCase Graph.appendCase
    simp only [h0]
    rfl
  have h4 : Fl.updateNeighbours r bnd = fun g => Graph.updateNeighbours bnd g := by
    unfold Fl.updateNeighbours Graph.updateNeighbours
    rw [h3]
  unfold Fl.splitGraph MeshBuilder.splitGraph MeshBuilder.fillSe MeshBuilder.fillSw MeshBuilder.fillNe MeshBuilder.fillNw
  simp only [h2, h4]

namespace Spec

/-- The cells of a mesh are dyadic, finer by one digit with every split. -/
def DyadicCells (n depth : ℕ) (cells : List (Option (CellBox D))) : Prop :=
  ∀ c, some c ∈ cells → c.depth ≤ depth ∧ DyadicBox (n + c.depth) c.bounds

end Spec

theorem fl_cellAt_mem {cells : List (Option (CellBox D))} {i : ℕ} {c : CellBox D} (h : cellAt cells i = .ok c) :
    some c ∈ cells := by
  unfold cellAt at h
  split at h
  · cases h
  · cases h
  · rename_i c' hc
    injection h with h
    subst h
    exact List.mem_of_getElem? hc

theorem fl_boundsAt_dyadic {n depth : ℕ} (hn : n + depth ≤ 43) {cells : List (Option (CellBox D))}
    (hc : DyadicCells n depth cells) (i : ℕ) (b : Boundary) (h : boundsAt cells i = .ok b) : DyadicBox 43 b := by
  unfold boundsAt at h
  cases hcell : cellAt cells i with
  | error e => rw [hcell] at h; cases h
  | ok c =>
    rw [hcell] at h
    injection h with h
    subst h
    obtain ⟨h1, h2⟩ := hc c (fl_cellAt_mem hcell)
    exact DyadicBox.mono (by omega) h2

theorem fl_split_exact (hr : Faithful r) (ops : DataOps D) {n : ℕ} {c : CellBox D} (hb : DyadicBox (n + c.depth) c.bounds)
    (hn : n + c.depth + 1 ≤ 43) (i : ℕ) : Fl.split r ops c i = c.split ops i := by
  unfold Fl.split CellBox.split
  rw [createSplitted_exact hr hn hb]

theorem fl_split_dyadic {ops : DataOps D} {n depth : ℕ} {c : CellBox D} (hb : DyadicBox (n + c.depth) c.bounds)
    (hd : c.depth < depth) {i : ℕ} {l : List (CellBox D)} (h : c.split ops i = .ok l) :
    DyadicCells n depth (l.map some) := by
  unfold CellBox.split at h
  cases hs : CellBox.createSplitted c.bounds i with
  | error e => rw [hs] at h; cases h
  | ok boxes =>
    rw [hs] at h
    injection h with h
    subst h
    intro c' hc'
    simp only [List.mem_map, Option.some.injEq, exists_eq_right] at hc'
    obtain ⟨p, hp, rfl⟩ := hc'
    refine ⟨hd, ?_⟩
    have := createSplitted_dyadic hb hs p hp
    simpa [Nat.add_assoc] using this

/-- One split in floating point is the exact one, and leaves the cells dyadic. -/
theorem fl_splitAndReplace_exact (hr : Faithful r) (ops : DataOps D) {n depth : ℕ} (hn : n + depth ≤ 43) {m : MeshState D}
    (hc : DyadicCells n depth m.cells) {k : ℕ} {c : CellBox D} (hk : m.cells[k]? = some (some c)) (hd : c.depth < depth) :
    Fl.splitAndReplace r ops m k = MeshBuilder.splitAndReplace ops m k ∧
      ∀ m', MeshBuilder.splitAndReplace ops m k = .ok m' → DyadicCells n depth m'.cells := by
  have hcell : cellAt m.cells k = .ok c := by unfold cellAt; rw [hk]
  have hbox := (hc c (fl_cellAt_mem hcell)).2
  unfold Fl.splitAndReplace MeshBuilder.splitAndReplace
  rw [hcell]
  simp only [bind, Except.bind, pure, Except.pure]
  rw [fl_split_exact hr ops hbox (by omega)]
  cases hs : c.split ops m.cells.length with
  | error e => exact ⟨rfl, fun m' h => by cases h⟩
  | ok new =>
    have hall : DyadicCells n depth (m.cells ++ new.map some) := by
      intro x hx
      rcases List.mem_append.1 hx with h | h
      · exact hc x h
      · exact fl_split_dyadic hbox hd hs x h
    dsimp only
    rw [fl_splitGraph_exact hr (fl_boundsAt_dyadic hn hall)]
    refine ⟨rfl, fun m' h => ?_⟩
    split at h
    · cases h
    · injection h with h
      subst h
      intro x hx
      rcases List.mem_or_eq_of_mem_set hx with h | h
      · exact hall x h
      · cases h

theorem fl_splitPass_exact (hr : Faithful r) (ops : DataOps D) {n depth : ℕ} (hn : n + depth ≤ 43) (index fuel : ℕ) (i : ℕ)
    {m : MeshState D} (hc : DyadicCells n depth m.cells) :
    Fl.splitPass r ops depth index fuel i m = MeshBuilder.splitPass ops depth index fuel i m ∧
      ∀ m', MeshBuilder.splitPass ops depth index fuel i m = .ok m' → DyadicCells n depth m'.cells := by
  induction fuel generalizing i m with
  | zero => exact ⟨rfl, fun m' h => by cases h⟩
  | succ fuel ih =>
    unfold Fl.splitPass MeshBuilder.splitPass
    cases hk : m.cells[i]? with
    | none =>
      refine ⟨rfl, fun m' h => ?_⟩
      injection h with h
      exact h ▸ hc
    | some o =>
      cases o with
      | none => exact ih (i + 1) hc
      | some c =>
        simp only [bind, Except.bind]
        cases hs : ops.shouldSplit (index + 1) c.bounds c.data with
        | error e => exact ⟨rfl, fun m' h => by cases h⟩
        | ok should =>
          dsimp only
          split_ifs with hcond
          · obtain ⟨h1, h2⟩ := fl_splitAndReplace_exact hr ops hn hc hk hcond.1
            rw [h1]
            cases hsr : MeshBuilder.splitAndReplace ops m i with
            | error e => exact ⟨rfl, fun m' h => by cases h⟩
            | ok m1 => exact ih (i + 1) (h2 m1 hsr)
          · exact ih (i + 1) hc

theorem fl_splitSources_exact (hr : Faithful r) (ops : DataOps D) {n depth : ℕ} (hn : n + depth ≤ 43) (fuel : ℕ)
    (conds : List ℕ) (index : ℕ) {m : MeshState D} (hc : DyadicCells n depth m.cells) :
    Fl.splitSources r ops depth fuel conds index m = MeshBuilder.splitSources ops depth fuel conds index m := by
  induction conds generalizing index m with
  | nil => rfl
  | cons k rest ih =>
    unfold Fl.splitSources MeshBuilder.splitSources
    simp only [bind, Except.bind]
    split_ifs with hk
    · obtain ⟨h1, h2⟩ := fl_splitPass_exact hr ops hn index fuel 0 hc
      rw [h1]
      cases hsp : MeshBuilder.splitPass ops depth index fuel 0 m with
      | error e => rfl
      | ok m1 => exact ih (index + 1) (h2 m1 hsp)
    · exact ih (index + 1) hc

/-- **C101 (splitting).**  From cells whose edges are multiples of `2 ^ -n`, with `n` and the depth of splitting
together at most 43, the mesh built in floating point is the mesh built exactly, whatever the data. -/
theorem C101_split (hr : Faithful r) (ops : DataOps D) (aggregate : CellBox D → Py (Dict String Val)) (fuel : ℕ)
    (config : MeshConfig) {n : ℕ} {m : MeshState D} (hn : n + m.maxDepth ≤ 43) (hc : DyadicCells n m.maxDepth m.cells) :
    Fl.buildEnvironmentalMesh r ops aggregate fuel config m = MeshBuilder.buildEnvironmentalMesh ops aggregate fuel config m := by
  unfold Fl.buildEnvironmentalMesh MeshBuilder.buildEnvironmentalMesh Fl.splitToDepth MeshBuilder.splitToDepth
  simp only [fl_splitSources_exact hr ops hn fuel _ _ hc]

end Split

section Init
variable {r : ℚ → ℚ} {n : ℕ}

theorem dyadic_pos {q : ℚ} (h : Dyadic n q) (h0 : 0 < q) : 1 ≤ q * 2 ^ n := by
  obtain ⟨m, hm⟩ := h
  have h1 : (0 : ℚ) < q * 2 ^ n := by positivity
  rw [hm] at h1 ⊢
  exact_mod_cast h1

/-- As many steps of a dyadic width as fit into the circle are counted exactly. -/
theorem count_double (hn : n ≤ 43) {s : ℚ} (hs : Dyadic n s) (h0 : 0 < s) {k : ℕ} (hk : k * s ≤ 360) : k ≤ 2 ^ 53 := by
  have h1 := dyadic_pos hs h0
  have hle : (2 : ℚ) ^ n ≤ 2 ^ 43 := pow_le_pow_right₀ (by norm_num) hn
  have hp : (0 : ℚ) < 2 ^ n := by positivity
  have h2 : (k : ℚ) ≤ k * (s * 2 ^ n) := le_mul_of_one_le_right (by positivity) h1
  have h3 : (k : ℚ) * (s * 2 ^ n) ≤ 360 * 2 ^ 43 := by
    rw [← mul_assoc]
    exact mul_le_mul hk hle hp.le (by norm_num)
  have h4 : (k : ℚ) ≤ 2 ^ 53 := by
    refine (h2.trans h3).trans ?_
    norm_num
  exact_mod_cast h4

theorem fl_arange_exact (hr : Faithful r) (hn : n ≤ 43) {a b s : ℚ} (ha : Dyadic n a) (hs : Dyadic n s) (hs0 : 0 < s)
    (h1 : -180 ≤ a) (h2 : a ≤ 180) {k : ℕ} (hk : b - a = k * s) (hle : k * s ≤ 360) :
    Fl.arange r a b s = arange a b s := by
  rw [arange_eq hs0 k hk]
  unfold Fl.arange
  have hd : ∀ j : ℕ, Dyadic n (j * s) := fun j => Dyadic.nat_mul j hs
  have hk0 : (0 : ℚ) ≤ k * s := by positivity
  have e1 : r (b - a) = k * s := by
    rw [hk]; exact hr _ (Dyadic.double (hd k) hn (by linarith) (by linarith))
  have e2 : (k : ℚ) * s / s = k := by field_simp
  have e3 : r (k : ℚ) = k := hr _ (IsDouble.nat (count_double hn hs hs0 hle))
  rw [e1, e2, e3]
  simp only [Int.ceil_natCast, Int.toNat_natCast]
  apply List.map_congr_left
  intro i hi
  have hik : i < k := List.mem_range.1 hi
  have hile : (i : ℚ) * s ≤ k * s := mul_le_mul_of_nonneg_right (by exact_mod_cast hik.le) hs0.le
  have hi0 : (0 : ℚ) ≤ i * s := by positivity
  have hs1 : s ≤ k * s := le_mul_of_one_le_left hs0.le (by exact_mod_cast (by omega : 1 ≤ k))
  have e4 : r (a + s) = a + s := hr _ (Dyadic.double (Dyadic.add ha hs) hn (by linarith) (by linarith))
  have e5 : r (a + s - a) = s := by
    rw [add_sub_cancel_left]; exact hr _ (Dyadic.double hs hn (by linarith) (by linarith))
  rw [e4, e5]
  rw [hr (i * s) (Dyadic.double (hd i) hn (by linarith) (by linarith)),
    hr (a + i * s) (Dyadic.double (Dyadic.add ha (hd i)) hn (by linarith) (by linarith))]
  split_ifs with c1 c2
  · subst c1; simp
  · subst c2; simp
  · rfl

theorem fl_validateBounds_exact (hr : Faithful r) (hn : n ≤ 43) {b : Boundary} (hb : DyadicBox n b) {W H : ℚ}
    (hW : Dyadic n W) (hH : Dyadic n H) (hW0 : 0 < W) (hH0 : 0 < H) (hW1 : W ≤ 1024) (hH1 : H ≤ 1024) :
    Fl.validateBounds r b W H = MeshBuilder.validateBounds b W H := by
  have h1 := hb.west
  have h2 := hb.east
  have h3 := hb.lat
  unfold Fl.validateBounds MeshBuilder.validateBounds
  have dl := Dyadic.sub hb.longMax hb.longMin
  have dt := Dyadic.sub hb.latMax hb.latMin
  rw [hr (b.longMax - b.longMin) (Dyadic.double dl hn (by linarith) (by linarith)),
    hr (b.latMax - b.latMin) (Dyadic.double dt hn (by linarith) (by linarith)),
    fmod_exact hr hn dl (Dyadic.ofNat n 360) (by norm_num) (by norm_num),
    fmod_exact hr hn (pyMod_dyadic dl (Dyadic.ofNat n 360)) hW hW0 hW1, fmod_exact hr hn dt hH hH0 hH1]

/-- **C101 (check of the configuration).**  A dyadic range that holds a whole number of cells is accepted in floating point. -/
theorem C101_checked (hr : Faithful r) (hn : n ≤ 43) {lo hi s : ℚ} (hlo : Dyadic n lo) (hhi : Dyadic n hi)
    (h1 : -512 ≤ lo ∧ lo ≤ 512) (h2 : -512 ≤ hi ∧ hi ≤ 512) {k : ℕ} (hs : Dyadic n s) (hs0 : 0 < s)
    (hk : pyMod (hi - lo) 360 = k * s) : Fl.assertValidCellsize r lo hi s = .ok () := by
  have hd := Dyadic.sub hhi hlo
  have hm := pyMod_lt (a := hi - lo) (b := 360) (by norm_num)
  unfold Fl.assertValidCellsize
  rw [if_neg hs0.ne', hr (hi - lo) (Dyadic.double hd hn (by linarith) (by linarith)),
    fmod_exact hr hn hd (Dyadic.ofNat n 360) (by norm_num) (by norm_num), hk]
  have e2 : (k : ℚ) * s / s = k := by field_simp
  rw [e2, hr (k : ℚ) (IsDouble.nat (count_double hn hs hs0 (by linarith)))]
  have : pyMod (k : ℚ) 1 = 0 := by simp [pyMod]
  rw [if_pos]
  rw [fmod_eq (by norm_num) (by rw [this]; exact hr 0 ⟨0, 0, by norm_num, by norm_num, by norm_num, by simp⟩), this]

theorem fl_initialCell_exact (hr : Faithful r) (hn : n ≤ 43) {W H lat long : ℚ} (hW : Dyadic n W) (hH : Dyadic n H)
    (hlat : Dyadic n lat) (hlong : Dyadic n long) (hW0 : 0 < W) (hH0 : 0 < H) (hW1 : W ≤ 360) (hH1 : H ≤ 360)
    (h1 : -180 ≤ lat ∧ lat ≤ 180) (h2 : -180 ≤ long ∧ long ≤ 180) (t : List ℤ) :
    Fl.initialCell r t W H lat long = MeshBuilder.initialCell t W H lat long := by
  unfold Fl.initialCell MeshBuilder.initialCell
  rw [hr (long + W) (Dyadic.double (Dyadic.add hlong hW) hn (by linarith) (by linarith)),
    hr (lat + H) (Dyadic.double (Dyadic.add hlat hH) hn (by linarith) (by linarith)),
    hr (long + W - 360) (Dyadic.double (Dyadic.sub (Dyadic.add hlong hW) (Dyadic.ofNat n 360)) hn (by linarith) (by linarith))]

theorem fl_foldlM_congr {α β : Type} (f g : β → α → Py β) (l : List α) (h : ∀ x ∈ l, ∀ acc, f acc x = g acc x) (acc : β) :
    l.foldlM f acc = l.foldlM g acc := by
  induction l generalizing acc with
  | nil => rfl
  | cons a l ih =>
    rw [List.foldlM_cons, List.foldlM_cons, h a (by simp)]
    simp only [bind, Except.bind]
    split
    · rfl
    · exact ih (fun x hx => h x (List.mem_cons_of_mem _ hx)) _

theorem fl_initializeCells_exact (hr : Faithful r) (hn : n ≤ 43) {b : Boundary} (hb : DyadicBox n b) {W H : ℚ}
    (hW : Dyadic n W) (hH : Dyadic n H) (hW0 : 0 < W) (hH0 : 0 < H) (hW1 : W ≤ 360) {nx ny : ℕ}
    (hx : b.width = nx * W) (hy : b.height = ny * H) :
    Fl.initializeCells r b W H = MeshBuilder.initializeCells b W H := by
  have h1 := hb.west
  have h2 := hb.east
  have h3 := hb.lat
  have hw := width_range hb
  have hh := height_range hb
  have hlat : Fl.arange r b.latMin b.latMax H = arange b.latMin b.latMax H :=
    fl_arange_exact hr hn hb.latMin hH hH0 h3.1 (by linarith) (k := ny) hy (by linarith)
  have hlong : Fl.longStarts r b W = MeshBuilder.longStarts b W := by
    unfold Fl.longStarts MeshBuilder.longStarts longitudeDomainList
    rw [hr (b.longMax + 360) (Dyadic.double (Dyadic.add hb.longMax (Dyadic.ofNat n 360)) hn (by linarith) (by linarith))]
    have hdom : ∀ stop : ℚ, stop - b.longMin = nx * W →
        (Fl.arange r b.longMin stop W).map (Fl.domain r) = (arange b.longMin stop W).map longitudeDomain := by
      intro stop hstop
      rw [fl_arange_exact hr hn hb.longMin hW hW0 h1.1 h1.2 hstop (by linarith), arange_eq hW0 nx hstop]
      apply List.map_congr_left
      intro x hxm
      obtain ⟨i, hi, rfl⟩ := List.mem_map.1 hxm
      have hik : i < nx := List.mem_range.1 hi
      have hile : (i : ℚ) * W ≤ nx * W := mul_le_mul_of_nonneg_right (by exact_mod_cast hik.le) hW0.le
      have hi0 : (0 : ℚ) ≤ i * W := by positivity
      exact domain_exact hr hn (Dyadic.add hb.longMin (Dyadic.nat_mul i hW)) (by linarith) (by linarith)
    split_ifs with hlt
    · apply hdom
      rw [← hx]; unfold Boundary.width; rw [if_pos hlt]
    · apply hdom
      rw [← hx]; unfold Boundary.width; rw [if_neg hlt]; ring
  unfold Fl.initializeCells MeshBuilder.initializeCells
  rw [hlat, hlong]
  apply fl_foldlM_congr
  intro lat hlatm acc
  apply fl_foldlM_congr
  intro long hlongm acc'
  rw [arange_eq hH0 ny hy] at hlatm
  obtain ⟨j, hj, rfl⟩ := List.mem_map.1 hlatm
  have hjk : j < ny := List.mem_range.1 hj
  have hjle : ((j : ℚ) + 1) * H ≤ ny * H := mul_le_mul_of_nonneg_right (by exact_mod_cast hjk) hH0.le
  have hj0 : (0 : ℚ) ≤ j * H := by positivity
  have htop : b.height = b.latMax - b.latMin := rfl
  unfold MeshBuilder.longStarts longitudeDomainList at hlongm
  obtain ⟨x, hxm, rfl⟩ := List.mem_map.1 hlongm
  have hxd : Dyadic n x := by
    have hmem : ∀ stop : ℚ, stop - b.longMin = nx * W → x ∈ arange b.longMin stop W → Dyadic n x := by
      intro stop hstop hxs
      rw [arange_eq hW0 nx hstop] at hxs
      obtain ⟨i, -, rfl⟩ := List.mem_map.1 hxs
      exact Dyadic.add hb.longMin (Dyadic.nat_mul i hW)
    split_ifs at hxm with hlt
    · refine hmem _ ?_ hxm
      rw [← hx]; unfold Boundary.width; rw [if_pos hlt]
    · refine hmem _ ?_ hxm
      rw [← hx]; unfold Boundary.width; rw [if_neg hlt]; ring
  rw [fl_initialCell_exact hr hn hW hH (Dyadic.add hb.latMin (Dyadic.nat_mul j hH)) (domain_dyadic hxd) hW0 hH0 hW1
    (by nlinarith) ⟨by linarith, by nlinarith⟩ (domain_range x)]

theorem fl_fmod_nat (hr : Faithful r) {a b : ℕ} (hb : 0 < b) (hle : b ≤ 2 ^ 53) : Fl.fmod r (a : ℚ) (b : ℚ) = pyMod a b := by
  have hb0 : (0 : ℚ) < b := by exact_mod_cast hb
  apply fmod_eq hb0
  have e : pyMod (a : ℚ) (b : ℚ) = (((a : ℤ) - b * ⌊(a : ℚ) / b⌋ : ℤ) : ℚ) := by unfold pyMod; push_cast; ring
  have h0 := pyMod_nonneg (a := (a : ℚ)) hb0
  have h1 := pyMod_lt (a := (a : ℚ)) hb0
  rw [e] at h0 h1 ⊢
  apply hr
  apply IsDouble.int
  have g0 : 0 ≤ (a : ℤ) - b * ⌊(a : ℚ) / b⌋ := by exact_mod_cast h0
  have g1 : (a : ℤ) - b * ⌊(a : ℚ) / b⌋ < b := by exact_mod_cast h1
  rw [abs_of_nonneg g0]
  have g2 : (b : ℤ) ≤ 2 ^ 53 := by exact_mod_cast hle
  omega

theorem fl_initialiseMap_exact (hr : Faithful r) {i k N : ℕ} (hk : 0 < k) (hi : i < N) (hkN : k ≤ N) (hN : N ≤ 2 ^ 52) :
    Fl.initialiseMap r i (k : ℚ) N = Graph.initialiseMap i (k : ℚ) N := by
  have hz : ∀ z : ℤ, -2 ^ 53 ≤ z → z ≤ 2 ^ 53 → r (z : ℚ) = z := fun z h1 h2 => hr _ (IsDouble.int (abs_le.2 ⟨h1, h2⟩))
  have e1 : r ((i : ℚ) + k) = i + k := by
    have := hz (i + k) (by omega) (by omega); push_cast at this; exact this
  have e2 : r ((i : ℚ) - k) = i - k := by
    have := hz (i - k) (by omega) (by omega); push_cast at this; exact this
  have e3 : r ((i : ℚ) + k + 1) = i + k + 1 := by
    have := hz (i + k + 1) (by omega) (by omega); push_cast at this; exact this
  have e4 : r ((i : ℚ) - k + 1) = i - k + 1 := by
    have := hz (i - k + 1) (by omega) (by omega); push_cast at this; exact this
  have e5 : r ((i : ℚ) + k - 1) = i + k - 1 := by
    have := hz (i + k - 1) (by omega) (by omega); push_cast at this; exact this
  have e6 : r ((i : ℚ) - k - 1) = i - k - 1 := by
    have := hz (i - k - 1) (by omega) (by omega); push_cast at this; exact this
  have e7 : Fl.fmod r ((i : ℚ) + 1) k = pyMod ((i : ℚ) + 1) k := by
    have := fl_fmod_nat hr (a := i + 1) hk (by omega); push_cast at this; exact this
  have e8 : Fl.fmod r (i : ℚ) k = pyMod (i : ℚ) k := fl_fmod_nat hr (a := i) hk (by omega)
  unfold Fl.initialiseMap Graph.initialiseMap
  simp only [e1, e2, e3, e4, e5, e6, e7, e8]

theorem fl_initialise_exact (hr : Faithful r) {k N : ℕ} (hk : 0 < k) (hkN : N = 0 ∨ k ≤ N) (hN : N ≤ 2 ^ 52) :
    Fl.initialise r N (k : ℚ) = Graph.initialise N (k : ℚ) := by
  unfold Fl.initialise Graph.initialise
  congr 1
  apply List.foldl_ext
  intro d i hi
  have hiN := List.mem_range.1 hi
  rw [fl_initialiseMap_exact hr hk hiN (by omega) hN]

/-- **C101 (initial grid).**  For a proper region whose edges and cell sizes are multiples of `2 ^ -n`, `n` at most
43, with at most `2 ^ 52` cells, the grid and graph set up in floating point are those of exact arithmetic. -/
theorem C101_init {D : Type} (hr : Faithful r) (hn : n ≤ 43) {b : Boundary} (hb : DyadicBox n b) {W H : ℚ}
    (hp : ProperGrid b W H) (hW : Dyadic n W) (hH : Dyadic n H) (hW1 : W ≤ 1024) (hH1 : H ≤ 1024)
    (hcells : b.width * b.height ≤ 2 ^ 52 * (W * H)) (initData : Boundary → D) (depth : ℕ) :
    Fl.init r b W H initData depth = MeshBuilder.init b W H initData depth := by
  unfold Fl.init MeshBuilder.init
  rw [fl_validateBounds_exact hr hn hb hW hH hp.wpos hp.hpos hW1 hH1]
  cases hval : MeshBuilder.validateBounds b W H with
  | error e => rfl
  | ok u =>
    obtain ⟨nx, ny, hnx, hx, hy⟩ := hp.fits hval
    have hw := width_range hb
    have hW0 := hp.wpos
    have hH0 := hp.hpos
    have hWle : W ≤ nx * W := le_mul_of_one_le_left hW0.le (by exact_mod_cast hnx)
    have hW3 : W ≤ 360 := by linarith
    have hx' : eastEdge b - b.longMin = nx * W := by
      rw [← hx]; unfold eastEdge Boundary.width; split_ifs <;> ring
    have hN : ny * nx ≤ 2 ^ 52 := by
      rw [hx, hy] at hcells
      have hWH : 0 < W * H := mul_pos hW0 hH0
      have : ((ny * nx : ℕ) : ℚ) * (W * H) ≤ 2 ^ 52 * (W * H) := by push_cast; linarith
      exact_mod_cast le_of_mul_le_mul_right this hWH
    have e1 : r (Fl.width r b / W) = b.width / W := by
      rw [width_exact hr hn hb, hx]
      have e2 : (nx : ℚ) * W / W = nx := by field_simp
      rw [e2]
      exact hr _ (IsDouble.nat (count_double hn hW hW0 (by linarith)))
    have e2 : b.width / W = nx := by rw [hx]; field_simp
    simp only [bind, Except.bind, pure, Except.pure]
    rw [fl_initializeCells_exact hr hn hb hW hH hW0 hH0 hW3 hx hy,
      initializeCells_eq b hp.valid hW0 hH0 hW3 nx ny hx' hy, e1, e2]
    dsimp only
    rw [fl_initialise_exact hr hnx ?_ (by simpa using hN)]
    simp only [List.length_map, List.length_range]
    rcases Nat.eq_zero_or_pos ny with h | h
    · left; rw [h]; simp
    · right; exact Nat.le_mul_of_pos_left _ h

theorem init_dyadicCells {D : Type} {b : Boundary} (hb : DyadicBox n b) {W H : ℚ}
    (hp : ProperGrid b W H) (hW : Dyadic n W) (hH : Dyadic n H) (initData : Boundary → D) (depth : ℕ) {m : MeshState D}
    (h : MeshBuilder.init b W H initData depth = .ok m) : m.maxDepth = depth ∧ DyadicCells n depth m.cells := by
  unfold MeshBuilder.init at h
  simp only [bind, Except.bind, pure, Except.pure] at h
  cases hval : MeshBuilder.validateBounds b W H with
  | error e => rw [hval] at h; cases h
  | ok u =>
    obtain ⟨nx, ny, hnx, hx, hy⟩ := hp.fits hval
    have hw := width_range hb
    have h3 := hb.lat
    have hW0 := hp.wpos
    have hH0 := hp.hpos
    have hWle : W ≤ nx * W := le_mul_of_one_le_left hW0.le (by exact_mod_cast hnx)
    have hW3 : W ≤ 360 := by linarith
    have hx' : eastEdge b - b.longMin = nx * W := by
      rw [← hx]; unfold eastEdge Boundary.width; split_ifs <;> ring
    rw [hval, initializeCells_eq b hp.valid hW0 hH0 hW3 nx ny hx' hy] at h
    dsimp only at h
    split at h
    · cases h
    · injection h with h
      subst h
      refine ⟨rfl, ?_⟩
      intro c hc
      simp only [List.mem_mapIdx, List.length_map, List.length_range, List.getElem_map, List.getElem_range] at hc
      obtain ⟨i, hi, hc⟩ := hc
      injection hc with hc
      subst hc
      refine ⟨Nat.zero_le _, ?_⟩
      have hrow : i / nx < ny := (Nat.div_lt_iff_lt_mul hnx).2 hi
      have hjle : (((i / nx : ℕ) : ℚ) + 1) * H ≤ ny * H := mul_le_mul_of_nonneg_right (by exact_mod_cast hrow) hH0.le
      have hj0 : (0 : ℚ) ≤ ((i / nx : ℕ) : ℚ) * H := by positivity
      have htop : b.height = b.latMax - b.latMin := rfl
      have hlat := Dyadic.add hb.latMin (Dyadic.nat_mul (i / nx) hH)
      have hlong := domain_dyadic (Dyadic.add hb.longMin (Dyadic.nat_mul (i % nx) hW))
      have hrange := domain_range (b.longMin + ((i % nx : ℕ) : ℚ) * W)
      refine ⟨hlat, Dyadic.add hlat hH, hlong, ?_, ⟨?_, ?_, ?_⟩, hrange, ?_⟩
      · simp only [gridCell]
        split_ifs
        · exact Dyadic.add hlong hW
        · exact Dyadic.sub (Dyadic.add hlong hW) (Dyadic.ofNat _ 360)
      · simp only [gridCell]; linarith
      · simp only [gridCell]; linarith
      · simp only [gridCell]; linarith
      · simp only [gridCell]
        split_ifs with hle
        · exact ⟨by linarith, hle⟩
        · exact ⟨by linarith, by linarith⟩

/-- **C101 (whole build).**  Region and cell sizes multiples of `2 ^ -n` with `n` and the depth of splitting together
at most 43: the mesh built in floating point, whatever the data and the conditions of splitting, is that of exact
arithmetic, errors included. -/
theorem C101_build {D : Type} (hr : Faithful r) {b : Boundary} (hb : DyadicBox n b) {W H : ℚ}
    (hp : ProperGrid b W H) (hW : Dyadic n W) (hH : Dyadic n H) (hW1 : W ≤ 1024) (hH1 : H ≤ 1024)
    (hcells : b.width * b.height ≤ 2 ^ 52 * (W * H)) (initData : Boundary → D) (depth : ℕ) (hn : n + depth ≤ 43)
    (ops : DataOps D) (aggregate : CellBox D → Py (Dict String Val)) (fuel : ℕ) (config : MeshConfig) :
    (do let m ← Fl.init r b W H initData depth; Fl.buildEnvironmentalMesh r ops aggregate fuel config m) =
    (do let m ← MeshBuilder.init b W H initData depth; MeshBuilder.buildEnvironmentalMesh ops aggregate fuel config m) := by
  have h0 : Fl.init r b W H initData depth = MeshBuilder.init b W H initData depth :=
    C101_init hr (by omega) hb hp hW hH hW1 hH1 hcells initData depth
  cases h : MeshBuilder.init b W H initData depth with
  | error e => simp only [h0, h, bind, Except.bind]
  | ok m =>
    obtain ⟨h1, h2⟩ := init_dyadicCells hb hp hW hH initData depth h
    simp only [h0, h, bind, Except.bind]
    exact C101_split hr ops aggregate fuel config (by rw [h1]; exact hn) (by rw [h1]; exact h2)

end Init

/-- **C101 (double precision).**  `round64` rounds to a nearest number of 53 binary digits, of two the one whose last digit
is even (the half of its unit away), and so keeps every number of double precision: the theorems above hold for it. -/
theorem C101_round64 :
    (∀ q, ∃ m e : ℤ, |m| ≤ 2 ^ 53 ∧ Fl.round64 q = m * 2 ^ e) ∧
    (∀ q (m e : ℤ), |m| ≤ 2 ^ 53 → |Fl.round64 q - q| ≤ |(m : ℚ) * 2 ^ e - q|) ∧
    (∀ q (e : ℤ), 2 ^ e ≤ |q| → |q| < 2 ^ (e + 1) → |Fl.round64 q - q| = 2 ^ (e - 53) →
      ∃ m : ℤ, 2 ∣ m ∧ Fl.round64 q = m * 2 ^ (e - 52)) ∧ Faithful Fl.round64 :=
  ⟨round64_digits, round64_nearest, round64_ties, round64_faithful⟩

/-- **C101 (what double precision gives).**  For an accepted dyadic region not over the antimeridian the build in double
precision ends with cells that tile the region exactly (no gap, no overlap, however small), unique ids and the exact
neighbour graph, unless a source raises an exception itself. -/
theorem C101_built {D : Type} {n : ℕ} (ops : DataOps D) (agg : CellBox D → Py (Dict String Val)) (config : MeshConfig)
    {b : Boundary} (hb : DyadicBox n b) {W H : ℚ} (hp : ProperGrid b W H) (hcr : b.longMin < b.longMax)
    (hh : b.latMin < b.latMax) (hcol : b.longMin = -180 ∧ b.longMax = 180 → W ≤ 180) (hW : Dyadic n W) (hH : Dyadic n H)
    (hW1 : W ≤ 1024) (hH1 : H ≤ 1024) (hcells : b.width * b.height ≤ 2 ^ 52 * (W * H)) (depth : ℕ) (hn : n + depth ≤ 43)
    (hacc : Fl.validateBounds Fl.round64 b W H = .ok ()) (initData : Boundary → D) :
    ∃ m0, Fl.init Fl.round64 b W H initData depth = .ok m0 ∧ ∃ N, ∀ fuel, N ≤ fuel →
      (∃ em, Fl.buildEnvironmentalMesh Fl.round64 ops agg fuel config m0 = .ok em ∧ BuiltOK b W H depth em ∧ em.config = config) ∨
      (∃ e, Fl.buildEnvironmentalMesh Fl.round64 ops agg fuel config m0 = .error e ∧
        (DecisionRaises ops e ∨ ∃ c, agg c = .error e)) := by
  have hr := round64_faithful
  have hn' : n ≤ 43 := by omega
  rw [fl_validateBounds_exact hr hn' hb hW hH hp.wpos hp.hpos hW1 hH1] at hacc
  obtain ⟨m0, h0, N, hN⟩ := C52_build_partial ops agg config b W H hp hcr hh hcol hacc initData depth
  have h0' : Fl.init Fl.round64 b W H initData depth = .ok m0 :=
    (C101_init hr hn' hb hp hW hH hW1 hH1 hcells initData depth).trans h0
  obtain ⟨h1, h2⟩ := init_dyadicCells hb hp hW hH initData depth h0
  refine ⟨m0, h0', N, fun fuel hf => ?_⟩
  rw [C101_split hr ops agg fuel config (n := n) (by rw [h1]; exact hn) (by rw [h1]; exact h2)]
  rcases hN fuel hf with ⟨em, m, e1, e2, e3, -⟩ | h
  · exact Or.inl ⟨em, e1, e2, e3⟩
  · exact Or.inr h

namespace Spec

/-- The neighbours of cell `i` in the eight directions, from north-east clockwise; nothing if the build failed or there
is no such cell. -/
def neighboursOf (m : Py EnvMesh) (i : ℕ) : Option (List (List ℕ)) :=
  match m with
  | .ok m => (m.graph.nodes.get? i).map (fun n => Dir.all.map n)
  | .error _ => none

/-- How many cells a built mesh has. -/
def cellCount (m : Py EnvMesh) : Option ℕ :=
  match m with
  | .ok m => some m.cells.length
  | .error _ => none

end Spec

/-- Data by which the cells east of the zero meridian are split and the others are not. -/
def splitEastOps : DataOps Unit := ⟨fun _ _ => (), fun _ => [1], fun _ b _ => .ok (decide (b.longMin > 0))⟩

/-- A region of two cells, 0.1 degrees wide each as numbers of double precision. -/
def tenthRegion : Boundary := ⟨0, 1, 0, Fl.round64 (1 / 5), []⟩

/-- The mesh of `tenthRegion` built in double precision. -/
def tenthFloat : Py EnvMesh := do
  let m ← Fl.init Fl.round64 tenthRegion (Fl.round64 (1 / 10)) 1 (fun _ => ()) 1
  Fl.buildEnvironmentalMesh Fl.round64 splitEastOps (fun _ => .ok []) 9 ⟨tenthRegion, 1 / 10, 1, some 1, []⟩ m

/-- The mesh of `tenthRegion` built exactly. -/
def tenthExact : Py EnvMesh := do
  let m ← MeshBuilder.init tenthRegion (Fl.round64 (1 / 10)) 1 (fun _ => ()) 1
  MeshBuilder.buildEnvironmentalMesh splitEastOps (fun _ => .ok []) 9 ⟨tenthRegion, 1 / 10, 1, some 1, []⟩ m

/-- **C101 (where it fails).**  Cells of 0.1 degrees in a region that is exactly two of them wide, all numbers of double
precision: both checks accept them and exact arithmetic joins the western cell to the western quarters of the other.  In
double precision the second cell begins west of the end of the first (`longitude_domain` of 0.1 is
0.09999999999999432), the end of the region is left out, and once the second cell is split the first has no neighbour. -/
theorem C101_decimal_false :
    IsDouble tenthRegion.longMax ∧ IsDouble (Fl.round64 (1 / 10)) ∧ tenthRegion.width = 2 * Fl.round64 (1 / 10) ∧
    Fl.assertValidCellsize Fl.round64 0 tenthRegion.longMax (Fl.round64 (1 / 10)) = .ok () ∧
    Fl.validateBounds Fl.round64 tenthRegion (Fl.round64 (1 / 10)) 1 = .ok () ∧
    (∃ e w : ℚ, Fl.initializeCells Fl.round64 tenthRegion (Fl.round64 (1 / 10)) 1 =
      .ok [⟨0, 1, 0, Fl.round64 (1 / 10), []⟩, ⟨0, 1, w, e, []⟩] ∧ w < Fl.round64 (1 / 10) ∧ e < tenthRegion.longMax) ∧
    (cellCount tenthFloat = some 5 ∧ neighboursOf tenthFloat 0 = some [[], [], [], [], [], [], [], []]) ∧
    cellCount tenthExact = some 5 ∧ neighboursOf tenthExact 0 = some [[], [2, 4], [], [], [], [], [], []] := by
  refine ⟨⟨3602879701896397, -54, ?_⟩, ⟨3602879701896397, -55, ?_⟩, ?_, ?_, ?_,
    ⟨7205759403792589 / 36028797018963968, 3518437208883 / 35184372088832, ?_⟩, ?_, ?_⟩
  · refine ⟨by norm_num, by norm_num, by norm_num, ?_⟩
    have : tenthRegion.longMax = 3602879701896397 / 18014398509481984 := by decide +kernel
    rw [this]; norm_num
  · refine ⟨by norm_num, by norm_num, by norm_num, ?_⟩
    have : Fl.round64 (1 / 10) = 3602879701896397 / 36028797018963968 := by decide +kernel
    rw [this]; norm_num
  all_goals decide +kernel

namespace RoundingEx

/-- A region over the antimeridian: cells of 5 by 2.5 degrees, as in the shipped configurations. -/
def region : Boundary := ⟨-65, -60, 170, -170, []⟩

theorem region_proper : ProperGrid region 5 (5 / 2) where
  valid := by unfold Valid region; norm_num
  nondeg := by unfold region; norm_num
  wpos := by norm_num
  hpos := by norm_num
  divides := by unfold Boundary.width region; norm_num

theorem region_dyadic : DyadicBox 1 region where
  latMin := ⟨-130, by norm_num [region]⟩
  latMax := ⟨-120, by norm_num [region]⟩
  longMin := ⟨340, by norm_num [region]⟩
  longMax := ⟨-340, by norm_num [region]⟩
  lat := by norm_num [region]
  west := by norm_num [region]
  east := by norm_num [region]

/-- It is built in double precision as exactly, split up to 42 times, whatever the data. -/
example {D : Type} (initData : Boundary → D) (ops : DataOps D) (aggregate : CellBox D → Py (Dict String Val)) (fuel : ℕ)
    (config : MeshConfig) :
    (do let m ← Fl.init Fl.round64 region 5 (5 / 2) initData 42
        Fl.buildEnvironmentalMesh Fl.round64 ops aggregate fuel config m) =
    (do let m ← MeshBuilder.init region 5 (5 / 2) initData 42
        MeshBuilder.buildEnvironmentalMesh ops aggregate fuel config m) :=
  C101_build C101_round64.2.2.2 region_dyadic region_proper ⟨10, by norm_num⟩ ⟨5, by norm_num⟩ (by norm_num) (by norm_num)
    (by norm_num [Boundary.width, Boundary.height, region]) initData 42 (by norm_num) ops aggregate fuel config

/-- The grid of it, in double precision. -/
example : Fl.init Fl.round64 region 5 (5 / 2) (fun _ => ()) 3 = MeshBuilder.init region 5 (5 / 2) (fun _ => ()) 3 :=
  C101_init C101_round64.2.2.2 (n := 1) (by norm_num) region_dyadic region_proper ⟨10, by norm_num⟩ ⟨5, by norm_num⟩
    (by norm_num) (by norm_num) (by norm_num [Boundary.width, Boundary.height, region]) _ _

/-- A mesh of one cell, to be split. -/
def oneCell : MeshState Unit :=
  { bounds := region, cells := [some { bounds := region, id := 0, data := () }, none],
    graph := Graph.initialise 1 1, maxDepth := 2 }

example (ops : DataOps Unit) : Fl.buildEnvironmentalMesh Fl.round64 ops (fun _ => .ok []) 99 ⟨region, 20, 5, some 2, []⟩ oneCell =
    MeshBuilder.buildEnvironmentalMesh ops (fun _ => .ok []) 99 ⟨region, 20, 5, some 2, []⟩ oneCell := by
  refine C101_split C101_round64.2.2.2 ops _ 99 _ (n := 1) (by decide) ?_
  intro c hc
  simp only [oneCell, List.mem_cons, Option.some.injEq, reduceCtorEq, List.not_mem_nil, or_false] at hc
  subst hc
  exact ⟨Nat.zero_le _, region_dyadic⟩

/-- A region west of Greenwich. -/
def plain : Boundary := ⟨-65, -60, -120, -100, []⟩

/-- It is tiled exactly in double precision, split up to 42 times. -/
example (ops : DataOps Unit) (config : MeshConfig) :
    ∃ m0, Fl.init Fl.round64 plain 5 (5 / 2) (fun _ => ()) 42 = .ok m0 ∧ ∃ N, ∀ fuel, N ≤ fuel →
      (∃ em, Fl.buildEnvironmentalMesh Fl.round64 ops (fun _ => .ok []) fuel config m0 = .ok em ∧
        BuiltOK plain 5 (5 / 2) 42 em ∧ em.config = config) ∨
      (∃ e, Fl.buildEnvironmentalMesh Fl.round64 ops (fun _ => .ok []) fuel config m0 = .error e ∧
        (DecisionRaises ops e ∨ ∃ c : CellBox Unit, (fun _ => .ok [] : CellBox Unit → Py (Dict String Val)) c = .error e)) := by
  refine C101_built (n := 1) ops _ config ?_ ?_ ?_ ?_ ?_ ⟨10, ?_⟩ ⟨5, ?_⟩ ?_ ?_ ?_ 42 ?_ (by decide +kernel) _
  · exact ⟨⟨-130, by norm_num [plain]⟩, ⟨-120, by norm_num [plain]⟩, ⟨-240, by norm_num [plain]⟩,
      ⟨-200, by norm_num [plain]⟩, by norm_num [plain], by norm_num [plain], by norm_num [plain]⟩
  · exact ⟨by norm_num [Valid, plain], by norm_num [plain], by norm_num, by norm_num, by norm_num [plain, Boundary.width]⟩
  all_goals norm_num [plain, Boundary.width, Boundary.height]

/-- The check of the configuration accepts heights of 2.5 degrees. -/
example : Fl.assertValidCellsize Fl.round64 (-65) (-60) (5 / 2) = .ok () :=
  C101_checked C101_round64.2.2.2 (n := 1) (by norm_num) ⟨-130, by norm_num⟩ ⟨-120, by norm_num⟩ (by norm_num) (by norm_num)
    (k := 2) ⟨5, by norm_num⟩ (by norm_num) (by norm_num [pyMod])

/-- Not every rounding is faithful: one to four decimals changes 1/32. -/
example : ¬ Faithful (fun q => (Fl.roundEven (q * 10000) : ℚ) / 10000) := by
  intro h
  have := h (1 / 32) ⟨1, -5, by norm_num, by norm_num, by norm_num, by norm_num⟩
  revert this
  decide +kernel

/-- 0.3 is not a sum of 0.1 and 0.2. -/
example : Fl.round64 (Fl.round64 (1 / 10) + Fl.round64 (1 / 5)) ≠ Fl.round64 (3 / 10) := by decide +kernel

end RoundingEx
end Verif
