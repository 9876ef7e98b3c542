import Verif.Props.Update
import Verif.Props.Units

/-!
# A cell of the grid and the data in it

What becomes of a cell of the grid, and the values of what it is divided into, depend on the data in that cell only: not on the region around it
and not on the data elsewhere (C125).
-/

namespace Verif
open Spec

/-! ## Specification -/

/-- The box `q` is `g` or comes from it by quartering. -/
def Spec.CutFrom (parts : Boundary → List Boundary) (g q : Boundary) : Prop := ∃ t, LineageBy parts (· = g) (q :: t)

/-- Two sources with gridded data, of the same kind and parameters, that have the same datapoints in `g`; scalar ones in any order. -/
inductive Spec.SameAround (g : Boundary) : Source AnyData AnyCond → Source AnyData AnyCond → Prop
  | scalar {s s' : Source (Dataset (Option ℚ)) Cond} : s'.loader = s.loader → s'.conds = s.conds → s'.fill = s.fill →
      (rowsAround s.subset g).Perm (rowsAround s'.subset g) → SameAround g (.ofScalar s) (.ofScalar s')
  | vector {s s' : Source (Dataset Vec) VectorHom.Conds} {id name agg hom hom'} : s.loader = vectorLoader id name agg hom →
      s'.loader = vectorLoader id name agg hom' → s'.conds = s.conds → s'.fill = s.fill → rowsAround s.subset g = rowsAround s'.subset g →
      SameAround g (.ofVector s) (.ofVector s')

/-! ## Proofs -/

theorem valueIn_same (v : Val) : valueIn id v = v := by cases v <;> simp [valueIn]

theorem fillIn_same (x : Fill) : fillIn id x = x := by cases x <;> simp [fillIn, valueIn_same]

theorem cutFrom_line {parts : Boundary → List Boundary} {g : Boundary} {l : List Boundary} (h : LineageBy parts (· = g) l) : ∀ q ∈ l, CutFrom parts g q := by
  induction h with
  | root e => intro q hq; rw [List.mem_singleton] at hq; subst hq; exact ⟨[], .root e⟩
  | @quarter q p t h hq ih =>
    intro r hr
    rcases List.mem_cons.1 hr with rfl | hr
    · exact ⟨_, .quarter h hq⟩
    · exact ih r hr

section
variable {S C : Type}

/-- The part of two meshes that comes from a cell that both grids have. -/
theorem local_cells {In In' start start' : Boundary → Prop} {parts : Boundary → List Boundary} {depth : ℕ} {zs : List (Source S C × Source S C)}
    {value value' : Source S C → Boundary → String → Option ℚ} {cells cells' : List AggCell} {g : Boundary}
    (h : BuiltFrom In start parts depth (zs.map Prod.fst) value cells) (h' : BuiltFrom In' start' parts depth (zs.map Prod.snd) value' cells')
    (hg : start g) (hg' : start' g)
    (huniq : ∀ q t t', LineageBy parts start (q :: t) → LineageBy parts start (q :: t') → t = t')
    (huniq' : ∀ q t t', LineageBy parts start' (q :: t) → LineageBy parts start' (q :: t') → t = t')
    (hin : ∀ q, CutFrom parts g q → In q ∧ In' q) (ha : ∀ z ∈ zs, ∀ q, CutFrom parts g q → AlikeAt q q z.1 z.2) :
    (∀ q, CutFrom parts g q → ((∃ c ∈ cells', c.bounds = q) ↔ ∃ c ∈ cells, c.bounds = q)) ∧
    ∀ c ∈ cells, ∀ c' ∈ cells', CutFrom parts g c.bounds → c'.bounds = c.bounds → ∀ n, c'.data.get? n = c.data.get? n := by
  have up : ∀ {start : Boundary → Prop}, start g → ∀ {l}, LineageBy parts (· = g) l → LineageBy parts start l :=
    fun hg => Spec.LineageBy.mono (fun q e => by rw [e]; exact hg)
  have restrict : ∀ {start : Boundary → Prop}, start g → (∀ q t t', LineageBy parts start (q :: t) → LineageBy parts start (q :: t') → t = t') →
      ∀ (full : List (Source S C)) k q, byTurns parts (Divides ownVerdict) depth [] full (fun k q => k = 0 ∧ q = g) k q ↔
        byTurns parts (Divides ownVerdict) depth [] full (fun k q => k = 0 ∧ start q) k q ∧ CutFrom parts g q := by
    intro start hg huniq full
    refine byTurns_restrict (In := fun q => ∃ t, LineageBy parts start (q :: t)) ?_ ?_ full [] _ _ ?_ ?_
    · rintro p q ⟨t, h⟩ hq; exact ⟨p :: t, .quarter h hq⟩
    · rintro p q ⟨t, h⟩ hq
      constructor
      · rintro ⟨u, hu⟩; exact ⟨_, .quarter hu hq⟩
      · rintro ⟨u, hu⟩
        obtain rfl := huniq _ _ _ (up hg hu) (.quarter h hq)
        cases hu with
        | quarter hu _ => exact ⟨t, hu⟩
    · rintro k q ⟨-, hq⟩; exact ⟨[], .root hq⟩
    · intro k q
      constructor
      · rintro ⟨h0, rfl⟩; exact ⟨⟨h0, hg⟩, [], .root rfl⟩
      · rintro ⟨⟨h0, hq⟩, t, ht⟩
        obtain rfl := huniq _ _ _ (up hg ht) (.root hq)
        cases ht with
        | root e => exact ⟨h0, e⟩
  have hparts : ∀ p q, CutFrom parts g p → q ∈ parts p → CutFrom parts g q := by
    rintro p q ⟨t, h⟩ hq; exact ⟨_, .quarter h hq⟩
  constructor
  · intro q hq
    rw [h.boxes, h'.boxes]
    have swap : byTurns parts (Divides ownVerdict) depth [] (zs.map Prod.snd) (fun k q => k = 0 ∧ q = g) =
        byTurns parts (Divides ownVerdict) depth [] (zs.map Prod.fst) (fun k q => k = 0 ∧ q = g) := by
      have e1 := byTurns_map (f := Prod.snd) (parts := parts) (wants := Divides (ownVerdict (S := S) (C := C))) (sd := depth) zs []
        (fun k q => k = 0 ∧ q = g)
      have e2 := byTurns_map (f := Prod.fst) (parts := parts) (wants := Divides (ownVerdict (S := S) (C := C))) (sd := depth) zs []
        (fun k q => k = 0 ∧ q = g)
      rw [List.map_nil] at e1 e2
      rw [e1, e2]
      refine byTurns_congr (In := CutFrom parts g) hparts zs [] _ ?_ ?_
      · rintro k q ⟨-, rfl⟩; exact ⟨[], .root rfl⟩
      · intro l hl q hq
        exact (alikeAt_divides (fun z hz => ha z (by simpa using hl z hz) q hq)).symm
    constructor
    · rintro ⟨k, hk⟩
      have := (restrict hg' huniq' _ k q).2 ⟨hk, hq⟩
      rw [swap] at this
      exact ⟨k, ((restrict hg huniq _ k q).1 this).1⟩
    · rintro ⟨k, hk⟩
      have := (restrict hg huniq _ k q).2 ⟨hk, hq⟩
      rw [← swap] at this
      exact ⟨k, ((restrict hg' huniq' _ k q).1 this).1⟩
  · intro c hc c' hc' hq e n
    obtain ⟨t, -, i2, i3⟩ := h.data c hc
    obtain ⟨t', -, i2', i3'⟩ := h'.data c' hc'
    obtain ⟨u, hu⟩ := hq
    rw [e] at i2'
    obtain rfl := huniq _ _ _ i2 (up hg hu)
    obtain rfl := huniq' _ _ _ i2' (up hg' hu)
    have := DataAlong.mapped (f := fun _ => id) (fun z hz => ⟨(ha z hz _ ⟨_, hu⟩).name, fun n _ => by rw [fillIn_same]; exact (ha z hz _ ⟨_, hu⟩).fill⟩) e ?_ i3 i3' n
    · rw [this]
      cases c.data.get? n with
      | none => rfl
      | some v => simp [valueIn_same]
    · intro z hz n hn p hp
      have hcut := cutFrom_line hu p hp
      rw [Option.map_id]
      exact (alike_value (h.valued z.1 (List.mem_map_of_mem hz)) (h'.valued z.2 (List.mem_map_of_mem hz)) (hin p hcut).1 (hin p hcut).2
        (ha z hz p hcut) hn).symm

end

/-- Which datapoints are in a box, by the points it covers. -/
theorem around_has {q : Boundary} (hv : Valid q) (hne : q.longMin ≠ q.longMax) {x : ℚ} (y : ℚ) (h1 : -180 < x) (h2 : x ≤ 180) :
    (q.latMin < y ∧ y ≤ q.latMax ∧ (q.longMin < x ∧ x ≤ eastEdge q ∨ q.longMin < x + 360 ∧ x + 360 ≤ eastEdge q)) ↔ HCovers q x y := by
  obtain ⟨e1, -⟩ := eastEdge_lt hv hne
  rw [turns_iff hv.2.1 e1.le h1 h2]
  unfold HCovers
  exact ⟨fun ⟨a, b, c⟩ => ⟨c, a, b⟩, fun ⟨c, a, b⟩ => ⟨a, b, c⟩⟩

open Classical in
/-- The datapoints in a box are those in a larger box that are in it. -/
theorem rowsAround_within {V : Type} {b g q : Boundary} {d : Dataset V} (hd : GridAround b d) (hg : Around b g) (hq : Around b q) (hw : Within q g) :
    rowsAround d q = (rowsAround d g).filter (fun r => decide (HCovers q r.long r.lat)) := by
  obtain ⟨⟨gr, e, hl⟩, -, -⟩ := hd
  unfold rowsAround
  rw [List.filter_filter]
  apply List.filter_congr
  intro r hr
  obtain ⟨l1, l2⟩ := dataset_longs e hl hr
  have ht : during q r.time = during g r.time := by unfold during; rw [hw.2]
  rw [ht, Bool.eq_iff_iff]
  simp only [Bool.and_eq_true, decide_eq_true_iff]
  rw [around_has hq.1.1 hq.2.1 _ l1 l2, around_has hg.1.1 hg.2.1 _ l1 l2]
  exact ⟨fun ⟨a, b⟩ => ⟨a, hw.1 _ _ a, b⟩, fun ⟨a, _, b⟩ => ⟨a, b⟩⟩

theorem sameAround_alike {b b' g q : Boundary} {s s' : Source AnyData AnyCond} (h : AroundAny b s) (h' : AroundAny b' s') (hq : Around b q)
    (hq' : Around b' q) (hw : Within q g) (hg : Around b g) (hg' : Around b' g) (hs : SameAround g s s') : AlikeAt q q s s' := by
  cases hs with
  | @scalar s s' e1 e2 e3 hd =>
    obtain ⟨⟨id, name, agg, minDp, e⟩, h⟩ := h.scalarGrid
    obtain ⟨-, h'⟩ := h'.scalarGrid
    have hp : ((rowsAround s.subset q).map Row.val).Perm ((rowsAround s'.subset q).map Row.val) := by
      rw [rowsAround_within h hg hq hw, rowsAround_within h' hg' hq' hw]
      exact (hd.filter _).map _
    have e' : s'.loader = scalarLoader id name agg minDp := by rw [e1, e]
    unfold Source.ofScalar
    refine alikeAt_wrap ?_ ?_ ?_; · intro _; rfl
    · intro _; rfl
    refine ⟨by rw [e1], e3, e2, ?_, ?_⟩
    · rw [around_scalar_get e h hq, around_scalar_get e' h' hq', C29_order true agg hp]
    · intro c hc
      unfold ownVerdict
      rw [(around_scalar_faithful e h).decides q hq c hc, (around_scalar_faithful e' h').decides q hq' c (by rw [e2]; exact hc)]
      simp only
      exact (C27_order minDp c hp).symm
  | @vector s s' id name agg hom hom' e e1 e2 e3 hd =>
    obtain ⟨hc, h⟩ := h.vectorGrid
    obtain ⟨-, h'⟩ := h'.vectorGrid
    have hp : rowsAround s.subset q = rowsAround s'.subset q := by
      rw [rowsAround_within h hg hq hw, rowsAround_within h' hg' hq' hw, hd]
    unfold Source.ofVector
    refine alikeAt_wrap ?_ ?_ ?_; · intro _; rfl
    · intro _; rfl
    refine ⟨by rw [e, e1]; rfl, e3, e2, ?_, ?_⟩
    · rw [around_vector_get e h hq, around_vector_get e1 h' hq', hp]
    · intro c hcm
      rw [hc] at hcm
      cases hcm

theorem around_cut {b g : Boundary} (hw : ∀ p q, Around b p → q ∈ turnQuarters p → Around b q ∧ Within q p) (hg : Around b g) {q : Boundary}
    (h : CutFrom turnQuarters g q) : Around b q ∧ Within q g := by
  obtain ⟨t, h⟩ := h
  have key : ∀ l, LineageBy turnQuarters (· = g) l → ∀ q t, l = q :: t → Around b q ∧ Within q g := by
    intro l h
    induction h with
    | root e => intro q t el; cases el; rw [e]; exact ⟨hg, .refl _⟩
    | @quarter q p t _ hq ih =>
      intro r u el
      obtain ⟨rfl, -⟩ := List.cons.inj el
      obtain ⟨k1, k2⟩ := ih p t rfl
      obtain ⟨k3, k4⟩ := hw p q k1 hq
      exact ⟨k3, k4.trans k2⟩
  exact key _ h q t rfl

theorem forall₂_zip {α : Type} {R : α → α → Prop} {l l' : List α} (h : List.Forall₂ R l l') :
    ∃ zs : List (α × α), zs.map Prod.fst = l ∧ zs.map Prod.snd = l' ∧ ∀ z ∈ zs, R z.1 z.2 := by
  induction h with
  | nil => exact ⟨[], rfl, rfl, by simp⟩
  | @cons a b _ _ h _ ih =>
    obtain ⟨zs, h1, h2, h3⟩ := ih
    refine ⟨(a, b) :: zs, by rw [List.map_cons, h1], by rw [List.map_cons, h2], ?_⟩
    intro z hz
    rcases List.mem_cons.1 hz with rfl | hz
    · exact h
    · exact h3 z hz

/-! ## C125 -/

/-- **C125**, over the antimeridian: take two regions, which may cross it, and a cell that the grids of both have; for each region sources with gridded
data, of the same parameters and with the same datapoints in that cell.  Both meshes are built without raising, they have the same cells among the
boxes that come from that cell, and these have the same values. -/
theorem C125_around {b b' g : Boundary} {W H : ℚ} {full full' : List (Source AnyData AnyCond)} (hf : ∀ s ∈ full, AroundAny b s)
    (hf' : ∀ s ∈ full', AroundAny b' s) (hs : List.Forall₂ (SameAround g) full full') (hid : (full.map (fun s => s.loader.id)).Nodup)
    (hid' : (full'.map (fun s => s.loader.id)).Nodup) (config config' : MeshConfig) (hp : ProperGrid b W H) (hp' : ProperGrid b' W H)
    (hh : b.latMin < b.latMax) (hh' : b'.latMin < b'.latMax) (hcol : b.width = 360 → W ≤ 180) (hcol' : b'.width = 360 → W ≤ 180)
    (hacc : MeshBuilder.validateBounds b W H = .ok ()) (hacc' : MeshBuilder.validateBounds b' W H = .ok ())
    (hg : TurnGridBox b W H g) (hg' : TurnGridBox b' W H g) (depth : ℕ) :
    ∃ m0 m0', MeshBuilder.init b W H (fun q => trimSources q full) depth = .ok m0 ∧
      MeshBuilder.init b' W H (fun q => trimSources q full') depth = .ok m0' ∧ ∃ N em em',
      (∀ fuel, N ≤ fuel → MeshBuilder.buildEnvironmentalMesh (sourceOps AnyData AnyCond) aggregate fuel config m0 = .ok em ∧
        MeshBuilder.buildEnvironmentalMesh (sourceOps AnyData AnyCond) aggregate fuel config' m0' = .ok em') ∧
      (∀ q, CutFrom turnQuarters g q → ((∃ c ∈ em'.cells, c.bounds = q) ↔ ∃ c ∈ em.cells, c.bounds = q)) ∧
      ∀ c ∈ em.cells, ∀ c' ∈ em'.cells, CutFrom turnQuarters g c.bounds → c'.bounds = c.bounds → ∀ n, c'.data.get? n = c.data.get? n := by
  obtain ⟨m0, h0, N, em, value, hb, hB⟩ := around_from hf hid config hp hh hcol hacc depth
  obtain ⟨m0', h0', N', em', value', hb', hB'⟩ := around_from hf' hid' config' hp' hh' hcol' hacc' depth
  have hS := around_system hp hcol hacc
  have hS' := around_system hp' hcol' hacc'
  obtain ⟨zs, rfl, rfl, hz⟩ := forall₂_zip hs
  refine ⟨m0, m0', h0, h0', max N N', em, em', fun fuel hfuel => ⟨hb fuel (by omega), hb' fuel (by omega)⟩, ?_⟩
  have c1 : ∀ q, CutFrom turnQuarters g q → Around b q ∧ Within q g := fun q => around_cut hS.within (hS.first g hg)
  have c2 : ∀ q, CutFrom turnQuarters g q → Around b' q ∧ Within q g := fun q => around_cut hS'.within (hS'.first g hg')
  exact local_cells hB hB' hg hg' (fun q t t' => around_unique (unwraps_of hp) hp.wpos hp.hpos (cell_small hp hcol hacc))
    (fun q t t' => around_unique (unwraps_of hp') hp'.wpos hp'.hpos (cell_small hp' hcol' hacc')) (fun q h => ⟨(c1 q h).1, (c2 q h).1⟩)
    (fun z hzm q h => sameAround_alike (hf _ (List.mem_map_of_mem hzm)) (hf' _ (List.mem_map_of_mem hzm)) (c1 q h).1 (c2 q h).1 (c1 q h).2
      (hS.first g hg) (hS'.first g hg') (hz z hzm))

/-- The region beside that of C113, and gridded data with other values outside of the cell that both have. -/
def exBeside : Boundary := ⟨0, 20, 165, -175, []⟩

theorem exBeside_proper : ProperGrid exBeside 10 10 := by
  refine ⟨by norm_num [Valid, exBeside], by norm_num [exBeside], by norm_num, by norm_num, ?_⟩
  intro h
  have : exBeside.width = 20 := by decide +kernel
  rw [this] at h; norm_num at h

def exBesideGrid : Grid (Option ℚ) := ⟨[5, 10, 15], [-175, 170, 180], none, fun y x _ => if y ≤ 10 ∧ x ≠ 170 then some (x + y) else some 3⟩

def exBesideSources : List (Source AnyData AnyCond) :=
  [.ofScalar ⟨scalarLoader 0 "a" .mean 1, [⟨0, 0, 1, false⟩], .parent, .grid exBesideGrid⟩,
   .ofVector (vectorSource 1 "u,v" .mean 1 [] .parent (.grid ⟨[5, 10, 20], [-175, 180], none, fun y x _ => (some y, if y = 20 then none else some x)⟩))]

theorem exBeside_all : ∀ s ∈ exBesideSources, AroundAny exBeside s := by
  intro s hs
  simp only [exBesideSources, List.mem_cons, List.not_mem_nil, or_false] at hs
  rcases hs with rfl | rfl
  · have hs : (Dataset.grid exBesideGrid).Sorted := by unfold Dataset.Sorted; constructor <;> decide +kernel
    exact .scalar rfl (by decide) (by simp) (Or.inl rfl) ⟨⟨_, rfl, by decide +kernel⟩, hs, _, trim_eq hs (by intro h; cases h)⟩
  · have hs : (Dataset.grid (⟨[5, 10, 20], [-175, 180], none, fun y x _ => (some y, if y = 20 then none else some x)⟩ : Grid Vec)).Sorted := by
      unfold Dataset.Sorted; constructor <;> decide +kernel
    exact .vector (x := "u") (y := "v") rfl (by decide +kernel) (by decide) (by simp) rfl rfl
      ⟨⟨_, rfl, by decide +kernel⟩, hs, _, trim_eq hs (by intro h; cases h)⟩

/-- The hypotheses of C125 hold for the cell across the antimeridian, the first of one region and the second of the other. -/
example : ∃ m0 m0', MeshBuilder.init exAroundRegion 10 10 (fun q => trimSources q exAround) 1 = .ok m0 ∧
    MeshBuilder.init exBeside 10 10 (fun q => trimSources q exBesideSources) 1 = .ok m0' ∧ ∃ N em em',
    (∀ fuel, N ≤ fuel → MeshBuilder.buildEnvironmentalMesh (sourceOps AnyData AnyCond) aggregate fuel exConfig m0 = .ok em ∧
      MeshBuilder.buildEnvironmentalMesh (sourceOps AnyData AnyCond) aggregate fuel exConfig m0' = .ok em') ∧
    (∀ q, CutFrom turnQuarters ⟨0, 10, 175, -175, []⟩ q → ((∃ c ∈ em'.cells, c.bounds = q) ↔ ∃ c ∈ em.cells, c.bounds = q)) ∧
    ∀ c ∈ em.cells, ∀ c' ∈ em'.cells, CutFrom turnQuarters ⟨0, 10, 175, -175, []⟩ c.bounds → c'.bounds = c.bounds →
      ∀ n, c'.data.get? n = c.data.get? n := by
  have hw : exAroundRegion.width ≠ 360 := by decide +kernel
  have hw' : exBeside.width ≠ 360 := by decide +kernel
  refine C125_around exAround_all.1 exBeside_all (.cons (.scalar rfl rfl rfl ?_) (.cons (.vector rfl rfl rfl rfl ?_) .nil)) exAround_all.2.1 (by decide)
    exConfig exConfig exAroundRegion_proper exBeside_proper (by norm_num [exAroundRegion]) (by norm_num [exBeside]) (fun h => absurd h hw)
    (fun h => absurd h hw') (by decide +kernel) (by decide +kernel)
    ⟨0, 0, by norm_num [exAroundRegion, turnBack], by norm_num [exAroundRegion], by norm_num [exAroundRegion, eastEdge]⟩
    ⟨1, 0, by norm_num [exBeside, turnBack], by norm_num [exBeside], by norm_num [exBeside, eastEdge]⟩ 1
  · refine .of_eq ?_
    show rowsAround (.grid exGrid) ⟨0, 10, 175, -175, []⟩ = rowsAround (.grid exBesideGrid) ⟨0, 10, 175, -175, []⟩
    decide +kernel
  · show rowsAround (.grid (⟨[5, 10], [-175, 180], none, fun y x _ => (some y, some x)⟩ : Grid Vec)) ⟨0, 10, 175, -175, []⟩ =
      rowsAround (.grid ⟨[5, 10, 20], [-175, 180], none, fun y x _ => (some y, if y = 20 then none else some x)⟩) ⟨0, 10, 175, -175, []⟩
    decide +kernel

/-- **C125**, all kinds of sources: take two regions that do not cross the antimeridian and a block of whole cells of both grids; for each region sources
of the three kinds, locks and curls included, of the same parameters and with the same data in the block.  Both meshes are built without
raising, and in the block they have the same cells with the same values. -/
theorem C125_regions {b b' k : Boundary} {W H : ℚ} {full full' : List (Source AnyData AnyCond)} (hf : ∀ s ∈ full, PlainAny b s)
    (hf' : ∀ s ∈ full', PlainAny b' s) (hs : List.Forall₂ (SameIn k) full full') (hid : (full.map (fun s => s.loader.id)).Nodup)
    (config config' : MeshConfig) (hp : ProperGrid b W H) (hp' : ProperGrid b' W H) (hcr : b.longMin < b.longMax) (hcr' : b'.longMin < b'.longMax)
    (hh : b.latMin < b.latMax) (hh' : b'.latMin < b'.latMax) (hcol : b.longMin = -180 ∧ b.longMax = 180 → W ≤ 180)
    (hcol' : b'.longMin = -180 ∧ b'.longMax = 180 → W ≤ 180)
    (hacc : MeshBuilder.validateBounds b W H = .ok ()) (hacc' : MeshBuilder.validateBounds b' W H = .ok ())
    (hb : Block b W H k) (hb' : Block b' W H k) (depth : ℕ) :
    ∃ m0 m0', MeshBuilder.init b W H (fun q => trimSources q full) depth = .ok m0 ∧
      MeshBuilder.init b' W H (fun q => trimSources q full') depth = .ok m0' ∧ ∃ N em em',
      (∀ fuel, N ≤ fuel → MeshBuilder.buildEnvironmentalMesh (sourceOps AnyData AnyCond) aggregate fuel config m0 = .ok em ∧
        MeshBuilder.buildEnvironmentalMesh (sourceOps AnyData AnyCond) aggregate fuel config' m0' = .ok em') ∧
      (∀ q, Enclosed q k → ((∃ c ∈ em'.cells, c.bounds = q) ↔ ∃ c ∈ em.cells, c.bounds = q)) ∧
      ∀ c ∈ em.cells, ∀ c' ∈ em'.cells, Enclosed c.bounds k → c'.bounds = c.bounds → ∀ n, c'.data.get? n = c.data.get? n := by
  have hk : k.time = b.time := by obtain ⟨i, j, nx, ny, -, -, rfl, -⟩ := hb; rfl
  have hfk : ∀ s ∈ full, PlainAny k s := by
    intro s hm
    obtain ⟨s', -, h⟩ := forall₂_left hs hm
    exact plain_part hk (hf s hm) h
  obtain ⟨m0, a1, h0, A1, N, em, ea, hA, hA1, hA2⟩ := C115_block hf hfk (forall₂_refl_of hs (fun _ _ h => h.refl)) hid config config hp hcr hh hcol
    hacc hb depth
  obtain ⟨m0', b1, h0', B1, N', em', eb, hB, hB1, hB2⟩ := C115_block hf' hfk (forall₂_symm_of hs (fun _ _ h => h.symm))
    (by rw [forall₂_ids hs]; exact hid) config' config hp' hcr' hh' hcol' hacc' hb' depth
  have e3 : b1 = a1 := by rw [A1] at B1; simpa using B1.symm
  subst e3
  have e6 : eb = ea := by
    have x := (hB (max N N') (by omega)).2
    rw [(hA _ (by omega)).2] at x
    simpa using x.symm
  subst e6
  refine ⟨m0, m0', h0, h0', max N N', em, em', fun fuel hfuel => ⟨(hA fuel (by omega)).1, (hB fuel (by omega)).1⟩, ?_, ?_⟩
  · intro q hq
    constructor
    · intro h
      exact ((hA1 q).1 ((hB1 q).2 ⟨h, hq⟩)).1
    · intro h
      exact ((hB1 q).1 ((hA1 q).2 ⟨h, hq⟩)).1
  · intro c hc c' hc' hq e n
    obtain ⟨x, hx, ex⟩ := (hA1 c.bounds).2 ⟨⟨c, hc, rfl⟩, hq⟩
    exact (hB2 c' hc' x hx (e.trans ex.symm) n).trans (hA2 c hc x hx ex.symm n).symm

/-- The hypotheses of C125 hold for two regions beside each other that share a column of cells: the datapoints in it are the same, elsewhere not. -/
example : ∃ m0 m0', MeshBuilder.init exRegion 10 5 (fun q => trimSources q (exUpdated [⟨-59, 1, 0, some 5⟩, ⟨-52, 12, 0, some 7⟩, ⟨-57, 13, 0, some 1⟩])) 1 = .ok m0 ∧
    MeshBuilder.init ⟨-60, -50, 10, 30, []⟩ 10 5 (fun q => trimSources q (exUpdated [⟨-52, 12, 0, some 7⟩, ⟨-51, 25, 0, some 9⟩, ⟨-57, 13, 0, some 1⟩])) 1 = .ok m0' ∧
    ∃ N em em',
    (∀ fuel, N ≤ fuel → MeshBuilder.buildEnvironmentalMesh (sourceOps AnyData AnyCond) aggregate fuel exConfig m0 = .ok em ∧
      MeshBuilder.buildEnvironmentalMesh (sourceOps AnyData AnyCond) aggregate fuel exConfig m0' = .ok em') ∧
    (∀ q, Enclosed q ⟨-60, -50, 10, 20, []⟩ → ((∃ c ∈ em'.cells, c.bounds = q) ↔ ∃ c ∈ em.cells, c.bounds = q)) ∧
    ∀ c ∈ em.cells, ∀ c' ∈ em'.cells, Enclosed c.bounds ⟨-60, -50, 10, 20, []⟩ → c'.bounds = c.bounds → ∀ n, c'.data.get? n = c.data.get? n := by
  have hp : ProperGrid ⟨-60, -50, 10, 30, []⟩ 10 5 := by
    refine ⟨by norm_num [Valid], by norm_num, by norm_num, by norm_num, ?_⟩
    intro h
    have : (⟨-60, -50, 10, 30, []⟩ : Boundary).width = 20 := by decide +kernel
    rw [this] at h; norm_num at h
  refine C125_regions (exUpdated_plain _ _) (exUpdated_plain _ _) (exUpdated_same (d := [⟨-52, 12, 0, some 7⟩, ⟨-57, 13, 0, some 1⟩]) ?_ ?_) (exUpdated_ids _)
    exConfig exConfig exRegion_proper hp (by norm_num [exRegion]) (by norm_num) (by norm_num [exRegion]) (by norm_num) (by norm_num [exRegion]) (by norm_num)
    (by decide +kernel) (by decide +kernel)
    ⟨1, 0, 1, 2, by norm_num, by norm_num, by norm_num [exRegion], by norm_num [exRegion], by norm_num [exRegion]⟩
    ⟨0, 0, 1, 2, by norm_num, by norm_num, by norm_num, by norm_num, by norm_num⟩ 1 <;>
  norm_num [Table.trim, Table.mask, bind, Except.bind, pure, Except.pure]

end Verif
