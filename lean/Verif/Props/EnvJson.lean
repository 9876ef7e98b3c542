import Verif.Proof.EnvBuild

/-!
# Property C34: saving and loading a mesh
-/

namespace Verif
open Spec

namespace Dict
variable {K V : Type} [DecidableEq K]

theorem filter_set_of_not (P : K → Bool) (d : Dict K V) {k : K} (v : V) (h : P k = false) :
    (d.set k v).filter (fun p => P p.1) = d.filter (fun p => P p.1) := by
  induction d with
  | nil => simp [set, h]
  | cons q r ih =>
    obtain ⟨a, b⟩ := q
    by_cases e : a = k
    · subst e; simp [set, h]
    · simp only [set, if_neg e, List.filter_cons, ih]

theorem filter_set_of (P : K → Bool) (d : Dict K V) {k : K} (v : V) (h : P k = true) :
    (d.set k v).filter (fun p => P p.1) = Dict.set (d.filter (fun p => P p.1)) k v := by
  induction d with
  | nil => simp [set, h]
  | cons q r ih =>
    obtain ⟨a, b⟩ := q
    by_cases e : a = k
    · subst e; simp [set, h]
    · simp only [set, if_neg e, List.filter_cons, ih]
      by_cases ha : P a = true
      · simp [ha, set, e]
      · simp [ha]

theorem filter_foldl_set {α : Type} (P : K → Bool) (f : α → K) (v : α → V) (l : List α) (d : Dict K V) :
    (l.foldl (fun acc p => acc.set (f p) (v p)) d).filter (fun p => P p.1) =
      (l.filter (fun p => P (f p))).foldl (fun acc p => Dict.set acc (f p) (v p)) (d.filter (fun p => P p.1)) := by
  induction l generalizing d with
  | nil => rfl
  | cons p l ih =>
    rw [List.foldl_cons, ih, List.filter_cons]
    by_cases h : P (f p) = true
    · rw [if_pos h, List.foldl_cons, filter_set_of P d _ h]
    · rw [if_neg h, filter_set_of_not P d _ (by simpa using h)]

theorem get?_foldl_set_of_not {α : Type} (f : α → K) (v : α → V) (l : List α) (d : Dict K V) (k : K) (h : ∀ p ∈ l, f p ≠ k) :
    get? (l.foldl (fun acc p => acc.set (f p) (v p)) d) k = get? d k := by
  induction l generalizing d with
  | nil => rfl
  | cons p l ih =>
    rw [List.foldl_cons, ih _ (fun q hq => h q (by simp [hq])), get?_set, if_neg (h p (by simp))]

end Dict

/-- Loading the JSON of a cell. -/
theorem cellJson_round_trip (c : AggCell) (hv : Valid c.bounds) (hd : ¬ (c.bounds.longMin = 180 ∧ c.bounds.longMax = -180))
    (hk : (c.data.map Prod.fst).Nodup) (hg : "geometry" ∉ c.data.map Prod.fst) :
    ∃ b', AggCell.fromJson c.toJson = .ok { bounds := b', data := c.data.filter (fun p => p.1 ∉ AggCell.reserved), id := c.id } ∧
      Valid b' ∧ b'.time = [] ∧ (∀ x y, Covers b' x y ↔ Covers c.bounds x y) ∧
      ((c.bounds.longMin < c.bounds.longMax ∨ (c.bounds.longMin ≠ 180 ∧ c.bounds.longMax ≠ -180)) →
        b' = { c.bounds with time := [] }) := by
  obtain ⟨b', -, hl, hv', ht, hcov, heq⟩ := C06_polygon_round_trip_partial c.bounds hv hd
  refine ⟨b', ?_, hv', ht, hcov, heq⟩
  have hid : c.toJson.get? "id" = some (.cellId c.id) := by
    unfold AggCell.toJson
    simp only [Dict.get?_set, if_true]
  have hge : c.toJson.get? "geometry" = some (.wkt c.bounds.toPolygon) := by
    unfold AggCell.toJson Dict.update
    simp only [Dict.get?_set]
    rw [if_neg (by decide), Dict.get?_foldl_set_of_not Prod.fst Prod.snd]
    · rfl
    · intro p hp e
      obtain ⟨q, hq, rfl⟩ := List.mem_map.1 hp
      exact hg (e ▸ List.mem_map_of_mem (f := Prod.fst) hq)
  have hdata : AggCell.loadAggData c.toJson = c.data.filter (fun p => p.1 ∉ AggCell.reserved) := by
    unfold AggCell.loadAggData AggCell.toJson Dict.update
    simp only
    rw [Dict.filter_set_of_not (fun k => decide (k ∉ AggCell.reserved)) _ _ (by decide),
      Dict.filter_foldl_set (fun k => decide (k ∉ AggCell.reserved)) Prod.fst Prod.snd]
    rw [List.filter_eq_nil_iff.2 (by simp [AggCell.reserved]), Dict.foldl_set_append Prod.fst Prod.snd]
    · rw [List.nil_append, List.filter_map, List.map_map, List.filterMap_map]
      have : (fun p : String × Val => some p) = ((fun p : String × AggCell.JVal => Option.map (fun v => (p.1, v)) (AggCell.jsonVal p.2)) ∘
          ((fun p : String × AggCell.JVal => (p.1, p.2)) ∘ fun p : String × Val => (p.1, AggCell.JVal.val p.2))) := by
        funext p; rfl
      rw [← this, List.filterMap_some]
      rfl
    · refine List.Nodup.sublist ((List.filter_sublist).map _) ?_
      rw [List.map_map]
      exact hk
    · simp
  unfold AggCell.fromJson
  simp only [Dict.get, hid, hge, AggCell.jsonId, AggCell.jsonBounds, bind, Except.bind, pure, Except.pure, hl, hdata]

/-- **Saving and loading any mesh.** -/
theorem envJson_round_trip (m : EnvMesh)
    (hv : ∀ c ∈ m.cells, Valid c.bounds ∧ ¬ (c.bounds.longMin = 180 ∧ c.bounds.longMax = -180))
    (hk : ∀ c ∈ m.cells, (c.data.map Prod.fst).Nodup) (hg : ∀ c ∈ m.cells, "geometry" ∉ c.data.map Prod.fst)
    (hgk : (m.graph.nodes.map Prod.fst).Nodup) :
    ∃ m', EnvMesh.fromJson m.toJson = .ok m' ∧ m'.graph.nodes = m.graph.nodes ∧ m'.graph.isGlobal = false ∧ m'.config = m.config ∧
      m'.bounds = m.config.region ∧ m'.strNodes = true ∧ m'.strDirs = true ∧
      List.Forall₂ (fun c c' => c'.id = c.id ∧ c'.data = c.data.filter (fun p => p.1 ∉ AggCell.reserved) ∧
        Valid c'.bounds ∧ c'.bounds.time = [] ∧ (∀ x y, Covers c'.bounds x y ↔ Covers c.bounds x y) ∧
        ((c.bounds.longMin < c.bounds.longMax ∨ (c.bounds.longMin ≠ 180 ∧ c.bounds.longMax ≠ -180)) →
          c'.bounds = { c.bounds with time := [] })) m.cells m'.cells := by
  have key : ∀ l : List AggCell, (∀ c ∈ l, c ∈ m.cells) →
      ∃ r, (l.map AggCell.toJson).mapM AggCell.fromJson = .ok r ∧
      List.Forall₂ (fun c c' => c'.id = c.id ∧ c'.data = c.data.filter (fun p => p.1 ∉ AggCell.reserved) ∧
        Valid c'.bounds ∧ c'.bounds.time = [] ∧ (∀ x y, Covers c'.bounds x y ↔ Covers c.bounds x y) ∧
        ((c.bounds.longMin < c.bounds.longMax ∨ (c.bounds.longMin ≠ 180 ∧ c.bounds.longMax ≠ -180)) →
          c'.bounds = { c.bounds with time := [] })) l r := by
    intro l
    induction l with
    | nil => intro _; exact ⟨[], rfl, List.Forall₂.nil⟩
    | cons c l ih =>
      intro hl
      have hc := hl c (by simp)
      obtain ⟨r, hr, hf⟩ := ih (fun x hx => hl x (by simp [hx]))
      obtain ⟨b', h1, h2⟩ := cellJson_round_trip c (hv c hc).1 (hv c hc).2 (hk c hc) (hg c hc)
      refine ⟨{ bounds := b', data := c.data.filter (fun p => p.1 ∉ AggCell.reserved), id := c.id } :: r, ?_, List.Forall₂.cons ⟨rfl, rfl, h2⟩ hf⟩
      rw [List.map_cons, List.mapM_cons, h1, hr]
      rfl
  obtain ⟨r, hr, hf⟩ := key m.cells (fun c hc => hc)
  unfold EnvMesh.fromJson EnvMesh.toJson
  simp only [hr, bind, Except.bind, pure, Except.pure]
  refine ⟨_, rfl, ?_, rfl, rfl, rfl, rfl, rfl, hf⟩
  show (EnvMesh.graphFromJson m.graph.nodes).nodes = _
  unfold EnvMesh.graphFromJson
  simp only
  rw [Dict.foldl_set_append Prod.fst Prod.snd _ _ hgk (by simp)]
  simp

variable {D : Type}

/-- C34 (partial): any mesh reachable by building and splitting, saved and loaded again, has the same
cells in the same order: ids are the same, every cell covers the same points of the globe (and has
identical bounds apart from the dates unless it crosses the antimeridian with an edge on it), every
datum whose name is not one of the reserved keys of the format has the same value, and no datum is
added; the neighbour lists of the graph are identical.  Lost are the dates of the cells and the global
flag (`C34_global_flag_lost`).  A datum called `geometry` must not exist. -/
theorem C34_round_trip_partial (ops : DataOps D) (b : Boundary) (W H : ℚ) (hp : ProperGrid b W H) (initData : Boundary → D) (depth : ℕ)
    (m : MeshState D) (h : Reach ops b W H initData depth m) (agg : CellBox D → Py (Dict String Val)) (config : MeshConfig)
    (em : EnvMesh) (he : MeshBuilder.toEnvMesh agg config m = .ok em)
    (hagg : ∀ i c d, Live m i c → agg c = .ok d → (d.map Prod.fst).Nodup ∧ "geometry" ∉ d.map Prod.fst) :
    ∃ em', EnvMesh.fromJson em.toJson = .ok em' ∧ (∀ i d, (em'.graph.nodes.get? i).map (· d) = (em.graph.nodes.get? i).map (· d)) ∧
      em'.config = em.config ∧ em'.cells.length = em.cells.length ∧
      ∀ (n : ℕ) (c : AggCell), em.cells[n]? = some c → ∃ c', em'.cells[n]? = some c' ∧ c'.id = c.id ∧
        (∀ x y, Covers c'.bounds x y ↔ Covers c.bounds x y) ∧
        (∀ key, key ∉ ["geometry", "cx", "cy", "dcx", "dcy", "id"] → c'.data.get? key = c.data.get? key) ∧
        (∀ key, c.data.get? key = none → c'.data.get? key = none) ∧
        (c.bounds.longMin < c.bounds.longMax ∨ (c.bounds.longMin ≠ 180 ∧ c.bounds.longMax ≠ -180) →
          c'.bounds = { c.bounds with time := [] }) := by
  have hc := reach_cells hp h
  obtain ⟨hids, hval, ht, hr, hA, hB⟩ := toEnvMesh_ok hc he
  obtain ⟨-, -, hgr, -⟩ := toEnvMesh_spec he
  have hk : ∀ c ∈ em.cells, (c.data.map Prod.fst).Nodup ∧ "geometry" ∉ c.data.map Prod.fst := by
    intro a ha
    obtain ⟨c, hi, -, h3⟩ := hA a ha
    exact hagg _ _ _ hi h3
  obtain ⟨em', h1, h2, h3, h4, h5, h6, h7, hf⟩ := envJson_round_trip em (fun c hc => ⟨(hval c hc).1, (hval c hc).2.1⟩)
    (fun c hc => (hk c hc).1) (fun c hc => (hk c hc).2) (by rw [hgr]; exact reach_keys h)
  refine ⟨em', h1, fun i d => by rw [h2], h4, hf.length_eq.symm, ?_⟩
  intro n c hn
  have hlen := hf.length_eq
  obtain ⟨hlt, hget⟩ := List.getElem?_eq_some_iff.1 hn
  have hlt' : n < em'.cells.length := hlen ▸ hlt
  have hrel := (List.forall₂_iff_get.1 hf).2 n hlt hlt'
  simp only [List.get_eq_getElem, hget] at hrel
  obtain ⟨e1, e2, e3, e4, e5, e6⟩ := hrel
  have hnd := (hk c (List.mem_of_getElem? hn)).1
  have hnd' : ((c.data.filter (fun p => p.1 ∉ AggCell.reserved)).map Prod.fst).Nodup := List.Nodup.sublist (List.filter_sublist.map _) hnd
  have hget? : ∀ key, c.data.get? key = none ↔ ∀ v, (key, v) ∉ c.data := by
    intro key
    constructor
    · intro h v hv
      rw [(Dict.get?_eq_some_iff_mem hnd key v).2 hv] at h
      cases h
    · intro h
      cases hx : c.data.get? key with
      | none => rfl
      | some v => exact absurd ((Dict.get?_eq_some_iff_mem hnd key v).1 hx) (h v)
  refine ⟨em'.cells[n], List.getElem?_eq_getElem hlt', e1, e5, ?_, ?_, e6⟩
  · intro key hkey
    rw [e2]
    ext v
    rw [Dict.get?_eq_some_iff_mem hnd', Dict.get?_eq_some_iff_mem hnd, List.mem_filter]
    simp only [AggCell.reserved, hkey, not_false_eq_true, decide_true, and_true]
  · intro key hkey
    rw [e2]
    cases hx : Dict.get? (c.data.filter (fun p => p.1 ∉ AggCell.reserved)) key with
    | none => rfl
    | some v =>
      rw [Dict.get?_eq_some_iff_mem hnd', List.mem_filter] at hx
      exact absurd hx.1 ((hget? key).1 hkey v)

/-- The mesh loaded back from the JSON of a built regional mesh is consistent: unique ids, exact
neighbour graph, tiled region; so everything proved about consistent loaded meshes applies to it. -/
theorem C34_loaded_consistent (ops : DataOps D) (b : Boundary) (W H : ℚ) (hp : ProperGrid b W H) (hcr : b.longMin < b.longMax)
    (hreg : ¬ (b.longMin = -180 ∧ b.longMax = 180)) (initData : Boundary → D) (depth : ℕ)
    (m : MeshState D) (h : Reach ops b W H initData depth m) (agg : CellBox D → Py (Dict String Val)) (config : MeshConfig)
    (em : EnvMesh) (he : MeshBuilder.toEnvMesh agg config m = .ok em)
    (hagg : ∀ i c d, Live m i c → agg c = .ok d → (d.map Prod.fst).Nodup ∧ "geometry" ∉ d.map Prod.fst) :
    ∃ em', EnvMesh.fromJson em.toJson = .ok em' ∧ EnvOK em' ∧ Loaded em' ∧ EnvTiles em' b ∧ (∀ i, envRect em' i = liveRect m i) ∧
      em'.bounds = config.region ∧ em'.config = config ∧ em'.graph.KeysNodup := by
  have hglob : globalRegion b = false := by simp only [globalRegion, decide_eq_false_iff_not]; exact hreg
  obtain ⟨hc, hge⟩ := reach_graph hp hcr (by rw [hglob]; intro h; cases h) h
  obtain ⟨hids, hval, ht, hr, hA, hB⟩ := toEnvMesh_ok hc he
  obtain ⟨-, hbd, hgr, hcf, -⟩ := toEnvMesh_spec he
  have hk : ∀ c ∈ em.cells, (c.data.map Prod.fst).Nodup ∧ "geometry" ∉ c.data.map Prod.fst := by
    intro a ha
    obtain ⟨c, hi, -, h3⟩ := hA a ha
    exact hagg _ _ _ hi h3
  obtain ⟨em', h1, h2, h3, h4, h5, h6, h7, hf⟩ := envJson_round_trip em (fun c hc => ⟨(hval c hc).1, (hval c hc).2.1⟩)
    (fun c hc => (hk c hc).1) (fun c hc => (hk c hc).2) (by rw [hgr]; exact reach_keys h)
  have hlt : ∀ a ∈ em.cells, a.bounds.longMin < a.bounds.longMax := by
    intro a ha
    obtain ⟨c, hi, e, -⟩ := hA a ha
    have := (hge.2.ok _ _ (liveRect_of_live hi)).1.1
    rw [e]; exact this
  have hb : em'.cells.map (·.bounds) = em.cells.map (fun c => { c.bounds with time := [] }) := by
    have key : ∀ (l l' : List AggCell), (∀ a ∈ l, a.bounds.longMin < a.bounds.longMax) →
        List.Forall₂ (fun c c' => c'.id = c.id ∧ c'.data = c.data.filter (fun p => p.1 ∉ AggCell.reserved) ∧
        Valid c'.bounds ∧ c'.bounds.time = [] ∧ (∀ x y, Covers c'.bounds x y ↔ Covers c.bounds x y) ∧
        ((c.bounds.longMin < c.bounds.longMax ∨ (c.bounds.longMin ≠ 180 ∧ c.bounds.longMax ≠ -180)) →
          c'.bounds = { c.bounds with time := [] })) l l' → l'.map (·.bounds) = l.map (fun c => { c.bounds with time := [] }) := by
      intro l l' hl hf
      induction hf with
      | nil => rfl
      | cons h1 _ ih =>
        rw [List.map_cons, List.map_cons, ih (fun a ha => hl a (by simp [ha])), h1.2.2.2.2.2 (Or.inl (hl _ (by simp)))]
    exact key _ _ hlt hf
  have hid : em'.cells.map (·.id) = em.cells.map (·.id) := (forall₂_map_eq hf (fun a b h => h.1.symm)).symm
  have hnd : (em'.cells.map (·.id)).Nodup := hid ▸ hids
  have hrect : ∀ i, envRect em' i = envRect em i := by
    intro i
    ext r
    have hpair : em'.cells.map (fun c => (c.id, rectOf c.bounds)) = em.cells.map (fun c => (c.id, rectOf c.bounds)) := by
      have e1 : em'.cells.map (fun c => (c.id, rectOf c.bounds)) = ((em'.cells.map (·.id)).zip (em'.cells.map (·.bounds))).map (fun p => (p.1, rectOf p.2)) := by
        rw [List.zip_map']; simp
      have e2 : em.cells.map (fun c => (c.id, rectOf c.bounds)) = ((em.cells.map (·.id)).zip (em.cells.map (fun c => { c.bounds with time := [] }))).map (fun p => (p.1, rectOf p.2)) := by
        rw [List.zip_map']; simp [rectOf]
      rw [e1, e2, hid, hb]
    have hmem : ∀ (n : EnvMesh), (∃ c ∈ n.cells, c.id = i ∧ rectOf c.bounds = r) ↔ (i, r) ∈ n.cells.map (fun c => (c.id, rectOf c.bounds)) := by
      intro n; simp [List.mem_map]
    rw [envRect_iff hnd, envRect_iff hids, hmem, hmem, hpair]
  refine ⟨em', h1, ⟨hnd, ?_, ?_⟩, ⟨h6, h7⟩, ?_, fun i => (hrect i).trans (hr i), by rw [h5, hcf], by rw [h4, hcf], ?_⟩
  · intro c hcm
    obtain ⟨n, hn⟩ := List.mem_iff_getElem?.1 hcm
    obtain ⟨hlt', hget⟩ := List.getElem?_eq_some_iff.1 hn
    have hrel := (List.forall₂_iff_get.1 hf).2 n (hf.length_eq ▸ hlt') hlt'
    simp only [List.get_eq_getElem, hget] at hrel
    exact hrel.2.2.1
  · have e1 : envRect em' = liveRect m := funext fun i => (hrect i).trans (hr i)
    rw [e1, h2, hgr]
    have := hge.2
    rw [hglob] at this
    exact this
  · unfold EnvTiles at ht ⊢
    rw [hb]
    have e : ∀ c : AggCell, ∀ x y, HCovers { c.bounds with time := [] } x y ↔ HCovers c.bounds x y := fun c x y => Iff.rfl
    obtain ⟨t1, t2⟩ := ht
    constructor
    · intro x y
      rw [t1 x y]
      simp only [List.mem_map, exists_exists_and_eq_and, e]
    · rw [List.pairwise_map] at t2 ⊢
      exact t2
  · unfold Graph.KeysNodup
    rw [h2, hgr]
    exact reach_keys h

/-- The configuration of the examples. -/
def exConfig : MeshConfig := { region := exRegion, cellWidth := 10, cellHeight := 5, splitDepth := some 3 }

/-- The aggregation of the examples: the longitude of the western edge is stored as `a`. -/
def exAgg (c : CellBox Unit) : Py (Dict String Val) := .ok [("a", .num (some c.bounds.longMin)), ("cx", .num none)]

/-- The aggregated example mesh, saved and loaded. -/
def exLoaded : Py EnvMesh := do
  let m ← exMesh
  let em ← MeshBuilder.toEnvMesh exAgg exConfig m
  EnvMesh.fromJson em.toJson

/-- The hypotheses of C34 hold for the example mesh, and the loaded mesh is consistent. -/
theorem exLoaded_ok : ∃ m : EnvMesh, exLoaded = .ok m ∧ EnvOK m ∧ Loaded m ∧ EnvTiles m exRegion ∧ m.bounds = exRegion ∧ m.config = exConfig ∧
    m.graph.KeysNodup := by
  obtain ⟨m, hm, hr⟩ := exMesh_ok
  obtain ⟨em, he⟩ := toEnvMesh_total (agg := exAgg) exConfig (m := m) (fun i c _ => ⟨_, rfl⟩)
  obtain ⟨em', h1, h2, h3, h4, -, h5, h6, h7⟩ := C34_loaded_consistent unitOps exRegion 10 5 exRegion_proper (by norm_num [exRegion]) (by norm_num [exRegion]) (fun _ => ()) 3 m hr
    exAgg exConfig em he (by intro i c d _ h; cases h; exact ⟨by simp, by simp⟩)
  refine ⟨em', ?_, h2, h3, h4, h5, h6, h7⟩
  unfold exLoaded
  simp only [hm, he, bind, Except.bind, h1]

example : (exLoaded.map (fun m => m.cells.map (fun c => (c.id, c.data.map Prod.fst))) : Py (List (ℕ × List String))) =
    .ok [(1, ["a"]), (2, ["a"]), (3, ["a"]), (4, ["a"]), (5, ["a"]), (6, ["a"]), (8, ["a"]), (9, ["a"]), (10, ["a"]), (11, ["a"])] := by
  decide +kernel

/-- **The global flag does not survive saving and loading**: a built global mesh is flagged, the
loaded one is not, whatever the mesh. -/
theorem C34_global_flag_lost (j : MeshJson) (m : EnvMesh) (h : EnvMesh.fromJson j = .ok m) : m.graph.isGlobal = false := by
  unfold EnvMesh.fromJson at h
  simp only [bind, Except.bind, pure, Except.pure] at h
  split at h
  · cases h
  · cases h; rfl

/-- **C34 is false in full**: the band mesh loses its global flag, and cells lose their dates. -/
theorem C34_false : ∃ m em em', exGlobe = .ok m ∧ Reach unitOps exBand 90 5 (fun _ => ()) 3 m ∧
    MeshBuilder.toEnvMesh exAgg exConfig m = .ok em ∧ EnvMesh.fromJson em.toJson = .ok em' ∧
    em.graph.isGlobal = true ∧ em'.graph.isGlobal = false := by
  obtain ⟨m, hm, hr⟩ := exGlobe_ok
  obtain ⟨em, he⟩ := toEnvMesh_total (agg := exAgg) exConfig (m := m) (fun i c _ => ⟨_, rfl⟩)
  obtain ⟨em', h1, -⟩ := C34_round_trip_partial unitOps exBand 90 5 exBand_proper (fun _ => ()) 3 m hr
    exAgg exConfig em he (by intro i c d _ h; cases h; exact ⟨by simp, by simp⟩)
  refine ⟨m, em, em', hm, hr, he, h1, ?_, C34_global_flag_lost _ _ h1⟩
  have hflag : (exGlobe.map (fun m => m.graph.isGlobal) : Py Bool) = .ok true := by decide +kernel
  rw [hm] at hflag
  rw [(toEnvMesh_spec he).2.2.1]
  simpa [Except.map] using hflag

/-! ## C61: what is written for a cell -/

/-- **C61** (partial: no data source is named like one of the coordinates.) The centre and the half sizes
written for a cell describe its box: the centre plus and minus the half sizes are the edges of the box (the
longitudes up to whole turns, for boxes over the antimeridian), with the id of the cell and its data. -/
theorem C61_saved_box_partial (c : AggCell) (hv : Valid c.bounds) (hd : ¬ (c.bounds.longMin = 180 ∧ c.bounds.longMax = -180))
    (hk : (c.data.map Prod.fst).Nodup) (hn : ∀ k ∈ ["geometry", "cx", "cy", "dcx", "dcy", "id"], k ∉ c.data.map Prod.fst) :
    ∃ cx cy dcx dcy : ℚ, c.toJson.get? "cx" = some (.val (.num (some cx))) ∧ c.toJson.get? "cy" = some (.val (.num (some cy))) ∧
      c.toJson.get? "dcx" = some (.val (.num (some dcx))) ∧ c.toJson.get? "dcy" = some (.val (.num (some dcy))) ∧
      SameMeridian (cx - dcx) c.bounds.longMin ∧ SameMeridian (cx + dcx) c.bounds.longMax ∧ 0 < dcx ∧ dcx ≤ 180 ∧
      cy - dcy = c.bounds.latMin ∧ cy + dcy = c.bounds.latMax ∧
      c.toJson.get? "id" = some (.cellId c.id) ∧
      ∀ k v, c.data.get? k = some v → c.toJson.get? k = some (.val v) := by
  have hfix : ∀ k ∈ ["geometry", "cx", "cy", "dcx", "dcy"], c.toJson.get? k =
      Dict.get? [("geometry", AggCell.JVal.wkt c.bounds.toPolygon), ("cx", .val (.num (some c.bounds.cx))),
     ("cy", .val (.num (some c.bounds.cy))), ("dcx", .val (.num (some c.bounds.dcx))),
     ("dcy", .val (.num (some c.bounds.dcy)))] k := by
    intro k hk'
    have hid : "id" ≠ k := by rintro rfl; simp at hk'
    unfold AggCell.toJson Dict.update
    simp only [Dict.get?_set]
    rw [if_neg hid, Dict.get?_foldl_set_of_not Prod.fst Prod.snd]
    intro p hp e
    obtain ⟨q, hq, rfl⟩ := List.mem_map.1 hp
    refine hn k ?_ (e ▸ List.mem_map_of_mem (f := Prod.fst) hq)
    simp only [List.mem_cons, List.not_mem_nil, or_false] at hk' ⊢
    tauto
  obtain ⟨⟨hw0, hw1⟩, hm, -, -, hcx, hdx, hdy, -, hcy⟩ := C04_geometry_partial c.bounds hv hd
  refine ⟨c.bounds.cx, c.bounds.cy, c.bounds.dcx, c.bounds.dcy, by rw [hfix _ (by simp)]; rfl, by rw [hfix _ (by simp)]; rfl,
    by rw [hfix _ (by simp)]; rfl, by rw [hfix _ (by simp)]; rfl, ?_, ?_, by linarith, by linarith, ?_, ?_, ?_, ?_⟩
  · obtain ⟨k, hk⟩ := hcx
    exact ⟨k, by linarith⟩
  · obtain ⟨k, hk⟩ := hcx
    obtain ⟨k', hk'⟩ := hm
    refine ⟨k + k', ?_⟩
    push_cast
    linarith
  · have : c.bounds.cy = c.bounds.latMin + c.bounds.height / 2 := rfl
    linarith
  · have h1 : c.bounds.height = c.bounds.latMax - c.bounds.latMin := rfl
    linarith
  · unfold AggCell.toJson
    simp only [Dict.get?_set, if_true]
  · intro k v hkv
    have hmem : k ∈ c.data.map Prod.fst := by
      have := (Dict.mem_keys_iff c.data k).2 (by rw [hkv]; rfl)
      exact this
    have hid : "id" ≠ k := by
      rintro rfl
      exact hn "id" (by simp) hmem
    unfold AggCell.toJson Dict.update
    simp only [Dict.get?_set, if_neg hid]
    have hmem' : (k, v) ∈ c.data := (Dict.get?_eq_some_iff_mem hk k v).1 hkv
    clear hfix hn hmem hkv
    generalize ([("geometry", AggCell.JVal.wkt c.bounds.toPolygon), ("cx", .val (.num (some c.bounds.cx))),
     ("cy", .val (.num (some c.bounds.cy))), ("dcx", .val (.num (some c.bounds.dcx))),
     ("dcy", .val (.num (some c.bounds.dcy)))] : Dict String AggCell.JVal) = d0
    revert hk hmem'
    generalize c.data = l
    intro hk hmem'
    induction l generalizing d0 with
    | nil => simp at hmem'
    | cons p l ih =>
      simp only [List.map_cons, List.foldl_cons, List.nodup_cons] at hk ⊢
      rcases List.mem_cons.1 hmem' with rfl | hmem'
      · rw [Dict.get?_foldl_set_of_not Prod.fst Prod.snd, Dict.get?_set, if_pos rfl]
        intro q hq e
        obtain ⟨r, hr, rfl⟩ := List.mem_map.1 hq
        exact hk.1 (List.mem_map.2 ⟨r, hr, e⟩)
      · exact ih _ hk.2 hmem'

/-- A cell over the antimeridian meets the hypotheses. -/
example : ∃ cx cy dcx dcy : ℚ, cx = -178 ∧ cy = 7 ∧ dcx = 4 ∧ dcy = 3 ∧
    (AggCell.toJson ⟨⟨4, 10, 178, -174, []⟩, [("SIC", .num (some 3))], 5⟩).get? "dcx" = some (.val (.num (some dcx))) ∧
    Valid ⟨4, 10, 178, -174, []⟩ := by
  refine ⟨-178, 7, 4, 3, rfl, rfl, rfl, rfl, by decide +kernel, by norm_num [Valid]⟩

/-- **C61** A data source named like a coordinate overwrites it. -/
theorem C61_name_clash_false : ∃ c : AggCell, Valid c.bounds ∧ c.bounds.cx = 5 ∧ c.toJson.get? "cx" = some (.val (.num (some 99))) :=
  ⟨⟨⟨0, 10, 0, 10, []⟩, [("cx", .num (some 99))], 0⟩, by norm_num [Valid], by decide +kernel, by decide +kernel⟩

end Verif
