import Verif.Props.Totals

/-!
# C134: what a built mesh says altogether about vectors
-/

namespace Verif
open Spec

/-! ## Specification -/

/-- What the vectors `f` of the cells have to do with all the vectors of a source, when the cell `c` holds those of `part c`.  On grids
all vectors have to be complete for the first two.  Numbers of datapoints: over the cells that have data they add up to the number of all.
Means: the components, weighted with the numbers of values, add up to those of all.  Shortest and longest vectors: the cells have vectors of the data only,
and among them is a shortest (longest) one of all. -/
structure Spec.VectorsAltogether (grid : Bool) (agg : AggType) (whole : List Vec) (cells : List AggCell) (part : AggCell → List Vec)
    (f : AggCell → Vec) : Prop where
  count : agg = .count → (grid = true → ∀ v ∈ whole, v.1 ≠ none ∧ v.2 ≠ none) →
    ((cells.filter (fun c => !(part c).isEmpty)).map (fun c => (f c).1.getD 0)).sum = (whole.length : ℚ) ∧
    ((cells.filter (fun c => !(part c).isEmpty)).map (fun c => (f c).2.getD 0)).sum = (whole.length : ℚ)
  mean : agg = .mean → (grid = true → ∀ v ∈ whole, v.1 ≠ none ∧ v.2 ≠ none) →
    (cells.map (fun c => (f c).1.getD 0 * (((part c).filterMap Prod.fst).length : ℚ))).sum = (whole.filterMap Prod.fst).sum ∧
    (cells.map (fun c => (f c).2.getD 0 * (((part c).filterMap Prod.snd).length : ℚ))).sum = (whole.filterMap Prod.snd).sum
  ofData : agg = .min ∨ agg = .max → ∀ c ∈ cells, f c = (none, none) ∨ ∃ p ∈ complete whole, f c = (some p.1, some p.2)
  shortest : agg = .min → complete whole ≠ [] → ∃ c ∈ cells, ∃ p, f c = (some p.1, some p.2) ∧ ∀ q ∈ complete whole, normSq p ≤ normSq q
  longest : agg = .max → complete whole ≠ [] → ∃ c ∈ cells, ∃ p, f c = (some p.1, some p.2) ∧ ∀ q ∈ complete whole, normSq q ≤ normSq p

/-! ## Filling -/

/-- Two components that are missing together are taken from the same box. -/
theorem first_pair {l : List Boundary} {vx vy : Boundary → Option ℚ} (h : ∀ q ∈ l, vx q = none ↔ vy q = none) {a a' : Option ℚ}
    (h1 : IsFirst (l.map vx) a) (h2 : IsFirst (l.map vy) a') : (a = none ∧ a' = none) ∨ ∃ q ∈ l, vx q = a ∧ vy q = a' ∧ a ≠ none := by
  rw [h1.eq, h2.eq]
  clear h1 h2
  induction l with
  | nil => exact Or.inl ⟨rfl, rfl⟩
  | cons q l ih =>
    cases hx : vx q with
    | none =>
      have hy := (h q List.mem_cons_self).1 hx
      rw [List.map_cons, List.map_cons, hx, hy]
      rcases ih (fun q hq => h q (List.mem_cons_of_mem _ hq)) with e | ⟨p, hp, e⟩
      · exact Or.inl e
      · exact Or.inr ⟨p, List.mem_cons_of_mem _ hp, e⟩
    | some x =>
      cases hy : vy q with
      | none => rw [(h q List.mem_cons_self).2 hy] at hx; cases hx
      | some y =>
        refine Or.inr ⟨q, List.mem_cons_self, ?_, ?_, ?_⟩ <;> simp [hx, hy]

theorem complete_flatMap {α : Type} (l : List α) (p : α → List Vec) : complete (l.flatMap p) = l.flatMap (fun a => complete (p a)) := by
  unfold complete
  rw [List.filterMap_flatMap]

theorem complete_ne_nil {l : List Vec} (hc : ∀ v ∈ l, v.1 ≠ none ∧ v.2 ≠ none) (hl : l ≠ []) : complete l ≠ [] := by
  obtain ⟨v, hv⟩ := List.exists_mem_of_ne_nil l hl
  obtain ⟨h1, h2⟩ := hc v hv
  obtain ⟨x, hx⟩ := Option.ne_none_iff_exists'.1 h1
  obtain ⟨y, hy⟩ := Option.ne_none_iff_exists'.1 h2
  refine List.ne_nil_of_mem (mem_complete (p := (x, y)) |>.2 ?_)
  show (some x, some y) ∈ l
  rw [← hx, ← hy]
  exact hv

theorem extreme_or {r : ℚ → ℚ → Prop} {l : List Vec} {v : Vec}
    (h : (complete l = [] ∧ v = (none, none)) ∨ ∃ p ∈ complete l, v = (some p.1, some p.2) ∧ ∀ q ∈ complete l, r (normSq p) (normSq q)) :
    (v.1 = none ↔ v.2 = none) ∧ ∀ a, v.1 = some a → ∃ p ∈ complete l, v = (some p.1, some p.2) := by
  rcases h with ⟨-, rfl⟩ | ⟨p, hp, rfl, -⟩
  · exact ⟨by simp, fun a h => by cases h⟩
  · exact ⟨by simp, fun a _ => ⟨p, hp, rfl⟩⟩

/-- What the statistics of the parts and of the boxes above them have to do with the whole. -/
theorem vectors_altogether {grid : Bool} {agg : AggType} {b : Boundary} {rows : Boundary → List Vec} {cells : List AggCell}
    {In : Boundary → Prop} {vx vy : Boundary → Option ℚ} (hstat : ∀ q, In q → VectorStatistic grid agg (rows q) (vx q, vy q))
    (hsub : ∀ q, In q → ∀ v ∈ rows q, v ∈ rows b) (hperm : (cells.flatMap (fun c => rows c.bounds)).Perm (rows b)) {f : AggCell → Vec}
    (hf : ∀ c ∈ cells, ∃ anc, (∀ q ∈ c.bounds :: anc, In q) ∧ Filled vx .parent c.bounds anc (f c).1 ∧ Filled vy .parent c.bounds anc (f c).2) :
    VectorsAltogether grid agg (rows b) cells (fun c => rows c.bounds) f := by
  have hown : ∀ c ∈ cells, VectorStatistic grid agg (rows c.bounds) (vx c.bounds, vy c.bounds) ∧ (∀ x, vx c.bounds = some x → (f c).1 = some x) ∧
      ∀ x, vy c.bounds = some x → (f c).2 = some x := by
    intro c hc
    obtain ⟨anc, h1, h2, h3⟩ := hf c hc
    exact ⟨hstat _ (h1 _ List.mem_cons_self), fun x hx => filled_own h2 hx, fun x hx => filled_own h3 hx⟩
  have hin : ∀ c ∈ cells, In c.bounds := by
    intro c hc
    obtain ⟨anc, h1, -⟩ := hf c hc
    exact h1 _ List.mem_cons_self
  have hcomp : (cells.flatMap (fun c => complete (rows c.bounds))).Perm (complete (rows b)) := by
    rw [← complete_flatMap]
    exact hperm.filterMap _
  have hmem : ∀ p, p ∈ complete (rows b) ↔ ∃ c ∈ cells, p ∈ complete (rows c.bounds) := by
    intro p
    rw [← hcomp.mem_iff, List.mem_flatMap]
  have hsub' : ∀ q, In q → ∀ p ∈ complete (rows q), p ∈ complete (rows b) := by
    intro q hq p hp
    rw [mem_complete] at hp ⊢
    exact hsub q hq _ hp
  have hof : ∀ r : ℚ → ℚ → Prop, (∀ q, In q → (complete (rows q) = [] ∧ (vx q, vy q) = (none, none)) ∨
      ∃ p ∈ complete (rows q), (vx q, vy q) = (some p.1, some p.2) ∧ ∀ p' ∈ complete (rows q), r (normSq p) (normSq p')) →
      ∀ c ∈ cells, f c = (none, none) ∨ ∃ p ∈ complete (rows b), f c = (some p.1, some p.2) := by
    intro r hr c hc
    obtain ⟨anc, h1, h2, h3⟩ := hf c hc
    rcases first_pair (l := c.bounds :: anc) (fun q hq => (extreme_or (hr q (h1 q hq))).1) h2 h3 with ⟨e1, e2⟩ | ⟨q, hq, e1, e2, hne⟩
    · exact Or.inl (Prod.ext e1 e2)
    · right
      obtain ⟨a, ha⟩ := Option.ne_none_iff_exists'.1 hne
      obtain ⟨p, hp, e⟩ := (extreme_or (hr q (h1 q hq))).2 a (by rw [← ha]; exact e1)
      refine ⟨p, hsub' q (h1 q hq) p hp, ?_⟩
      rw [← e]
      exact Prod.ext e1.symm e2.symm
  have hext : ∀ r : ℚ → ℚ → Prop, (∀ a, r a a) → (∀ a a' a'', r a a' → r a' a'' → r a a'') → (∀ a a', r a a' ∨ r a' a) →
      (∀ q, In q → (complete (rows q) = [] ∧ (vx q, vy q) = (none, none)) ∨
        ∃ p ∈ complete (rows q), (vx q, vy q) = (some p.1, some p.2) ∧ ∀ p' ∈ complete (rows q), r (normSq p) (normSq p')) →
      complete (rows b) ≠ [] → ∃ c ∈ cells, ∃ p, f c = (some p.1, some p.2) ∧ ∀ q ∈ complete (rows b), r (normSq p) (normSq q) := by
    intro r hrefl htrans htotal hr hne
    have hbest : ∀ l : List (ℚ × ℚ), l ≠ [] → ∃ p ∈ l, ∀ q ∈ l, r (normSq p) (normSq q) := by
      intro l
      induction l with
      | nil => intro h; exact absurd rfl h
      | cons a l ih =>
        intro _
        by_cases hl : l = []
        · subst hl
          exact ⟨a, List.mem_cons_self, by simp [hrefl]⟩
        · obtain ⟨p, hp, h⟩ := ih hl
          rcases htotal (normSq a) (normSq p) with e | e
          · refine ⟨a, List.mem_cons_self, fun q hq => ?_⟩
            rcases List.mem_cons.1 hq with rfl | hq
            · exact hrefl _
            · exact htrans _ _ _ e (h q hq)
          · refine ⟨p, List.mem_cons_of_mem _ hp, fun q hq => ?_⟩
            rcases List.mem_cons.1 hq with rfl | hq
            · exact e
            · exact h q hq
    obtain ⟨p0, hp0, h0⟩ := hbest _ hne
    obtain ⟨c, hc, hp⟩ := (hmem p0).1 hp0
    rcases hr _ (hin c hc) with ⟨e, -⟩ | ⟨p, hp', e, h⟩
    · rw [e] at hp; cases hp
    · refine ⟨c, hc, p, ?_, fun q hq => htrans _ _ _ (h p0 hp) (h0 q hq)⟩
      obtain ⟨-, k1, k2⟩ := hown c hc
      exact Prod.ext (k1 _ (congrArg Prod.fst e)) (k2 _ (congrArg Prod.snd e))
  constructor
  · rintro rfl hcompl
    have hfilter : ∀ c ∈ cells.filter (fun c => !(rows c.bounds).isEmpty), f c = (some ((rows c.bounds).length : ℚ), some ((rows c.bounds).length : ℚ)) := by
      intro c hc
      obtain ⟨hc, hne⟩ := List.mem_filter.1 hc
      have hne : rows c.bounds ≠ [] := by simpa using hne
      obtain ⟨k, k1, k2⟩ := hown c hc
      have hcond : ¬ (if grid then complete (rows c.bounds) = [] else rows c.bounds = []) := by
        cases grid with
        | false => simpa using hne
        | true =>
          simp only [if_true]
          exact complete_ne_nil (fun v hv => hcompl rfl v (hsub _ (hin c hc) v hv)) hne
      unfold VectorStatistic at k
      simp only at k
      rw [if_neg hcond] at k
      exact Prod.ext (k1 _ (congrArg Prod.fst k)) (k2 _ (congrArg Prod.snd k))
    have hsum : ((cells.filter (fun c => !(rows c.bounds).isEmpty)).map (fun c => ((rows c.bounds).length : ℚ))).sum = ((rows b).length : ℚ) := by
      rw [← hperm.length_eq, length_flatMap_cast]
      clear hcompl hfilter hext hof hsub' hmem hcomp hin hown hf hperm
      induction cells with
      | nil => rfl
      | cons c l ih =>
        rw [List.filter_cons]
        by_cases hc : rows c.bounds = []
        · simp [hc, ih]
        · simp [hc, ih]
    constructor
    · rw [← hsum]
      congr 1
      exact List.map_congr_left (fun c hc => by rw [hfilter c hc]; rfl)
    · rw [← hsum]
      congr 1
      exact List.map_congr_left (fun c hc => by rw [hfilter c hc]; rfl)
  · rintro rfl hcompl
    have hmean : ∀ c ∈ cells, IsMeanOf ((rows c.bounds).filterMap Prod.fst) (vx c.bounds) ∧ IsMeanOf ((rows c.bounds).filterMap Prod.snd) (vy c.bounds) := by
      intro c hc
      have k := (hown c hc).1
      unfold VectorStatistic at k
      simp only at k
      split at k
      · rename_i hg
        have hnil : rows c.bounds = [] := by
          by_contra hne
          exact complete_ne_nil (fun v hv => hcompl hg.1 v (hsub _ (hin c hc) v hv)) hne hg.2
        have k1 : vx c.bounds = none := congrArg Prod.fst k
        have k2 : vy c.bounds = none := congrArg Prod.snd k
        rw [hnil, k1, k2]
        exact ⟨Or.inl ⟨rfl, rfl⟩, Or.inl ⟨rfl, rfl⟩⟩
      · exact k
    have hone : ∀ {l : List ℚ} {v w : Option ℚ}, IsMeanOf l v → (∀ x, v = some x → w = some x) → w.getD 0 * (l.length : ℚ) = l.sum := by
      intro l v w h hw
      rcases h with ⟨rfl, -⟩ | ⟨x, hx, -, h⟩
      · simp
      · rw [hw x hx]; exact h
    constructor
    · rw [← (hperm.filterMap Prod.fst).sum_eq, List.filterMap_flatMap, sum_flatMap]
      congr 1
      exact List.map_congr_left (fun c hc => hone (hmean c hc).1 (hown c hc).2.1)
    · rw [← (hperm.filterMap Prod.snd).sum_eq, List.filterMap_flatMap, sum_flatMap]
      congr 1
      exact List.map_congr_left (fun c hc => hone (hmean c hc).2 (hown c hc).2.2)
  · rintro (rfl | rfl)
    · exact hof (· ≤ ·) hstat
    · exact hof (fun a a' => a' ≤ a) hstat
  · rintro rfl
    exact hext (· ≤ ·) (fun _ => le_rfl) (fun _ _ _ => le_trans) le_total hstat
  · rintro rfl
    exact hext (fun a a' => a' ≤ a) (fun _ => le_rfl) (fun _ _ _ h h' => le_trans h' h) (fun a a' => le_total a' a) hstat

/-! ## The aggregation type of a loader -/

/-- What the aggregation types give for eastward vectors of lengths 1, 2 and 9. -/
def vectorCode : AggType → ℚ
  | .min => 1 | .max => 9 | .mean => 4 | _ => 3

theorem vectorLoader_agg {C : Type} {id id' : ℕ} {name name' x y : String} {agg agg' : AggType} {hom hom' : Boundary → C → Dataset Vec → Py Verdict}
    (h : vectorLoader id name agg hom = vectorLoader id' name' agg' hom') (hn : splitName name = [x, y])
    (hagg : agg ∈ [AggType.min, .max, .mean, .count]) (hagg' : agg' ∈ [AggType.min, .max, .mean, .count]) : name = name' ∧ agg = agg' := by
  have hname : name = name' := congrArg Loader.dataName h
  subst hname
  refine ⟨rfl, ?_⟩
  have key : ∀ (agg : AggType) (id : ℕ) (hom : Boundary → C → Dataset Vec → Py Verdict), agg ∈ [AggType.min, .max, .mean, .count] → ∃ z,
      (vectorLoader id name agg hom).getValue ⟨0, 10, 0, 10, []⟩ (.table ⟨false, [⟨1, 1, 0, (some 1, some 0)⟩, ⟨1, 2, 0, (some 2, some 0)⟩,
        ⟨1, 3, 0, (some 9, some 0)⟩]⟩) = .ok [(x, .num (some (vectorCode agg))), (y, z)] := by
    intro agg id hom hagg
    have hv : ∃ z, vectorValue agg (.table ⟨false, [⟨1, 1, 0, (some 1, some 0)⟩, ⟨1, 2, 0, (some 2, some 0)⟩,
        ⟨1, 3, 0, (some 9, some 0)⟩]⟩) = .ok (some (vectorCode agg), z) := by
      simp only [List.mem_cons, List.not_mem_nil, or_false] at hagg
      rcases hagg with rfl | rfl | rfl | rfl
      · exact ⟨some 0, by decide +kernel⟩
      · exact ⟨some 0, by decide +kernel⟩
      · exact ⟨some 0, by decide +kernel⟩
      · exact ⟨some 3, by decide +kernel⟩
    obtain ⟨z, hz⟩ := hv
    refine ⟨.num z, ?_⟩
    show (vectorValue agg _ >>= fun v => _) = _
    rw [hz]
    simp only [bind, Except.bind, hn]
    rfl
  obtain ⟨z, e⟩ := key agg id hom hagg
  obtain ⟨z', e'⟩ := key agg' id' hom' hagg'
  rw [h, e'] at e
  have : vectorCode agg' = vectorCode agg := by
    injection e with e
    injection e with e _
    injection e with _ e
    injection e with e
    injection e
  simp only [List.mem_cons, List.not_mem_nil, or_false] at hagg hagg'
  rcases hagg with rfl | rfl | rfl | rfl <;> rcases hagg' with rfl | rfl | rfl | rfl <;> first
    | rfl
    | (exfalso; norm_num [vectorCode] at this)

theorem vectorStatistic_known {grid : Bool} {agg : AggType} {l : List Vec} {v : Vec} (h : VectorStatistic grid agg l v) :
    agg ∈ [AggType.min, .max, .mean, .count] := by
  cases agg <;> first | exact h.elim | simp

theorem gives_vector {q : Boundary} {s : Source (Dataset Vec) VectorHom.Conds} {f : String → Option ℚ} (h : Gives q (.ofVector s) f) {id name agg hom x y}
    (e : s.loader = vectorLoader id name agg hom) (hn : splitName name = [x, y]) (hagg : agg ∈ [AggType.min, .max, .mean, .count]) :
    VectorStatistic s.subset.isGrid agg ((rowsIn s.subset q).map Row.val) (f x, f y) := by
  generalize hS : Source.ofVector s = S at h
  cases h with
  | vector e' hn' hst =>
    have := ofVector_inj hS
    subst this
    rw [e] at e'
    obtain ⟨rfl, rfl⟩ := vectorLoader_agg e' hn hagg (vectorStatistic_known hst)
    rw [hn] at hn'
    cases hn'
    exact hst
  | scalar => exact absurd (congrArg Source.subset hS) (by intro h; cases h)
  | lut => exact absurd (congrArg Source.subset hS) (by intro h; cases h)

theorem gives_around_vector {q : Boundary} {s : Source (Dataset Vec) VectorHom.Conds} {f : String → Option ℚ} (h : GivesAround q (.ofVector s) f)
    {id name agg hom x y} (e : s.loader = vectorLoader id name agg hom) (hn : splitName name = [x, y]) (hagg : agg ∈ [AggType.min, .max, .mean, .count]) :
    VectorStatistic true agg ((rowsAround s.subset q).map Row.val) (f x, f y) := by
  generalize hS : Source.ofVector s = S at h
  cases h with
  | vector e' hn' hst =>
    have := ofVector_inj hS
    subst this
    rw [e] at e'
    obtain ⟨rfl, rfl⟩ := vectorLoader_agg e' hn hagg (vectorStatistic_known hst)
    rw [hn] at hn'
    cases hn'
    exact hst
  | scalar => exact absurd (congrArg Source.subset hS) (by intro h; cases h)

/-- If only one source has the name, its value is the one in the mesh, whether or not it overrules others. -/
theorem merged_single {full : List (Source AnyData AnyCond)} (hid : (full.map (fun s => s.loader.id)).Nodup) {S : Source AnyData AnyCond} (hS : S ∈ full)
    {n : String} (hn : n ∈ splitName S.loader.dataName) (hu : ∀ t ∈ full, n ∈ splitName t.loader.dataName → t = S)
    {w : Source AnyData AnyCond → Option ℚ} {v : Option ℚ} (h : Merged (fun s : Source AnyData AnyCond => ',' ∈ s.loader.dataName.toList) w
      (full.filter (fun s => decide (n ∈ splitName s.loader.dataName))) v) : v = w S := by
  by_cases hc : ',' ∈ S.loader.dataName.toList
  · have hl : full.filter (fun s => decide (n ∈ splitName s.loader.dataName)) = [S] := by
      have hnd : full.Nodup := hid.of_map _
      have h2 : ∀ t, t ∈ full.filter (fun s => decide (n ∈ splitName s.loader.dataName)) ↔ t = S := by
        intro t
        rw [List.mem_filter, decide_eq_true_iff]
        exact ⟨fun h => hu t h.1 h.2, by rintro rfl; exact ⟨hS, hn⟩⟩
      exact List.perm_singleton.1 ((List.perm_ext_iff_of_nodup (hnd.filter _) (List.nodup_singleton S)).2 (fun t => by rw [h2, List.mem_singleton]))
    rw [hl] at h
    have hw : ([w S].filterMap id).head? = w S := by cases w S <;> rfl
    rcases h with ⟨-, h⟩ | ⟨pre, s, post, e, -, -, h⟩
    · rw [h.eq]; exact hw
    · cases pre with
      | nil =>
        obtain ⟨rfl, rfl⟩ := List.cons.inj e
        rw [h.eq]; exact hw
      | cons a pre =>
        have := congrArg List.length e
        simp at this
  · exact merged_only hid hS hn hu hc h

/-! ## C134 -/

/-- **C134**: in a region that does not cross the antimeridian, let a mesh be built from scalar, vector and look-up table sources, and let
one of the vector sources have names of its own.  Then the vectors of the cells of the mesh are altogether what the datapoints of the region say. -/
theorem C134_totals {b : Boundary} {W H : ℚ} {full : List (Source AnyData AnyCond)} (hf : ∀ s ∈ full, PlainAny b s)
    (hid : (full.map (fun s => s.loader.id)).Nodup)
    (config : MeshConfig) (hp : ProperGrid b W H) (hcr : b.longMin < b.longMax) (hh : b.latMin < b.latMax)
    (hcol : b.longMin = -180 ∧ b.longMax = 180 → W ≤ 180) (hacc : MeshBuilder.validateBounds b W H = .ok ()) (depth : ℕ) :
    ∃ m0, MeshBuilder.init b W H (fun q => trimSources q full) depth = .ok m0 ∧ ∃ N em, BuiltOK b W H depth em ∧
      (∀ fuel, N ≤ fuel → MeshBuilder.buildEnvironmentalMesh (sourceOps AnyData AnyCond) aggregate fuel config m0 = .ok em) ∧
      ∀ s id name agg hom x y, Source.ofVector s ∈ full → s.loader = vectorLoader id name agg hom → splitName name = [x, y] →
        agg ∈ [AggType.min, .max, .mean, .count] →
        (∀ t ∈ full, x ∈ splitName t.loader.dataName ∨ y ∈ splitName t.loader.dataName → t = .ofVector s) →
        ∃ f : AggCell → Vec, (∀ c ∈ em.cells, c.data.get? x = some (.num (f c).1) ∧ c.data.get? y = some (.num (f c).2)) ∧
          VectorsAltogether s.subset.isGrid agg ((rowsIn s.subset b).map Row.val) em.cells
            (fun c => (rowsIn s.subset c.bounds).map Row.val) f := by
  obtain ⟨value, hvalue, m0, h0, N, em, h1, -, h2, h3⟩ := C110_values hf hid config hp hcr hh hcol hacc depth
  refine ⟨m0, h0, N, em, h1, h2, fun s id name agg hom x y hs e hn hagg hu => ?_⟩
  have hfill : (Source.ofVector s).fill = .parent := (hf _ hs).ofVector.fill
  have hname : (Source.ofVector s).loader.dataName = name := by
    show s.loader.dataName = name
    rw [e]; rfl
  have hmx : x ∈ splitName (Source.ofVector s).loader.dataName := by rw [hname, hn]; simp
  have hmy : y ∈ splitName (Source.ofVector s).loader.dataName := by rw [hname, hn]; simp
  have hcell : ∀ c ∈ em.cells, ∃ anc, (∀ q ∈ c.bounds :: anc, Inner b q) ∧ ∃ v v', Filled (fun q => value (.ofVector s) q x) .parent c.bounds anc v ∧
      Filled (fun q => value (.ofVector s) q y) .parent c.bounds anc v' ∧ c.data.get? x = some (.num v) ∧ c.data.get? y = some (.num v') := by
    intro c hc
    obtain ⟨anc, a1, -, w, a2, a3⟩ := h3 c hc
    obtain ⟨v, hv, hm⟩ := (a3 x).2 ⟨_, hs, hmx⟩
    obtain ⟨v', hv', hm'⟩ := (a3 y).2 ⟨_, hs, hmy⟩
    have e1 := merged_single hid hs hmx (fun t ht h => hu t ht (Or.inl h)) hm
    have e2 := merged_single hid hs hmy (fun t ht h => hu t ht (Or.inr h)) hm'
    refine ⟨anc, a1, v, v', ?_, ?_, hv, hv'⟩
    · rw [e1, ← hfill]; exact a2 _ hs x hmx
    · rw [e2, ← hfill]; exact a2 _ hs y hmy
  have hget : ∀ c ∈ em.cells, c.data.get? x = some (.num (match c.data.get? x with | some (.num v) => v | _ => none)) ∧
      c.data.get? y = some (.num (match c.data.get? y with | some (.num v) => v | _ => none)) := by
    intro c hc
    obtain ⟨anc, -, v, v', -, -, hv, hv'⟩ := hcell c hc
    rw [hv, hv']
    exact ⟨rfl, rfl⟩
  refine ⟨fun c => (match c.data.get? x with | some (.num v) => v | _ => none, match c.data.get? y with | some (.num v) => v | _ => none), hget, ?_⟩
  have hsel : ∀ q, Valid q → q.longMin < q.longMax → q.time = b.time → ∀ r, _ := fun q a1 a2 a3 r => inBox_iff s.subset a1 a2 a3 r
  refine vectors_altogether (rows := fun q => (rowsIn s.subset q).map Row.val) (In := Inner b) (vx := fun q => value (.ofVector s) q x)
    (vy := fun q => value (.ofVector s) q y) ?_ ?_ ?_ ?_
  · intro q hq
    exact gives_vector (hvalue _ hs q hq) e hn hagg
  · intro q hq v hv
    obtain ⟨r, hr, rfl⟩ := List.mem_map.1 hv
    obtain ⟨m1, m2⟩ := List.mem_filter.1 hr
    refine List.mem_map_of_mem (List.mem_filter.2 ⟨m1, ?_⟩)
    obtain ⟨k1, k2⟩ := (hsel q hq.1.1 hq.2.1 hq.2.2.2 r).1 m2
    exact (hsel b hp.valid hcr rfl r).2 ⟨hq.2.2.1 _ _ k1, k2⟩
  · rw [← List.map_flatMap]
    refine List.Perm.map _ ?_
    refine tiles_rows h1.tiles (long := Row.long) (lat := Row.lat)
      (T := fun r => (-180 < r.long ∧ r.long ≤ 180) ∧ (!s.subset.hasTime || during b r.time) = true)
      (sel := fun q r => decide (q.latMin < r.lat ∧ r.lat ≤ q.latMax ∧ q.longMin < r.long ∧ r.long ≤ q.longMax) &&
        (!s.subset.hasTime || during q r.time)) (fun r _ => hsel b hp.valid hcr rfl r) ?_
    intro c hc r hr
    obtain ⟨anc, a1, -⟩ := hcell c hc
    have := a1 _ List.mem_cons_self
    exact hsel c.bounds this.1.1 this.2.1 this.2.2.2 r
  · intro c hc
    obtain ⟨anc, a1, v, v', a2, a3, a4, a5⟩ := hcell c hc
    refine ⟨anc, a1, ?_⟩
    rw [a4, a5]
    exact ⟨a2, a3⟩

theorem Spec.AroundAny.vectorFill {b : Boundary} {s : Source (Dataset Vec) VectorHom.Conds} (h : AroundAny b (.ofVector s)) : s.fill = .parent := by
  generalize hS : Source.ofVector s = S at h
  cases h with
  | vector _ _ _ _ h _ _ => rw [ofVector_inj hS]; exact h
  | scalar => exact absurd (congrArg Source.subset hS) (by intro h; cases h)

/-- **C134**, over the antimeridian: the same for gridded data. -/
theorem C134_around {b : Boundary} {W H : ℚ} {full : List (Source AnyData AnyCond)} (hf : ∀ s ∈ full, AroundAny b s)
    (hid : (full.map (fun s => s.loader.id)).Nodup)
    (config : MeshConfig) (hp : ProperGrid b W H) (hcr : b.longMax ≤ b.longMin) (hh : b.latMin < b.latMax)
    (hcol : b.width = 360 → W ≤ 180) (hacc : MeshBuilder.validateBounds b W H = .ok ()) (depth : ℕ) :
    ∃ m0, MeshBuilder.init b W H (fun q => trimSources q full) depth = .ok m0 ∧ ∃ N em, EnvTiles em b ∧
      (∀ fuel, N ≤ fuel → MeshBuilder.buildEnvironmentalMesh (sourceOps AnyData AnyCond) aggregate fuel config m0 = .ok em) ∧
      ∀ s id name agg hom x y, Source.ofVector s ∈ full → s.loader = vectorLoader id name agg hom → splitName name = [x, y] →
        agg ∈ [AggType.min, .max, .mean, .count] →
        (∀ t ∈ full, x ∈ splitName t.loader.dataName ∨ y ∈ splitName t.loader.dataName → t = .ofVector s) →
        ∃ f : AggCell → Vec, (∀ c ∈ em.cells, c.data.get? x = some (.num (f c).1) ∧ c.data.get? y = some (.num (f c).2)) ∧
          VectorsAltogether true agg ((rowsAround s.subset b).map Row.val) em.cells
            (fun c => (rowsAround s.subset c.bounds).map Row.val) f := by
  obtain ⟨value, hvalue, m0, h0, N, em, h1, -, h2, h3⟩ := C113_values hf hid config hp hcr hh hcol hacc depth
  refine ⟨m0, h0, N, em, h1, h2, fun s id name agg hom x y hs e hn hagg hu => ?_⟩
  have hfill : (Source.ofVector s).fill = .parent := (hf _ hs).vectorFill
  have hname : (Source.ofVector s).loader.dataName = name := by
    show s.loader.dataName = name
    rw [e]; rfl
  have hmx : x ∈ splitName (Source.ofVector s).loader.dataName := by rw [hname, hn]; simp
  have hmy : y ∈ splitName (Source.ofVector s).loader.dataName := by rw [hname, hn]; simp
  have hcell : ∀ c ∈ em.cells, ∃ anc, (∀ q ∈ c.bounds :: anc, Around b q) ∧ ∃ v v', Filled (fun q => value (.ofVector s) q x) .parent c.bounds anc v ∧
      Filled (fun q => value (.ofVector s) q y) .parent c.bounds anc v' ∧ c.data.get? x = some (.num v) ∧ c.data.get? y = some (.num v') := by
    intro c hc
    obtain ⟨anc, a1, -, w, a2, a3⟩ := h3 c hc
    obtain ⟨v, hv, hm⟩ := (a3 x).2 ⟨_, hs, hmx⟩
    obtain ⟨v', hv', hm'⟩ := (a3 y).2 ⟨_, hs, hmy⟩
    have e1 := merged_single hid hs hmx (fun t ht h => hu t ht (Or.inl h)) hm
    have e2 := merged_single hid hs hmy (fun t ht h => hu t ht (Or.inr h)) hm'
    refine ⟨anc, a1, v, v', ?_, ?_, hv, hv'⟩
    · rw [e1, ← hfill]; exact a2 _ hs x hmx
    · rw [e2, ← hfill]; exact a2 _ hs y hmy
  have hget : ∀ c ∈ em.cells, c.data.get? x = some (.num (match c.data.get? x with | some (.num v) => v | _ => none)) ∧
      c.data.get? y = some (.num (match c.data.get? y with | some (.num v) => v | _ => none)) := by
    intro c hc
    obtain ⟨anc, -, v, v', -, -, hv, hv'⟩ := hcell c hc
    rw [hv, hv']
    exact ⟨rfl, rfl⟩
  refine ⟨fun c => (match c.data.get? x with | some (.num v) => v | _ => none, match c.data.get? y with | some (.num v) => v | _ => none), hget, ?_⟩
  have hdom := (hf _ hs).vectorGrid.2.longs
  have hsel : ∀ q, Valid q → q.time = b.time → ∀ r ∈ s.subset.rows, _ := fun q a1 a3 r hr => aroundBox_iff s.subset a1 a3 r (hdom r hr)
  refine vectors_altogether (rows := fun q => (rowsAround s.subset q).map Row.val) (In := Around b) (vx := fun q => value (.ofVector s) q x)
    (vy := fun q => value (.ofVector s) q y) ?_ ?_ ?_ ?_
  · intro q hq
    exact gives_around_vector (hvalue _ hs q hq) e hn hagg
  · intro q hq v hv
    obtain ⟨r, hr, rfl⟩ := List.mem_map.1 hv
    obtain ⟨m1, m2⟩ := List.mem_filter.1 hr
    refine List.mem_map_of_mem (List.mem_filter.2 ⟨m1, ?_⟩)
    obtain ⟨k1, k2⟩ := (hsel q hq.1.1 hq.2.2.2 r m1).1 m2
    exact (hsel b hp.valid rfl r m1).2 ⟨hq.2.2.1 _ _ k1, k2⟩
  · rw [← List.map_flatMap]
    refine List.Perm.map _ ?_
    refine tiles_rows h1 (long := Row.long) (lat := Row.lat)
      (T := fun r => (!s.subset.hasTime || during b r.time) = true)
      (sel := fun q r => decide (q.latMin < r.lat ∧ r.lat ≤ q.latMax ∧
        (q.longMin < r.long ∧ r.long ≤ eastEdge q ∨ q.longMin < r.long + 360 ∧ r.long + 360 ≤ eastEdge q)) &&
        (!s.subset.hasTime || during q r.time)) (fun r hr => hsel b hp.valid rfl r hr) ?_
    intro c hc r hr
    obtain ⟨anc, a1, -⟩ := hcell c hc
    have := a1 _ List.mem_cons_self
    exact hsel c.bounds this.1.1 this.2.2.2 r hr
  · intro c hc
    obtain ⟨anc, a1, v, v', a2, a3, a4, a5⟩ := hcell c hc
    refine ⟨anc, a1, ?_⟩
    rw [a4, a5]
    exact ⟨a2, a3⟩

/-! ## Examples -/

/-- Four vectors, the last of them incomplete. -/
def exWinds : Dataset Vec :=
  .table ⟨false, [⟨-59, 1, 0, (some 3, some 4)⟩, ⟨-56, 6, 0, (some 1, some 0)⟩, ⟨-51, 12, 0, (some 0, some 2)⟩, ⟨-51, 13, 0, (some 9, none)⟩]⟩

/-- The mean vector, the longest one, and values that make a cell be divided. -/
def exWindSources : List (Source AnyData AnyCond) :=
  [.ofVector (vectorSource 0 "u,v" .mean 1 [] .parent exWinds), .ofVector (vectorSource 1 "x,y" .max 1 [] .parent exWinds),
   .ofScalar ⟨scalarLoader 2 "a" .mean 1, [⟨3, 0, 1, false⟩], .parent, exTotalsData⟩]

theorem exWindSources_plain : ∀ s ∈ exWindSources, PlainAny exRegion s := by
  intro s hs
  simp only [exWindSources, List.mem_cons, List.not_mem_nil, or_false] at hs
  rcases hs with rfl | rfl | rfl
  · exact .vector ⟨⟨_, _, _, _, "u", "v", rfl, by decide +kernel, by decide, by simp, le_rfl⟩, rfl, trivial, ⟨_, rfl⟩, by simp [vectorSource]⟩
  · exact .vector ⟨⟨_, _, _, _, "x", "y", rfl, by decide +kernel, by decide, by simp, le_rfl⟩, rfl, trivial, ⟨_, rfl⟩, by simp [vectorSource]⟩
  · exact .scalar ⟨⟨_, _, _, _, rfl, by decide, by simp⟩, Or.inl rfl, trivial, _, rfl⟩

/-- The hypotheses of C134 hold: the means stand for the sum of all eastward components, and some cell has the longest of the complete vectors. -/
example : ∃ m0, MeshBuilder.init exRegion 10 5 (fun q => trimSources q exWindSources) 1 = .ok m0 ∧ ∃ N em,
    (∀ fuel, N ≤ fuel → MeshBuilder.buildEnvironmentalMesh (sourceOps AnyData AnyCond) aggregate fuel exConfig m0 = .ok em) ∧
    (∃ f : AggCell → Vec, (∀ c ∈ em.cells, c.data.get? "u" = some (.num (f c).1)) ∧
      (em.cells.map (fun c => (f c).1.getD 0 * ((((rowsIn exWinds c.bounds).map Row.val).filterMap Prod.fst).length : ℚ))).sum = 13) ∧
    ∃ c ∈ em.cells, ∃ p : ℚ × ℚ, c.data.get? "x" = some (.num (some p.1)) ∧ c.data.get? "y" = some (.num (some p.2)) ∧ 25 ≤ normSq p := by
  obtain ⟨m0, h0, N, em, -, h1, h2⟩ := C134_totals (W := 10) (H := 5) exWindSources_plain (by decide) exConfig exRegion_proper (by norm_num [exRegion])
    (by norm_num [exRegion]) (by norm_num [exRegion]) (by decide +kernel) 1
  refine ⟨m0, h0, N, em, h1, ?_, ?_⟩
  · obtain ⟨f, e, h⟩ := h2 (vectorSource 0 "u,v" .mean 1 [] .parent exWinds) 0 "u,v" .mean _ "u" "v" (by simp [exWindSources]) rfl (by decide +kernel) (by simp) (by
      intro t ht hn
      simp only [exWindSources, List.mem_cons, List.not_mem_nil, or_false] at ht
      rcases ht with rfl | rfl | rfl <;> first | rfl | exact absurd hn (by decide +kernel))
    refine ⟨f, fun c hc => (e c hc).1, ?_⟩
    refine (h.mean rfl (by intro h; cases h)).1.trans ?_
    decide +kernel
  · obtain ⟨f, e, h⟩ := h2 (vectorSource 1 "x,y" .max 1 [] .parent exWinds) 1 "x,y" .max _ "x" "y" (by simp [exWindSources]) rfl (by decide +kernel) (by simp) (by
      intro t ht hn
      simp only [exWindSources, List.mem_cons, List.not_mem_nil, or_false] at ht
      rcases ht with rfl | rfl | rfl <;> first | rfl | exact absurd hn (by decide +kernel))
    have hm : ((3, 4) : ℚ × ℚ) ∈ complete ((rowsIn exWinds exRegion).map Row.val) := by decide +kernel
    obtain ⟨c, hc, p, e', h'⟩ := h.longest rfl (List.ne_nil_of_mem hm)
    refine ⟨c, hc, p, ?_, ?_, ?_⟩
    · rw [(e c hc).1, e']
    · rw [(e c hc).2, e']
    · have := h' _ hm
      norm_num [normSq] at this ⊢
      exact this

/-- The numbers of datapoints of vector sources do not add up over all cells: quarters without datapoints get the number of the cell that was divided, so
that here two datapoints are counted in each of four cells. -/
theorem C134_count_false : (do
    let m ← MeshBuilder.init ⟨0, 10, 0, 10, []⟩ 10 10 (fun q => trimSources q [.ofVector (vectorSource 0 "u,v" .count 1 [] .parent
        (.table ⟨false, [⟨1, 1, 0, (some 3, some 4)⟩, ⟨2, 2, 0, (some 3, some 4)⟩]⟩)),
      .ofScalar ⟨scalarLoader 1 "a" .mean 1, [⟨3, 0, 1, false⟩], .parent, .table ⟨false, [⟨2, 3, 0, some 5⟩, ⟨8, 9, 0, some 2⟩]⟩⟩]) 1
    let em ← MeshBuilder.buildEnvironmentalMesh (sourceOps AnyData AnyCond) aggregate 10 exConfig m
    return em.cells.map (fun c => c.data.get? "u") : Py (List (Option Val))) =
    .ok [some (.num (some 2)), some (.num (some 2)), some (.num (some 2)), some (.num (some 2))] := by
  decide +kernel

end Verif
