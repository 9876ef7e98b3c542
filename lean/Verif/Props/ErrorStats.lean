import Verif.Model.ErrorStats
import Verif.Props.Validation
import Verif.Props.Vector
import Verif.Props.Season
import Verif.Props.Sources
import Verif.Props.Mesh

/-!
# C77, C78, C79: error statistics of meshes; the getters of `Mesh`
-/

namespace Verif
open Spec ErrorStats

/-! ## Specification -/

/-- The point lies in the closed rectangle of the cell. -/
def Spec.InRect (b : Boundary) (lat long : ℚ) : Prop := b.latMin ≤ lat ∧ lat ≤ b.latMax ∧ b.longMin ≤ long ∧ long ≤ b.longMax

instance (b : Boundary) (lat long : ℚ) : Decidable (InRect b lat long) := by unfold InRect; infer_instance

/-- The number stored in a cell. -/
def Spec.numberIn (c : AggCell) (name : String) : Option ℚ :=
  match c.data.get? name with
  | some (.num x) => x
  | _ => none

/-- All pairs of a value of the data and the value of a cell around it. -/
def Spec.compared (name : String) (cells : List AggCell) (pts : List (Pt (Option ℚ))) : List (ℚ × ℚ) :=
  cells.flatMap (fun c => (pts.filter (fun p => InRect c.bounds p.1 p.2.1)).filterMap (fun p =>
    match p.2.2, numberIn c name with
    | some x, some a => some (x, a)
    | _, _ => none))

/-- All pairs of a vector of the data and the vector of a cell around it. -/
def Spec.comparedV (names : String × String) (cells : List AggCell) (pts : List (Pt Vec)) : List ((ℚ × ℚ) × ℚ × ℚ) :=
  cells.flatMap (fun c => (pts.filter (fun p => InRect c.bounds p.1 p.2.1)).filterMap (fun p =>
    match p.2.2.1, p.2.2.2, numberIn c names.1, numberIn c names.2 with
    | some x, some y, some a, some b => some ((x, y), (a, b))
    | _, _, _, _ => none))

/-- The Euclidean distance of two vectors. -/
noncomputable def Spec.dist2 (v w : ℚ × ℚ) : ℝ := Real.sqrt (((v.1 - w.1) ^ 2 + (v.2 - w.2) ^ 2 : ℚ) : ℝ)

/-- `m` is the mean and `r` the root mean square of the errors. -/
def Spec.IsMeanRms (errors : List ℝ) (m r : Option ℝ) : Prop :=
  (errors = [] ∧ m = none ∧ r = none) ∨
  ∃ μ ρ, m = some μ ∧ r = some ρ ∧ errors ≠ [] ∧ μ * errors.length = errors.sum ∧ 0 ≤ ρ ∧
    ρ ^ 2 * errors.length = (errors.map (fun e => e ^ 2)).sum

/-! ## Lemmas -/

theorem slice_eq {V : Type} (b : Boundary) (pts : List (Pt V)) : slice b pts = pts.filter (fun p => InRect b p.1 p.2.1) := by
  unfold slice
  rw [List.filter_filter]
  apply List.filter_congr
  intro p _
  simp only [InRect]
  by_cases h1 : b.latMin ≤ p.1 <;> by_cases h2 : p.1 ≤ b.latMax <;> by_cases h3 : b.longMin ≤ p.2.1 <;> by_cases h4 : p.2.1 ≤ b.longMax <;>
    simp [h1, h2, h3, h4]

theorem present_flatMap {α : Type} (l : List α) (f : α → List (Option ℚ)) : present ((l.map f).flatten) = l.flatMap (fun a => present (f a)) := by
  induction l with
  | nil => rfl
  | cons a l ih =>
    rw [List.map_cons, List.flatten_cons, List.flatMap_cons, ← ih]
    unfold present
    rw [List.filterMap_append]

theorem mean_sq_le (l : List ℝ) : l.sum ^ 2 ≤ l.length * (l.map (fun e => e ^ 2)).sum := by
  rcases eq_or_ne l [] with rfl | hne
  · simp
  have hpos : (0 : ℝ) < l.length := by
    have := List.length_pos_iff.2 hne
    exact_mod_cast this
  have key : ∀ μ : ℝ, 0 ≤ (l.map (fun e => e ^ 2)).sum - 2 * μ * l.sum + l.length * μ ^ 2 := by
    intro μ
    clear hne hpos
    induction l with
    | nil => simp
    | cons a l ih =>
      simp only [List.map_cons, List.sum_cons, List.length_cons]
      push_cast
      nlinarith [sq_nonneg (a - μ)]
  have := key (l.sum / l.length)
  have e : (l.map (fun e => e ^ 2)).sum - 2 * (l.sum / l.length) * l.sum + l.length * (l.sum / l.length) ^ 2
      = (l.map (fun e => e ^ 2)).sum - l.sum ^ 2 / l.length := by
    field_simp
    ring
  rw [e, sub_nonneg, div_le_iff₀ hpos] at this
  linarith

/-- The mean of errors is at most their root mean square; both vanish together, exactly if all errors vanish. -/
theorem meanRms_facts {errors : List ℝ} (h0 : ∀ e ∈ errors, 0 ≤ e) {μ ρ : ℝ} (h : IsMeanRms errors (some μ) (some ρ)) :
    0 ≤ μ ∧ μ ≤ ρ ∧ (μ = 0 ↔ ∀ e ∈ errors, e = 0) ∧ (ρ = 0 ↔ ∀ e ∈ errors, e = 0) := by
  rcases h with ⟨-, h, -⟩ | ⟨μ', ρ', e1, e2, hne, hm, hr0, hr⟩
  · cases h
  obtain rfl := Option.some.inj e1
  obtain rfl := Option.some.inj e2
  have hpos : (0 : ℝ) < errors.length := by
    have := List.length_pos_iff.2 hne
    exact_mod_cast this
  have hs : 0 ≤ errors.sum := List.sum_nonneg h0
  have hμ : 0 ≤ μ := by
    rw [← hm] at hs
    exact nonneg_of_mul_nonneg_left hs hpos
  have hle := mean_sq_le errors
  rw [← hm, ← hr] at hle
  have hle' : μ ^ 2 ≤ ρ ^ 2 := by
    have : μ ^ 2 * (errors.length * errors.length) ≤ ρ ^ 2 * (errors.length * errors.length) := by nlinarith
    exact le_of_mul_le_mul_right this (mul_pos hpos hpos)
  have hz : ∀ f : ℝ → ℝ, (∀ x, 0 ≤ x → 0 ≤ f x) → (errors.map f).sum = 0 → ∀ e ∈ errors, f e = 0 := by
    intro f hf hsum e he
    exact List.all_zero_of_le_zero_le_of_sum_eq_zero (l := errors.map f) (by
      intro y hy
      obtain ⟨x, hx, rfl⟩ := List.mem_map.1 hy
      exact hf x (h0 x hx)) hsum (List.mem_map_of_mem he)
  refine ⟨hμ, abs_le_of_sq_le_sq' hle' hr0 |>.2, ⟨fun h => ?_, fun h => ?_⟩, ⟨fun h => ?_, fun h => ?_⟩⟩
  · rw [h, zero_mul] at hm
    exact hz id (fun x hx => hx) (by simpa using hm.symm)
  · rw [List.sum_eq_zero h] at hm
    exact (mul_eq_zero.1 hm).resolve_right hpos.ne'
  · rw [h] at hr
    intro e he
    have := hz (fun x => x ^ 2) (fun x _ => sq_nonneg x) (by rw [← hr]; ring) e he
    exact pow_eq_zero_iff (two_ne_zero) |>.1 this
  · have : (errors.map (fun e => e ^ 2)).sum = 0 := by
      apply List.sum_eq_zero
      intro y hy
      obtain ⟨x, hx, rfl⟩ := List.mem_map.1 hy
      rw [h x hx]; ring
    rw [this] at hr
    exact pow_eq_zero_iff (two_ne_zero) |>.1 ((mul_eq_zero.1 hr).resolve_right hpos.ne')

theorem cellDiffs_eq {name : String} {c : AggCell} {x : Option ℚ} (hx : c.data.get? name = some (.num x)) (pts : List (Pt (Option ℚ))) :
    ∃ l, cellDiffs name pts c = .ok l ∧ present l = (compared name [c] pts).map (fun q => |q.1 - q.2|) := by
  have hg : c.data.get name = .ok (.num x) := by unfold Dict.get; rw [hx]
  have hn : numberIn c name = x := by unfold numberIn; rw [hx]
  unfold cellDiffs
  simp only [hg, bind, Except.bind, pure, Except.pure, numVal, slice_eq]
  by_cases hs : pts.filter (fun p => InRect c.bounds p.1 p.2.1) = []
  · refine ⟨[], by rw [if_pos hs], ?_⟩
    simp [compared, hs, present]
  · refine ⟨_, by rw [if_neg hs], ?_⟩
    unfold compared present
    simp only [List.flatMap_cons, List.flatMap_nil, List.append_nil, hn, List.filterMap_map, List.map_filterMap]
    apply List.filterMap_congr
    intro p _
    simp only [Function.comp_apply]
    rcases p.2.2 with _ | v <;> rcases x with _ | a <;> rfl

theorem cellDiffsV_eq {names : String × String} {c : AggCell} {x y : Option ℚ} (hx : c.data.get? names.1 = some (.num x))
    (hy : c.data.get? names.2 = some (.num y)) (pts : List (Pt Vec)) :
    ∃ l, cellDiffsV names pts c = .ok l ∧
      present l = (comparedV names [c] pts).map (fun q => (q.1.1 - q.2.1) ^ 2 + (q.1.2 - q.2.2) ^ 2) := by
  have hg : c.data.get names.1 = .ok (.num x) := by unfold Dict.get; rw [hx]
  have hg' : c.data.get names.2 = .ok (.num y) := by unfold Dict.get; rw [hy]
  have hn : numberIn c names.1 = x := by unfold numberIn; rw [hx]
  have hn' : numberIn c names.2 = y := by unfold numberIn; rw [hy]
  unfold cellDiffsV
  simp only [hg, hg', bind, Except.bind, pure, Except.pure, numVal, slice_eq]
  by_cases hs : pts.filter (fun p => InRect c.bounds p.1 p.2.1) = []
  · refine ⟨[], by rw [if_pos hs], ?_⟩
    simp [comparedV, hs, present]
  · refine ⟨_, by rw [if_neg hs], ?_⟩
    unfold comparedV present
    simp only [List.flatMap_cons, List.flatMap_nil, List.append_nil, hn, hn', List.filterMap_map, List.map_filterMap]
    apply List.filterMap_congr
    intro p _
    simp only [Function.comp_apply]
    rcases p.2.2.1 with _ | v <;> rcases p.2.2.2 with _ | w <;> rcases x with _ | a <;> rcases y with _ | b <;> rfl

theorem mapM_present {α : Type} {cells : List AggCell} {f : AggCell → Py (List (Option ℚ))} {g : AggCell → List α} {h : α → ℚ}
    (hf : ∀ c ∈ cells, ∃ l, f c = .ok l ∧ present l = (g c).map h) :
    ∃ l, cells.mapM f = .ok l ∧ present l.flatten = (cells.flatMap g).map h := by
  induction cells with
  | nil => exact ⟨[], rfl, rfl⟩
  | cons c cells ih =>
    obtain ⟨l, h1, h2⟩ := ih (fun d hd => hf d (List.mem_cons_of_mem _ hd))
    obtain ⟨k, k1, k2⟩ := hf c (List.mem_cons_self ..)
    refine ⟨k :: l, by rw [List.mapM_cons, k1, h1]; rfl, ?_⟩
    rw [List.flatten_cons, List.flatMap_cons, List.map_append, ← k2, ← h2]
    unfold present
    rw [List.filterMap_append]

theorem compared_flat (name : String) (cells : List AggCell) (pts : List (Pt (Option ℚ))) :
    compared name cells pts = cells.flatMap (fun c => compared name [c] pts) := by
  unfold compared
  simp

theorem comparedV_flat (names : String × String) (cells : List AggCell) (pts : List (Pt Vec)) :
    comparedV names cells pts = cells.flatMap (fun c => comparedV names [c] pts) := by
  unfold comparedV
  simp

/-! ## C77 -/

/-- **C77**, scalars: the results are the mean and the root mean square of the absolute errors over all pairs of
a datapoint and a cell around it. -/
theorem C77_scalar {name : String} {cells : List AggCell} (hne : cells ≠ []) (hc : ∀ c ∈ cells, ∃ x, c.data.get? name = some (.num x))
    (pts : List (Pt (Option ℚ))) :
    ∃ st, validateScalar name cells pts = .ok st ∧ st.cells = cells.length ∧
      IsMeanRms ((compared name cells pts).map (fun q => |(q.1 : ℝ) - q.2|)) st.mean st.rms := by
  obtain ⟨l, h1, h2⟩ := mapM_present (cells := cells) (f := cellDiffs name pts) (g := fun c => compared name [c] pts)
    (h := fun q => |q.1 - q.2|) (fun c h => by obtain ⟨x, hx⟩ := hc c h; exact cellDiffs_eq hx pts)
  rw [← compared_flat] at h2
  unfold validateScalar
  simp only [h1, bind, Except.bind, pure, Except.pure, if_neg hne, h2]
  refine ⟨_, rfl, rfl, ?_⟩
  generalize compared name cells pts = L
  by_cases hL : L = []
  · left; subst hL; exact ⟨rfl, rfl, rfl⟩
  right
  have hpos : (0 : ℝ) < L.length := by
    have := List.length_pos_iff.2 hL
    exact_mod_cast this
  have hnn : (0 : ℚ) ≤ (L.map (fun q => |q.1 - q.2| ^ 2)).sum / L.length := by
    apply div_nonneg _ (by positivity)
    apply List.sum_nonneg
    intro y hy
    obtain ⟨q, -, rfl⟩ := List.mem_map.1 hy
    positivity
  refine ⟨(((L.map (fun q => |q.1 - q.2|)).sum / L.length : ℚ) : ℝ), Real.sqrt (((L.map (fun q => |q.1 - q.2| ^ 2)).sum / L.length : ℚ) : ℝ), ?_, ?_,
    by simpa using hL, ?_, Real.sqrt_nonneg _, ?_⟩
  · simp only [listMean, if_neg (show L.map (fun q => |q.1 - q.2|) ≠ [] by simpa using hL), List.length_map, Option.map_some]
  · simp only [meanSquare, listMean, List.map_map, Function.comp_def]
    rw [if_neg (by simpa using hL), List.length_map]
    rfl
  · rw [List.length_map]
    push_cast
    rw [div_mul_cancel₀ _ hpos.ne', List.map_map]
    congr 1
    apply List.map_congr_left
    intro q _
    simp
  · rw [List.length_map, Real.sq_sqrt (by exact_mod_cast hnn)]
    push_cast
    rw [div_mul_cancel₀ _ hpos.ne', List.map_map, List.map_map]
    congr 1
    apply List.map_congr_left
    intro q _
    simp

/-- **C77**, vectors: the results are the mean and the root mean square of the distances over all pairs of a
vector and a cell around it. -/
theorem C77_vector {names : String × String} {cells : List AggCell} (hne : cells ≠ [])
    (hc : ∀ c ∈ cells, (∃ x, c.data.get? names.1 = some (.num x)) ∧ ∃ y, c.data.get? names.2 = some (.num y)) (pts : List (Pt Vec)) :
    ∃ st, validateVector names cells pts = .ok st ∧ st.cells = cells.length ∧
      IsMeanRms ((comparedV names cells pts).map (fun q => dist2 q.1 q.2)) st.mean st.rms := by
  obtain ⟨l, h1, h2⟩ := mapM_present (cells := cells) (f := cellDiffsV names pts) (g := fun c => comparedV names [c] pts)
    (h := fun q => (q.1.1 - q.2.1) ^ 2 + (q.1.2 - q.2.2) ^ 2)
    (fun c h => by obtain ⟨⟨x, hx⟩, y, hy⟩ := hc c h; exact cellDiffsV_eq hx hy pts)
  rw [← comparedV_flat] at h2
  unfold validateVector
  simp only [h1, bind, Except.bind, pure, Except.pure, if_neg hne, h2]
  refine ⟨_, rfl, rfl, ?_⟩
  generalize comparedV names cells pts = L
  by_cases hL : L = []
  · left; subst hL; refine ⟨rfl, ?_, rfl⟩; simp [meanR]
  right
  have hpos : (0 : ℝ) < L.length := by
    have := List.length_pos_iff.2 hL
    exact_mod_cast this
  have hnn : (0 : ℚ) ≤ (L.map (fun q => (q.1.1 - q.2.1) ^ 2 + (q.1.2 - q.2.2) ^ 2)).sum / L.length := by
    apply div_nonneg _ (by positivity)
    apply List.sum_nonneg
    intro y hy
    obtain ⟨q, -, rfl⟩ := List.mem_map.1 hy
    positivity
  refine ⟨(L.map (fun q => dist2 q.1 q.2)).sum / L.length,
    Real.sqrt (((L.map (fun q => (q.1.1 - q.2.1) ^ 2 + (q.1.2 - q.2.2) ^ 2)).sum / L.length : ℚ) : ℝ), ?_, ?_, by simpa using hL, ?_,
    Real.sqrt_nonneg _, ?_⟩
  · simp only [meanR, List.map_map, List.length_map]
    rw [if_neg (by simpa using hL)]
    rfl
  · simp only [listMean]
    rw [if_neg (by simpa using hL), List.length_map]
    rfl
  · rw [List.length_map, div_mul_cancel₀ _ hpos.ne']
  · rw [List.length_map, Real.sq_sqrt (by exact_mod_cast hnn)]
    push_cast
    rw [div_mul_cancel₀ _ hpos.ne', List.map_map, List.map_map]
    congr 1
    apply List.map_congr_left
    intro q _
    simp only [Function.comp_apply, dist2]
    rw [Real.sq_sqrt (by exact_mod_cast (by positivity))]

/-- **C77**: the mean is at most the root mean square; both are zero exactly if the mesh agrees with all data. -/
theorem C77_mean_le_rms {name : String} {cells : List AggCell} (hne : cells ≠ []) (hc : ∀ c ∈ cells, ∃ x, c.data.get? name = some (.num x))
    (pts : List (Pt (Option ℚ))) (hL : compared name cells pts ≠ []) :
    ∃ n μ ρ, validateScalar name cells pts = .ok ⟨n, some μ, some ρ⟩ ∧ 0 ≤ μ ∧ μ ≤ ρ ∧
      (μ = 0 ↔ ∀ q ∈ compared name cells pts, q.1 = q.2) ∧ (ρ = 0 ↔ ∀ q ∈ compared name cells pts, q.1 = q.2) := by
  obtain ⟨st, h1, -, h3⟩ := C77_scalar hne hc pts
  obtain ⟨n, m, r⟩ := st
  have h3' := h3
  rcases h3' with ⟨h, -⟩ | ⟨μ, ρ, rfl, rfl, -⟩
  · exact absurd (List.map_eq_nil_iff.1 h) hL
  refine ⟨n, μ, ρ, h1, ?_⟩
  have h0 : ∀ e ∈ (compared name cells pts).map (fun q => |(q.1 : ℝ) - q.2|), 0 ≤ e := by
    intro e he
    obtain ⟨q, -, rfl⟩ := List.mem_map.1 he
    exact abs_nonneg _
  obtain ⟨f1, f2, f3, f4⟩ := meanRms_facts h0 h3
  have heq : (∀ e ∈ (compared name cells pts).map (fun q => |(q.1 : ℝ) - q.2|), e = 0) ↔ ∀ q ∈ compared name cells pts, q.1 = q.2 := by
    rw [List.forall_mem_map]
    refine forall₂_congr fun q _ => ?_
    rw [abs_eq_zero, sub_eq_zero]
    exact_mod_cast Iff.rfl
  exact ⟨f1, f2, f3.trans heq, f4.trans heq⟩

/-- **C77**: the same for vectors. -/
theorem C77_mean_le_rms_vector {names : String × String} {cells : List AggCell} (hne : cells ≠ [])
    (hc : ∀ c ∈ cells, (∃ x, c.data.get? names.1 = some (.num x)) ∧ ∃ y, c.data.get? names.2 = some (.num y)) (pts : List (Pt Vec))
    (hL : comparedV names cells pts ≠ []) :
    ∃ n μ ρ, validateVector names cells pts = .ok ⟨n, some μ, some ρ⟩ ∧ 0 ≤ μ ∧ μ ≤ ρ ∧
      (μ = 0 ↔ ∀ q ∈ comparedV names cells pts, q.1 = q.2) ∧ (ρ = 0 ↔ ∀ q ∈ comparedV names cells pts, q.1 = q.2) := by
  obtain ⟨st, h1, -, h3⟩ := C77_vector hne hc pts
  obtain ⟨n, m, r⟩ := st
  have h3' := h3
  rcases h3' with ⟨h, -⟩ | ⟨μ, ρ, rfl, rfl, -⟩
  · exact absurd (List.map_eq_nil_iff.1 h) hL
  refine ⟨n, μ, ρ, h1, ?_⟩
  have h0 : ∀ e ∈ (comparedV names cells pts).map (fun q => dist2 q.1 q.2), 0 ≤ e := by
    intro e he
    obtain ⟨q, -, rfl⟩ := List.mem_map.1 he
    exact Real.sqrt_nonneg _
  obtain ⟨f1, f2, f3, f4⟩ := meanRms_facts h0 h3
  have heq : (∀ e ∈ (comparedV names cells pts).map (fun q => dist2 q.1 q.2), e = 0) ↔ ∀ q ∈ comparedV names cells pts, q.1 = q.2 := by
    rw [List.forall_mem_map]
    refine forall₂_congr fun q _ => ?_
    unfold dist2
    rw [Real.sqrt_eq_zero (by exact_mod_cast (by positivity))]
    constructor
    · intro h
      have h' : (q.1.1 - q.2.1) ^ 2 + (q.1.2 - q.2.2) ^ 2 = 0 := by exact_mod_cast h
      have e1 : q.1.1 - q.2.1 = 0 := by nlinarith [sq_nonneg (q.1.1 - q.2.1), sq_nonneg (q.1.2 - q.2.2)]
      have e2 : q.1.2 - q.2.2 = 0 := by nlinarith [sq_nonneg (q.1.1 - q.2.1), sq_nonneg (q.1.2 - q.2.2)]
      exact Prod.ext (by linarith) (by linarith)
    · intro h; rw [h]; simp
  exact ⟨f1, f2, f3.trans heq, f4.trans heq⟩

/-- **C77**: without cells, or if a cell (after cells with numbers) lacks the data, validation raises `KeyError`. -/
theorem C77_raises (name : String) (pts : List (Pt (Option ℚ))) : validateScalar name [] pts = .error .keyError ∧
    ∀ (l1 l2 : List AggCell) (c : AggCell), (∀ d ∈ l1, ∃ x, d.data.get? name = some (.num x)) → c.data.get? name = none →
      validateScalar name (l1 ++ c :: l2) pts = .error .keyError := by
  refine ⟨rfl, fun l1 l2 c h1 hc => ?_⟩
  have e : (l1 ++ c :: l2).mapM (cellDiffs name pts) = .error .keyError := by
    induction l1 with
    | nil =>
      rw [List.nil_append, List.mapM_cons]
      have : cellDiffs name pts c = .error .keyError := by
        unfold cellDiffs Dict.get
        rw [hc]; rfl
      rw [this]; rfl
    | cons d l1 ih =>
      rw [List.cons_append, List.mapM_cons]
      obtain ⟨x, hx⟩ := h1 d (List.mem_cons_self ..)
      obtain ⟨k, hk, -⟩ := cellDiffs_eq hx pts
      rw [hk, ih (fun d hd => h1 d (List.mem_cons_of_mem _ hd))]; rfl
  unfold validateScalar
  rw [e]; rfl

/-- Two cells of ice and three datapoints, one of them on the common edge and one missing. -/
def exErrCells : List AggCell := [⟨⟨0, 5, 0, 5, []⟩, [("SIC", .num (some 10)), ("u", .num (some 1)), ("v", .num (some 0))], 0⟩,
  ⟨⟨0, 5, 5, 10, []⟩, [("SIC", .num (some 20)), ("u", .num (some 0)), ("v", .num none)], 1⟩]

example : compared "SIC" exErrCells [(1, 1, some 12), (2, 5, some 10), (3, 3, none)] = [(12, 10), (10, 10), (10, 20)] ∧
    comparedV ("u", "v") exErrCells [(1, 1, (some 4, some 4)), (2, 7, (some 1, some 1))] = [((4, 4), (1, 0))] ∧
    (∀ c ∈ exErrCells, ∃ x, c.data.get? "SIC" = some (.num x)) := by
  refine ⟨by decide +kernel, by decide +kernel, ?_⟩
  intro c hc
  simp only [exErrCells, List.mem_cons, List.not_mem_nil, or_false] at hc
  rcases hc with rfl | rfl
  · exact ⟨some 10, by decide +kernel⟩
  · exact ⟨some 20, by decide +kernel⟩

/-! ## C78 -/

/-- The rows of the data in the boxes around the samples, source by source. -/
def Spec.sampledRows (S : List (String × Dataset (Option ℚ))) (t : ℚ × ℚ → String × Dataset (Option ℚ) → Dataset (Option ℚ))
    (samples : List (ℚ × ℚ)) : List (String × Row (Option ℚ)) :=
  samples.flatMap (fun s => S.flatMap (fun p => (t s p).rows.map (fun r => (p.1, r))))

/-- The value of the datapoint, and the value of the first cell with the datapoint in its interior. -/
def Spec.Paired (cells : List AggCell) (p : String × Row (Option ℚ)) (q : ℚ × ℚ) : Prop :=
  p.2.val = some q.1 ∧ ∃ before c after, cells = before ++ c :: after ∧ StrictIn c.bounds p.2.long p.2.lat ∧
    (∀ c' ∈ before, ¬ StrictIn c'.bounds p.2.long p.2.lat) ∧ c.data.get? p.1 = some (.num (some q.2))

/-- The same by the test of the model. -/
def PairedBy (cells : List AggCell) (p : String × Row (Option ℚ)) (q : ℚ × ℚ) : Prop :=
  p.2.val = some q.1 ∧ ∃ c, cells.find? (fun c => c.containsPoint p.2.lat p.2.long) = some c ∧ c.data.get? p.1 = some (.num (some q.2))

theorem mapM_ok_iff {α β : Type} {f : α → Py β} {l : List α} {r : List β} :
    l.mapM f = .ok r ↔ List.Forall₂ (fun a b => f a = .ok b) l r := by
  refine ⟨mapM_forall₂, fun h => ?_⟩
  induction h with
  | nil => rfl
  | cons h _ ih => rw [List.mapM_cons, h, ih]; rfl

theorem mapM_congr_py {α β : Type} {f g : α → Py β} {l : List α} (h : ∀ a ∈ l, f a = g a) : l.mapM f = l.mapM g := by
  induction l with
  | nil => rfl
  | cons a l ih => rw [List.mapM_cons, List.mapM_cons, h a (by simp), ih (fun b hb => h b (by simp [hb]))]

/-- Nested loops that put lists together are one loop. -/
theorem mapM_nested {α β γ δ : Type} (F : α → List β) (g : β → Py (List γ)) (l : List α) : ∀ K : List γ → Py δ,
    (l.mapM (fun a => ((F a).mapM g).bind (fun k => .ok k.flatten))).bind (fun r => K r.flatten)
      = ((l.flatMap F).mapM g).bind (fun r => K r.flatten) := by
  induction l with
  | nil => intro K; rfl
  | cons a l ih =>
    intro K
    rw [List.mapM_cons, List.flatMap_cons, List.mapM_append]
    rcases (F a).mapM g with e | k
    · rfl
    · have := ih (fun y => K (k.flatten ++ y))
      generalize l.mapM (fun a => ((F a).mapM g).bind (fun k => (.ok k.flatten : Py (List γ)))) = X at this ⊢
      generalize (l.flatMap F).mapM g = Y at this ⊢
      rcases X with e | x <;> rcases Y with e' | y <;>
        simpa [bind, Except.bind, pure, Except.pure] using this

/-- The same for loops that build two lists. -/
theorem mapM_nested_pair {α β γ δ ε : Type} (F : α → List β) (A : α → List ε) (g : β → Py (List γ)) (l : List α) : ∀ K : List ε → List γ → Py δ,
    (l.mapM (fun a => ((F a).mapM g).bind (fun k => .ok (A a, k.flatten)))).bind (fun r => K (r.map Prod.fst).flatten (r.map Prod.snd).flatten)
      = ((l.flatMap F).mapM g).bind (fun r => K (l.flatMap A) r.flatten) := by
  induction l with
  | nil => intro K; rfl
  | cons a l ih =>
    intro K
    rw [List.mapM_cons, List.flatMap_cons, List.mapM_append]
    rcases (F a).mapM g with e | k
    · rfl
    · have := ih (fun x y => K (A a ++ x) (k.flatten ++ y))
      generalize l.mapM (fun a => ((F a).mapM g).bind (fun k => (.ok (A a, k.flatten) : Py (List ε × List γ)))) = X at this ⊢
      generalize (l.flatMap F).mapM g = Y at this ⊢
      rcases X with e | x <;> rcases Y with e' | y <;>
        simpa [bind, Except.bind, pure, Except.pure, List.flatMap_cons] using this

theorem validateMesh_eq {b : Boundary} {len : ℚ} {cells : List AggCell} {S : List (String × Dataset (Option ℚ))} {samples : List (ℚ × ℚ)}
    {box : ℚ × ℚ → Boundary} {t : ℚ × ℚ → String × Dataset (Option ℚ) → Dataset (Option ℚ)}
    (hbox : ∀ s ∈ samples, Validation.sampleBox b len s.1 s.2 = .ok (box s))
    (ht : ∀ s ∈ samples, ∀ p ∈ S, p.2.trim (box s) = .ok (t s p)) :
    validateMesh b len (.ok (S.map (fun p => .scalar p.1 p.2))) cells samples =
      ((sampledRows S t samples).mapM (fun p => meshValueAt cells p.1 p.2)).bind (fun vs =>
        (meanSquaredError ((sampledRows S t samples).map (fun p => p.2.val)) vs.flatten).bind (fun e => .ok (Real.sqrt ((e : ℚ) : ℝ)))) := by
  -- one sample
  have one : ∀ s ∈ samples, sampleValues b len (.ok (S.map (fun p => .scalar p.1 p.2))) cells s =
      ((S.flatMap (fun p => (t s p).rows.map (fun r => (p.1, r)))).mapM (fun p => meshValueAt cells p.1 p.2)).bind (fun k =>
        .ok ((S.flatMap (fun p => (t s p).rows.map (fun r => (p.1, r)))).map (fun p => p.2.val), k.flatten)) := by
    intro s hs
    have ha : (S.map (fun p => Src.scalar p.1 p.2)).mapM (actualOf (box s)) = .ok (S.map (fun p => (t s p).vals)) := by
      rw [mapM_ok_iff, List.forall₂_map_left_iff, List.forall₂_map_right_iff, List.forall₂_same]
      intro p hp
      simp only [actualOf, ht s hs p hp, bind, Except.bind, pure, Except.pure]
    have hm : (S.map (fun p => Src.scalar p.1 p.2)).mapM (meshOf (box s) cells)
        = S.mapM (fun p => (((t s p).rows.map (fun r => (p.1, r))).mapM (fun p => meshValueAt cells p.1 p.2)).bind (fun k => .ok k.flatten)) := by
      rw [List.mapM_map]
      apply mapM_congr_py
      intro p hp
      simp only [Function.comp_apply, meshOf, ht s hs p hp, bind, Except.bind, List.mapM_map, pure, Except.pure]
      rfl
    have hflat : (S.map (fun p => (t s p).vals)).flatten = (S.flatMap (fun p => (t s p).rows.map (fun r => (p.1, r)))).map (fun p => p.2.val) := by
      rw [List.map_flatMap, List.flatMap_def]
      congr 1
      apply List.map_congr_left
      intro p _
      rw [List.map_map]; rfl
    unfold sampleValues
    by_cases hS : S = []
    · subst hS; rfl
    · rw [← mapM_nested (fun p : String × Dataset (Option ℚ) => (t s p).rows.map (fun r => (p.1, r))) (fun p => meshValueAt cells p.1 p.2) S
        (fun k => .ok ((S.flatMap (fun p => (t s p).rows.map (fun r => (p.1, r)))).map (fun p => p.2.val), k)), ← hm, ← hflat]
      simp only [bind, pure, Except.pure]
      simp only [Except.bind, List.isEmpty_iff, List.map_eq_nil_iff, hS, if_false, hbox s hs, ha]
  unfold validateMesh
  rw [mapM_congr_py one]
  have := mapM_nested_pair (fun s => S.flatMap (fun p => (t s p).rows.map (fun r => (p.1, r))))
    (fun s => (S.flatMap (fun p => (t s p).rows.map (fun r => (p.1, r)))).map (fun p => p.2.val)) (fun p => meshValueAt cells p.1 p.2) samples
    (fun a m => (meanSquaredError a m).bind (fun e => .ok (Real.sqrt ((e : ℚ) : ℝ))))
  have hA : samples.flatMap (fun s => (S.flatMap (fun p => (t s p).rows.map (fun r => (p.1, r)))).map (fun p => p.2.val))
      = (sampledRows S t samples).map (fun p => p.2.val) := by
    unfold sampledRows
    rw [List.map_flatMap]
  rw [hA] at this
  exact this

theorem meshValue_le_one {cells : List AggCell} {p : String × Row (Option ℚ)} {v : List Val} (h : meshValueAt cells p.1 p.2 = .ok v) :
    v = [] ∨ ∃ w c, v = [w] ∧ cells.find? (fun c => c.containsPoint p.2.lat p.2.long) = some c ∧ c.data.get? p.1 = some w := by
  unfold meshValueAt at h
  rcases hc : cells.find? (fun c => c.containsPoint p.2.lat p.2.long) with _ | c
  · simp only [hc] at h; left; exact (Except.ok.inj h).symm
  · simp only [hc] at h
    unfold Dict.get at h
    rcases hg : c.data.get? p.1 with _ | w
    · simp only [hg] at h; cases h
    · simp only [hg] at h; right; exact ⟨w, c, (Except.ok.inj h).symm, hc, hg⟩

theorem flatten_le {cells : List AggCell} {rows : List (String × Row (Option ℚ))} {vs : List (List Val)}
    (h : List.Forall₂ (fun p v => meshValueAt cells p.1 p.2 = .ok v) rows vs) : vs.flatten.length ≤ rows.length := by
  induction h with
  | nil => simp
  | cons h _ ih =>
    rw [List.flatten_cons, List.length_append, List.length_cons]
    rcases meshValue_le_one h with rfl | ⟨w, c, rfl, -⟩
    · simp only [List.length_nil]; omega
    · simp only [List.length_cons, List.length_nil]; omega

theorem flatten_full {cells : List AggCell} {rows : List (String × Row (Option ℚ))} {vs : List (List Val)}
    (h : List.Forall₂ (fun p v => meshValueAt cells p.1 p.2 = .ok v) rows vs) (hl : vs.flatten.length = rows.length) :
    List.Forall₂ (fun p w => ∃ c, cells.find? (fun c => c.containsPoint p.2.lat p.2.long) = some c ∧ c.data.get? p.1 = some w) rows vs.flatten := by
  induction h with
  | nil => exact .nil
  | cons h hr ih =>
    have hle := flatten_le hr
    rw [List.flatten_cons, List.length_append, List.length_cons] at hl
    rcases meshValue_le_one h with rfl | ⟨w, c, rfl, h1, h2⟩
    · simp only [List.length_nil] at hl; omega
    · simp only [List.length_cons, List.length_nil] at hl
      rw [List.flatten_cons]
      exact .cons ⟨c, h1, h2⟩ (ih (by omega))

theorem validateMesh_iff {b : Boundary} {len : ℚ} {cells : List AggCell} {S : List (String × Dataset (Option ℚ))} {samples : List (ℚ × ℚ)}
    {box : ℚ × ℚ → Boundary} {t : ℚ × ℚ → String × Dataset (Option ℚ) → Dataset (Option ℚ)}
    (hbox : ∀ s ∈ samples, Validation.sampleBox b len s.1 s.2 = .ok (box s))
    (ht : ∀ s ∈ samples, ∀ p ∈ S, p.2.trim (box s) = .ok (t s p)) (r : ℝ) :
    validateMesh b len (.ok (S.map (fun p => .scalar p.1 p.2))) cells samples = .ok r ↔
      ∃ pairs : List (ℚ × ℚ), pairs ≠ [] ∧ List.Forall₂ (PairedBy cells) (sampledRows S t samples) pairs ∧
        0 ≤ r ∧ r ^ 2 * pairs.length = (pairs.map (fun q => ((q.1 : ℝ) - q.2) ^ 2)).sum := by
  rw [validateMesh_eq hbox ht]
  generalize sampledRows S t samples = R
  have hsq : ∀ pairs : List (ℚ × ℚ), pairs ≠ [] → ((0 ≤ r ∧ r ^ 2 * pairs.length = (pairs.map (fun q => ((q.1 : ℝ) - q.2) ^ 2)).sum) ↔
      Real.sqrt (((pairs.map (fun q => (q.1 - q.2) ^ 2)).sum / pairs.length : ℚ) : ℝ) = r) := by
    intro pairs hne
    have hpos : (0 : ℝ) < pairs.length := by
      have := List.length_pos_iff.2 hne
      exact_mod_cast this
    have hcast : (((pairs.map (fun q => (q.1 - q.2) ^ 2)).sum / pairs.length : ℚ) : ℝ)
        = (pairs.map (fun q => ((q.1 : ℝ) - q.2) ^ 2)).sum / pairs.length := by
      push_cast
      rw [List.map_map]
      congr 2
      apply List.map_congr_left
      intro q _
      simp
    have hnn : (0 : ℝ) ≤ (pairs.map (fun q => ((q.1 : ℝ) - q.2) ^ 2)).sum / pairs.length := by
      apply div_nonneg _ hpos.le
      apply List.sum_nonneg
      intro y hy
      obtain ⟨q, -, rfl⟩ := List.mem_map.1 hy
      positivity
    rw [hcast]
    constructor
    · rintro ⟨h0, h⟩
      rw [← h, mul_div_cancel_right₀ _ hpos.ne', Real.sqrt_sq h0]
    · rintro rfl
      exact ⟨Real.sqrt_nonneg _, by rw [Real.sq_sqrt hnn, div_mul_cancel₀ _ hpos.ne']⟩
  have hzip : ∀ xs ys : List ℚ, List.zipWith (fun x y => (x - y) ^ 2) xs ys = (xs.zip ys).map (fun q => (q.1 - q.2) ^ 2) := by
    intro xs ys
    rw [List.zip_eq_zipWith, List.map_zipWith]
  constructor
  · intro h
    rcases hv : R.mapM (fun p => meshValueAt cells p.1 p.2) with e | vs
    · rw [hv] at h; cases h
    rw [hv] at h
    simp only [Except.bind] at h
    rw [mapM_ok_iff] at hv
    unfold meanSquaredError at h
    by_cases hl : (R.map (fun p => p.2.val)).length ≠ vs.flatten.length ∨ R.map (fun p => p.2.val) = []
    · rw [if_pos hl] at h; cases h
    rw [if_neg hl] at h
    push Not at hl
    obtain ⟨hl, hne⟩ := hl
    rw [List.length_map] at hl
    have hf := flatten_full hv hl.symm
    generalize vs.flatten = ws at h hf
    rcases hx : (R.map (fun p => p.2.val)).mapM finite with e | xs
    · rw [hx] at h; cases h
    rcases hy : ws.mapM finiteVal with e | ys
    · rw [hx, hy] at h; cases h
    rw [hx, hy] at h
    simp only [bind, Except.bind, pure, Except.pure, List.length_map] at h
    replace h := Except.ok.inj h
    rw [mapM_ok_iff, List.forall₂_map_left_iff] at hx
    rw [mapM_ok_iff] at hy
    have hlx := hx.length_eq
    have hly := hy.length_eq
    have hlw := hf.length_eq
    have hpairs : List.Forall₂ (PairedBy cells) R (xs.zip ys) := by
      clear hsq h hl hne hv hlx hly hlw
      induction hf generalizing xs ys with
      | nil => cases hx; exact .nil
      | cons hc _ ih =>
        cases hx with
        | cons hx0 hx =>
          cases hy with
          | cons hy0 hy =>
            rw [List.zip_cons_cons]
            refine .cons ⟨?_, ?_⟩ (ih _ hx _ hy)
            · unfold finite at hx0
              split at hx0
              · rename_i x heq; rw [heq, Except.ok.inj hx0]
              · cases hx0
            · obtain ⟨c, c1, c2⟩ := hc
              refine ⟨c, c1, ?_⟩
              unfold finiteVal at hy0
              split at hy0
              · rw [c2, Except.ok.inj hy0]
              · cases hy0
    have hlen : (xs.zip ys).length = R.length := hpairs.length_eq.symm
    have hne' : xs.zip ys ≠ [] := by
      rw [Ne, ← List.length_eq_zero_iff, hlen, List.length_eq_zero_iff]
      intro h0
      exact hne (by rw [h0]; rfl)
    refine ⟨xs.zip ys, hne', hpairs, (hsq _ hne').2 ?_⟩
    rw [hlen, ← h, hzip xs ys]
  · rintro ⟨pairs, hne, hp, hr⟩
    rw [hsq pairs hne] at hr
    have hv : R.mapM (fun p => meshValueAt cells p.1 p.2) = .ok (pairs.map (fun q => [Val.num (some q.2)])) := by
      rw [mapM_ok_iff, List.forall₂_map_right_iff]
      refine hp.imp ?_
      rintro p q ⟨-, c, c1, c2⟩
      unfold meshValueAt Dict.get
      rw [c1]
      simp only [c2]; rfl
    have hfl : (pairs.map (fun q => [Val.num (some q.2)])).flatten = pairs.map (fun q => Val.num (some q.2)) := by
      clear hne hp hr hv hsq
      induction pairs with
      | nil => rfl
      | cons _ _ ih => simp only [List.map_cons, List.flatten_cons, ih]; rfl
    have hx : (R.map (fun p => p.2.val)).mapM finite = .ok (pairs.map Prod.fst) := by
      rw [mapM_ok_iff, List.forall₂_map_left_iff, List.forall₂_map_right_iff]
      refine hp.imp ?_
      rintro p q ⟨h1, -⟩
      rw [h1]; rfl
    have hy : (pairs.map (fun q => Val.num (some q.2))).mapM finiteVal
        = .ok (pairs.map Prod.snd) := by
      rw [mapM_ok_iff, List.forall₂_map_left_iff, List.forall₂_map_right_iff, List.forall₂_same]
      intro q _
      rfl
    rw [hv]
    simp only [Except.bind, hfl]
    unfold meanSquaredError
    have hlen := hp.length_eq
    have hRne : R.map (fun p => p.2.val) ≠ [] := by
      rw [Ne, List.map_eq_nil_iff, ← List.length_eq_zero_iff, hlen, List.length_eq_zero_iff]
      exact hne
    rw [if_neg (by simp only [List.length_map, hlen, ne_eq, not_true_eq_false, false_or]; exact hRne), hx, hy]
    simp only [bind, Except.bind, pure, Except.pure, List.length_map, hlen]
    congr 1
    rw [← hr]
    rw [hzip, List.zip_map', List.map_map]
    rfl

theorem pairedBy_iff {cells : List AggCell} {p : String × Row (Option ℚ)} {q : ℚ × ℚ}
    (hc : ∀ c ∈ cells, Valid c.bounds) (hx : -180 < p.2.long ∧ p.2.long < 180) : PairedBy cells p q ↔ Paired cells p q := by
  have hin : ∀ c ∈ cells, (c.containsPoint p.2.lat p.2.long = true ↔ StrictIn c.bounds p.2.long p.2.lat) := fun c h =>
    containsPoint_iff c (hc c h) _ _ ⟨hx.1.le, hx.2.le⟩ (Or.inr hx)
  unfold PairedBy Paired
  refine and_congr_right fun _ => ?_
  constructor
  · rintro ⟨c, h1, h2⟩
    rw [List.find?_eq_some_iff_append] at h1
    obtain ⟨h1, l, l', rfl, h3⟩ := h1
    refine ⟨l, c, l', rfl, (hin c (by simp)).1 h1, fun c' hc' h => ?_, h2⟩
    have := h3 c' hc'
    rw [(hin c' (by simp [hc'])).2 h] at this
    cases this
  · rintro ⟨l, c, l', rfl, h1, h3, h2⟩
    refine ⟨c, ?_, h2⟩
    rw [List.find?_eq_some_iff_append]
    refine ⟨(hin c (by simp)).2 h1, l, l', rfl, fun c' hc' => ?_⟩
    rw [Bool.not_eq_true', ← Bool.not_eq_true, hin c' (by simp [hc'])]
    exact h3 c' hc'

/-- **C78**: validation by samples returns exactly if there is a datapoint in the boxes around the samples, and every
one of these has a value and lies in the interior of a cell with a number; the result is then the root mean square of
the differences of the datapoints and the cells around them.  (Partial: missing are vector sources and datapoints on the antimeridian.) -/
theorem C78_exact_partial {b : Boundary} {len : ℚ} {cells : List AggCell} {S : List (String × Dataset (Option ℚ))} {samples : List (ℚ × ℚ)}
    {box : ℚ × ℚ → Boundary} {t : ℚ × ℚ → String × Dataset (Option ℚ) → Dataset (Option ℚ)}
    (hbox : ∀ s ∈ samples, Validation.sampleBox b len s.1 s.2 = .ok (box s))
    (ht : ∀ s ∈ samples, ∀ p ∈ S, p.2.trim (box s) = .ok (t s p)) (hc : ∀ c ∈ cells, Valid c.bounds)
    (hx : ∀ p ∈ sampledRows S t samples, -180 < p.2.long ∧ p.2.long < 180) (r : ℝ) :
    validateMesh b len (.ok (S.map (fun p => .scalar p.1 p.2))) cells samples = .ok r ↔
      ∃ pairs : List (ℚ × ℚ), pairs ≠ [] ∧ List.Forall₂ (Paired cells) (sampledRows S t samples) pairs ∧
        0 ≤ r ∧ r ^ 2 * pairs.length = (pairs.map (fun q => ((q.1 : ℝ) - q.2) ^ 2)).sum := by
  rw [validateMesh_iff hbox ht]
  refine exists_congr fun pairs => and_congr_right fun _ => and_congr_left fun _ => ?_
  rw [List.forall₂_iff_get, List.forall₂_iff_get]
  refine and_congr_right fun _ => forall_congr' fun i => forall_congr' fun h1 => forall_congr' fun h2 => ?_
  exact pairedBy_iff hc (hx _ (List.get_mem _ _))

/-- **C78**: so a datapoint without value, or in no interior, makes validation fail, whatever the others are. -/
theorem C78_fails {b : Boundary} {len : ℚ} {cells : List AggCell} {S : List (String × Dataset (Option ℚ))} {samples : List (ℚ × ℚ)}
    {box : ℚ × ℚ → Boundary} {t : ℚ × ℚ → String × Dataset (Option ℚ) → Dataset (Option ℚ)}
    (hbox : ∀ s ∈ samples, Validation.sampleBox b len s.1 s.2 = .ok (box s))
    (ht : ∀ s ∈ samples, ∀ p ∈ S, p.2.trim (box s) = .ok (t s p)) (hc : ∀ c ∈ cells, Valid c.bounds)
    (hx : ∀ p ∈ sampledRows S t samples, -180 < p.2.long ∧ p.2.long < 180)
    {p : String × Row (Option ℚ)} (hp : p ∈ sampledRows S t samples)
    (hbad : p.2.val = none ∨ ∀ c ∈ cells, ¬ StrictIn c.bounds p.2.long p.2.lat) (r : ℝ) :
    validateMesh b len (.ok (S.map (fun p => .scalar p.1 p.2))) cells samples ≠ .ok r := by
  rw [Ne, C78_exact_partial hbox ht hc hx]
  rintro ⟨pairs, -, h, -⟩
  obtain ⟨i, hi, rfl⟩ := List.getElem_of_mem hp
  have := List.forall₂_iff_get.1 h
  obtain ⟨hv, l, c, l', hl, hin, -⟩ := this.2 i hi (by rw [← this.1]; exact hi)
  rcases hbad with hb | hb
  · simp only [List.get_eq_getElem] at hv
    rw [hv] at hb; cases hb
  · exact hb c (by rw [hl]; simp) hin

/-- **C78**: a mesh whose first cell was split cannot be validated: the sources are taken from that cell. -/
theorem C78_split_raises {D : Type} (toSrc : D → List Src) (m : MeshState D) (h : m.cells[0]? = some none)
    (b : Boundary) (len : ℚ) (cells : List AggCell) (s : ℚ × ℚ) (samples : List (ℚ × ℚ)) :
    validateMesh b len (firstSources toSrc m.cells) cells (s :: samples) = .error .attributeError := by
  have : firstSources toSrc m.cells = .error .attributeError := by
    rcases hm : m.cells with _ | ⟨c, l⟩
    · rw [hm] at h; cases h
    · rw [hm] at h
      have : c = none := Option.some.inj h
      subst this; rfl
  rw [this]; rfl

/-- The first cell of this mesh was split. -/
example : ∃ m, exMesh = .ok m ∧ m.cells[0]? = some none := by
  rcases h : exMesh with e | m
  · have : (match exMesh with | .ok m => (m.cells[0]?.map Option.isNone == some true) | .error _ => false) = true := by decide +kernel
    rw [h] at this; cases this
  · refine ⟨m, rfl, ?_⟩
    have : (match exMesh with | .ok m => (m.cells[0]?.map Option.isNone == some true) | .error _ => false) = true := by decide +kernel
    rw [h] at this
    rcases hm : m.cells[0]? with _ | _ | c
    · simp [hm] at this
    · rfl
    · simp [hm] at this

/-- Ice at two points of the two cells. -/
def exErrData : Dataset (Option ℚ) := .table ⟨false, [⟨2, 2, 0, some 13⟩, ⟨3, 6, 0, some 16⟩, ⟨30, 6, 0, none⟩]⟩

/-- The data in the box `[1, 4] × [1, 8]`. -/
def exErrTrimmed : Dataset (Option ℚ) := .table ⟨false, [⟨2, 2, 0, some 13⟩, ⟨3, 6, 0, some 16⟩]⟩

/-- The differences are 3 and -4. -/
example : validateMesh ⟨0, 4, 0, 8, []⟩ 20 (.ok [.scalar "SIC" exErrData]) exErrCells [(1, 1)] = .ok (Real.sqrt (25 / 2)) := by
  refine (C78_exact_partial (S := [("SIC", exErrData)]) (box := fun _ => ⟨1, 4, 1, 8, []⟩) (t := fun _ _ => exErrTrimmed) ?_ ?_ ?_ ?_ _).2
    ⟨[(13, 10), (16, 20)], by simp, ?_, Real.sqrt_nonneg _, ?_⟩
  · intro s hs
    rw [List.mem_singleton.1 hs]; decide +kernel
  · intro s hs p hp
    rw [List.mem_singleton.1 hp]; rfl
  · intro c hc
    simp only [exErrCells, List.mem_cons, List.not_mem_nil, or_false] at hc
    rcases hc with rfl | rfl <;> (unfold Valid; norm_num)
  · intro p hp
    have : p = ("SIC", ⟨2, 2, 0, some 13⟩) ∨ p = ("SIC", ⟨3, 6, 0, some 16⟩) := by
      simpa [sampledRows, exErrTrimmed, Dataset.rows] using hp
    rcases this with rfl | rfl <;> norm_num
  · refine .cons ⟨rfl, [], _, _, rfl, ?_, by simp, rfl⟩ (.cons ⟨rfl, [_], _, _, rfl, ?_, ?_, rfl⟩ .nil)
    · exact ⟨⟨0, by norm_num [eastEdge]⟩, by norm_num⟩
    · exact ⟨⟨0, by norm_num [eastEdge]⟩, by norm_num⟩
    · intro c hc
      rw [List.mem_singleton.1 hc]
      rintro ⟨⟨n, h1, h2⟩, -⟩
      norm_num [eastEdge] at h1 h2
      have h3 : (-1 : ℚ) < n := by linarith
      have h4 : (n : ℚ) < 0 := by linarith
      have h3' : (-1 : ℤ) < n := by exact_mod_cast h3
      have h4' : n < 0 := by exact_mod_cast h4
      omega
  · rw [Real.sq_sqrt (by norm_num)]; norm_num

/-- A point on the common edge of the two cells is in no interior. -/
example : ∀ c ∈ exErrCells, ¬ StrictIn c.bounds 5 2 := by
  intro c hc
  simp only [exErrCells, List.mem_cons, List.not_mem_nil, or_false] at hc
  rcases hc with rfl | rfl
  · rintro ⟨⟨n, h1, h2⟩, -⟩
    simp only [eastEdge] at h1 h2
    norm_num at h1 h2
    have h3 : (-1 : ℚ) < n := by linarith
    have h4 : (n : ℚ) < 0 := by linarith
    have h3' : (-1 : ℤ) < n := by exact_mod_cast h3
    have h4' : n < 0 := by exact_mod_cast h4
    omega
  · rintro ⟨⟨n, h1, h2⟩, -⟩
    simp only [eastEdge] at h1 h2
    norm_num at h1 h2
    have h1' : (0 : ℚ) < n := by exact_mod_cast h1
    have h4 : (n : ℚ) < 1 := by linarith
    have h4' : n < 1 := by exact_mod_cast h4
    omega

/-! ## C79 -/

/-- **C79**: `get_cellboxes` returns the cells that were not replaced, in the order of their indices, each once.
(Partial: missing is `get_cellbox`, which always raises, `C79_raises`.) -/
theorem C79_cells_partial {D : Type} (m : MeshState D) :
    (∀ c, c ∈ getCellboxes m ↔ ∃ i, Live m i c) ∧ (getCellboxes m).map some = m.cells.filter Option.isSome := by
  refine ⟨fun c => ?_, ?_⟩
  · unfold getCellboxes Live
    rw [List.mem_filterMap]
    constructor
    · rintro ⟨o, ho, h⟩
      obtain ⟨i, hi⟩ := List.getElem?_of_mem ho
      exact ⟨i, by rw [hi]; exact congrArg some h⟩
    · rintro ⟨i, hi⟩
      exact ⟨some c, List.mem_of_getElem? hi, rfl⟩
  · unfold getCellboxes
    induction m.cells with
    | nil => rfl
    | cons o l ih => rcases o with _ | c <;> simp [← ih]

/-- **C79**: whenever the cells of a mesh tile its region, so do the cells that are returned. -/
theorem C79_tile {D : Type} (m : MeshState D) (b : Boundary) (h : MeshTiles m b) : Tiles ((getCellboxes m).map (·.bounds)) b := by
  obtain ⟨h1, h2⟩ := h
  refine ⟨fun x y => ⟨fun hb => ?_, ?_⟩, ?_⟩
  · obtain ⟨i, ⟨c, hc, hin⟩, -⟩ := h1 x y hb
    exact ⟨c.bounds, List.mem_map.2 ⟨c, ((C79_cells_partial m).1 c).2 ⟨i, hc⟩, rfl⟩, hin⟩
  · rintro ⟨r, hr, hin⟩
    obtain ⟨c, hc, rfl⟩ := List.mem_map.1 hr
    obtain ⟨i, hi⟩ := ((C79_cells_partial m).1 c).1 hc
    exact h2 i c x y hi hin
  · rw [List.pairwise_map]
    unfold getCellboxes
    rw [List.pairwise_filterMap, List.pairwise_iff_getElem]
    rintro i j hi hj hij c hc c' hc' x y ⟨hx, hx'⟩
    have li : Live m i c := by unfold Live; rw [List.getElem?_eq_getElem hi]; exact congrArg some hc
    have lj : Live m j c' := by unfold Live; rw [List.getElem?_eq_getElem hj]; exact congrArg some hc'
    obtain ⟨k, -, hk⟩ := h1 x y (h2 i c x y li hx)
    have := hk i ⟨c, li, hx⟩
    have := hk j ⟨c', lj, hx'⟩
    omega

/-- **C79**: on a mesh with a cell, `get_cellbox` and `add_data_points` raise, whatever they are asked for. -/
theorem C79_raises {D : Type} (m : MeshState D) {i : ℕ} {c : CellBox D} (h : Live m i c) (long lat : ℚ) (pts : List (ℚ × ℚ)) :
    getCellbox m long lat = .error .attributeError ∧ addDataPoints m pts = .error .attributeError := by
  have hm : some c ∈ m.cells := List.mem_of_getElem? h
  have : ∀ {A : Type} (l : List (Option (CellBox D))) (a : A), some c ∈ l → l.foldlM missingAttribute a = .error .attributeError := by
    intro A l
    induction l with
    | nil => intro a h; cases h
    | cons o l ih =>
      intro a h
      rw [List.foldlM_cons]
      rcases o with _ | d
      · exact ih a (by simpa using h)
      · rfl
  unfold getCellbox addDataPoints
  rw [this _ _ hm, this _ _ hm]
  exact ⟨rfl, rfl⟩

example : ∃ m, exMesh = .ok m ∧ MeshTiles m exRegion ∧ (∃ i c, Live m i c) ∧ (getCellboxes m).length = 10 := by
  obtain ⟨m, hm, hr⟩ := exMesh_ok
  have hn : (match exMesh with | .ok m => decide ((getCellboxes m).length = 10) | .error _ => false) = true := by decide +kernel
  rw [hm] at hn
  have hn : (getCellboxes m).length = 10 := of_decide_eq_true hn
  obtain ⟨c, hc⟩ := List.exists_mem_of_length_pos (l := getCellboxes m) (by omega)
  obtain ⟨i, hi⟩ := ((C79_cells_partial m).1 c).1 hc
  exact ⟨m, hm, (C15_tiling_partial unitOps exRegion 10 5 exRegion_proper (fun _ => ()) 3 m hr).1, ⟨i, c, hi⟩, hn⟩

end Verif
