import Verif.Proof.MeshSplit

/-!
# The loop of `split_to_depth`: fuel, progress and what holds afterwards
-/

namespace Verif
open Spec

variable {D : Type}

/-- Number of cells (live or replaced) of a full quadtree of height `n`. -/
def treeSize : ℕ → ℕ
  | 0 => 1
  | n + 1 => 1 + 4 * treeSize n

/-- Number of loop iterations that an entry of the cell list can still cause. -/
def weight (sd : ℕ) : Option (CellBox D) → ℕ
  | none => 1
  | some c => treeSize (sd - c.depth)

theorem treeSize_pos (n : ℕ) : 0 < treeSize n := by
  cases n <;> simp [treeSize]

theorem weight_pos (sd : ℕ) (o : Option (CellBox D)) : 0 < weight sd o := by
  cases o
  · simp [weight]
  · exact treeSize_pos _

/-- Total weight of a cell list. -/
def totalWeight (sd : ℕ) (l : List (Option (CellBox D))) : ℕ := (l.map (weight sd)).sum

theorem totalWeight_drop (sd : ℕ) (l : List (Option (CellBox D))) (i : ℕ) (o : Option (CellBox D)) (h : l[i]? = some o) :
    totalWeight sd (l.drop i) = weight sd o + totalWeight sd (l.drop (i + 1)) := by
  obtain ⟨hlt, he⟩ := List.getElem?_eq_some_iff.1 h
  rw [List.drop_eq_getElem_cons hlt, he]
  simp [totalWeight]

/-- What one split does to the list, seen from the loop. -/
theorem split_list {ops : DataOps D} {m m' : MeshState D} {k : ℕ} {c : CellBox D}
    (hk : Live m k c) (hs : MeshBuilder.splitAndReplace ops m k = .ok m') :
    ∃ nw ne sw se : CellBox D, (∀ q ∈ [nw, ne, sw, se], q.depth = c.depth + 1 ∧ q.data = ops.trim q.bounds c.data ∧
        q.anc = (c.bounds, c.data) :: c.anc) ∧
      m'.cells = (m.cells ++ [some nw, some ne, some sw, some se]).set k none ∧ m'.bounds = m.bounds ∧ m'.maxDepth = m.maxDepth := by
  obtain ⟨c', new, g, hk', hsp, -, rfl⟩ := splitAndReplace_inv hs
  have : c' = c := by unfold Live at hk hk'; rw [hk] at hk'; simpa using hk'.symm
  subst this
  obtain ⟨nw, ne, sw, se, rfl, -, -, -, -, hq⟩ := split_shape hsp
  exact ⟨nw, ne, sw, se, hq, rfl, rfl, rfl⟩

theorem weight_after {sd k : ℕ} {l : List (Option (CellBox D))} {c nw ne sw se : CellBox D} (hk : l[k]? = some (some c))
    (hd : c.depth < sd) (hq : ∀ q ∈ [nw, ne, sw, se], q.depth = c.depth + 1) :
    totalWeight sd (((l ++ [some nw, some ne, some sw, some se]).set k none).drop (k + 1)) + 1 =
      totalWeight sd (l.drop k) ∧
    totalWeight sd ((l ++ [some nw, some ne, some sw, some se]).set k none) = totalWeight sd l := by
  have hlt := (List.getElem?_eq_some_iff.1 hk).1
  have hT : treeSize (sd - c.depth) = 1 + 4 * treeSize (sd - (c.depth + 1)) := by
    have : sd - c.depth = (sd - (c.depth + 1)) + 1 := by omega
    rw [this]; rfl
  simp only [List.mem_cons, List.not_mem_nil, or_false, forall_eq_or_imp, forall_eq] at hq
  obtain ⟨q1, q2, q3, q4⟩ := hq
  have h1 : totalWeight sd (((l ++ [some nw, some ne, some sw, some se]).set k none).drop (k + 1)) + 1 =
      totalWeight sd (l.drop k) := by
    rw [totalWeight_drop sd l k _ hk, List.drop_set_of_lt (by omega), List.drop_append_of_le_length (by omega)]
    simp only [totalWeight, List.map_append, List.sum_append, List.map_cons, List.map_nil, List.sum_cons, List.sum_nil,
      weight, q1, q2, q3, q4, hT]
    omega
  refine ⟨h1, ?_⟩
  have split_at : ∀ (l : List (Option (CellBox D))) n, totalWeight sd l = totalWeight sd (l.take n) + totalWeight sd (l.drop n) := by
    intro l n
    conv_lhs => rw [← List.take_append_drop n l]
    simp [totalWeight]
  have hg : ((l ++ [some nw, some ne, some sw, some se]).set k none)[k]? = some none :=
    List.getElem?_set_self (by simp; omega)
  rw [split_at _ k, totalWeight_drop sd _ k none hg, split_at l k, ← h1, List.take_set_of_le (by omega),
    List.take_append_of_le_length (by omega)]
  simp only [weight]
  omega

/-- The decision function of the data never raises. -/
def Decides (ops : DataOps D) : Prop := ∀ n b d, ∃ r, ops.shouldSplit n b d = .ok r

/-- A cell that a pass leaves alone. -/
def Settled (ops : DataOps D) (sd index : ℕ) (c : CellBox D) : Prop :=
  sd ≤ c.depth ∨ ops.shouldSplit (index + 1) c.bounds c.data = .ok false

/-- Splitting live cells succeeds and keeps `I`. -/
def Keeps (ops : DataOps D) (I : MeshState D → Prop) : Prop :=
  ∀ m k c, I m → Live m k c → ∃ m', MeshBuilder.splitAndReplace ops m k = .ok m' ∧ I m'

theorem Keeps.splits {ops : DataOps D} {I : MeshState D → Prop} (hI : Keeps ops I) {m m' : MeshState D} (h : I m) (hs : Splits ops m m') :
    I m' := by
  induction hs with
  | refl => exact h
  | step k _ he ih =>
    obtain ⟨c, _, _, hk, _⟩ := splitAndReplace_inv he
    obtain ⟨m2, h1, h2⟩ := hI _ k c ih hk
    rw [he] at h1
    cases h1
    exact h2

/-- One pass, from position `i` on. -/
theorem splitPass_ok {ops : DataOps D} {I : MeshState D → Prop} (hI : Keeps ops I) (hdec : Decides ops) (sd index : ℕ) :
    ∀ (fuel i : ℕ) (m : MeshState D), I m →
      (∀ j c, Live m j c → c.depth ≤ sd) → (∀ j c, j < i → Live m j c → Settled ops sd index c) →
      totalWeight sd (m.cells.drop i) < fuel →
      ∃ m', MeshBuilder.splitPass ops sd index fuel i m = .ok m' ∧ Splits ops m m' ∧
        (∀ j c, Live m' j c → c.depth ≤ sd) ∧ (∀ j c, Live m' j c → Settled ops sd index c) ∧
        totalWeight sd m'.cells = totalWeight sd m.cells := by
  intro fuel
  induction fuel with
  | zero => intro i m _ _ _ h; omega
  | succ fuel ih =>
    intro i m hg hdep hset hfuel
    unfold MeshBuilder.splitPass
    rcases hi : m.cells[i]? with _ | _ | c
    · refine ⟨m, rfl, .refl m, hdep, ?_, rfl⟩
      intro j c hl
      apply hset j c _ hl
      have := live_lt hl
      have : m.cells.length ≤ i := List.getElem?_eq_none_iff.1 hi
      omega
    · simp only
      have hw := totalWeight_drop sd m.cells i _ hi
      have := weight_pos (D := D) sd none
      refine ih (i + 1) m hg hdep ?_ (by omega)
      intro j c hj hl
      rcases Nat.lt_succ_iff_lt_or_eq.1 hj with h | h
      · exact hset j c h hl
      · subst h; unfold Live at hl; rw [hi] at hl; cases hl
    · simp only
      have hk : Live m i c := hi
      have hw := totalWeight_drop sd m.cells i _ hi
      have hwp := weight_pos sd (some c)
      obtain ⟨r, hr⟩ := hdec (index + 1) c.bounds c.data
      simp only [hr, bind, Except.bind]
      by_cases hcond : c.depth < sd ∧ r = true
      · rw [if_pos hcond]
        obtain ⟨m1, e1, g1⟩ := hI m i c hg hk
        simp only [e1]
        obtain ⟨nw, ne, sw, se, hq, hcells, -, -⟩ := split_list hk e1
        have hwt := weight_after hk hcond.1 (fun q hq' => (hq q hq').1)
        rw [← hcells] at hwt
        have hL : ∀ j q, Live m1 j q ↔ (j ≠ i ∧ Live m j q) ∨ (j = m.cells.length ∧ q = nw) ∨ (j = m.cells.length + 1 ∧ q = ne) ∨
            (j = m.cells.length + 2 ∧ q = sw) ∨ (j = m.cells.length + 3 ∧ q = se) := by
          intro j q
          have := live_after hk nw ne sw se m1.graph j q
          unfold Live at this ⊢
          rw [hcells]; exact this
        have hlt := live_lt hk
        have hdep1 : ∀ j q, Live m1 j q → q.depth ≤ sd := by
          intro j q hl
          simp only [List.mem_cons, List.not_mem_nil, or_false, forall_eq_or_imp, forall_eq] at hq
          rcases (hL j q).1 hl with ⟨-, h⟩ | ⟨-, rfl⟩ | ⟨-, rfl⟩ | ⟨-, rfl⟩ | ⟨-, rfl⟩
          · exact hdep j q h
          · rw [hq.1.1]; exact hcond.1
          · rw [hq.2.1.1]; exact hcond.1
          · rw [hq.2.2.1.1]; exact hcond.1
          · rw [hq.2.2.2.1]; exact hcond.1
        have hset1 : ∀ j q, j < i + 1 → Live m1 j q → Settled ops sd index q := by
          intro j q hj hl
          rcases (hL j q).1 hl with ⟨h1, h⟩ | ⟨h1, -⟩ | ⟨h1, -⟩ | ⟨h1, -⟩ | ⟨h1, -⟩
          · exact hset j q (by omega) h
          all_goals omega
        obtain ⟨m', h1, h2, h3, h4, h5⟩ := ih (i + 1) m1 g1 hdep1 hset1 (by omega)
        refine ⟨m', h1, ?_, h3, h4, h5.trans hwt.2⟩
        have one : Splits ops m m1 := .step i (.refl m) e1
        clear h1 h3 h4 h5
        induction h2 with
        | refl => exact one
        | step k _ he ih => exact .step k ih he
      · rw [if_neg hcond]
        refine ih (i + 1) m hg hdep ?_ (by omega)
        intro j q hj hl
        rcases Nat.lt_succ_iff_lt_or_eq.1 hj with h | h
        · exact hset j q h hl
        · subst h
          unfold Live at hl; rw [hi] at hl
          simp only [Option.some.injEq] at hl
          subst hl
          by_cases hd : c.depth < sd
          · right
            have : r = false := by
              cases r
              · rfl
              · exact (hcond ⟨hd, rfl⟩).elim
            rw [hr, this]
          · left; omega

theorem splits_trans {ops : DataOps D} {m m' m'' : MeshState D} (h : Splits ops m m') (h' : Splits ops m' m'') :
    Splits ops m m'' := by
  induction h' with
  | refl => exact h
  | step k _ he ih => exact .step k ih he

/-- All passes: the meshes `ms p` before each of them. -/
theorem splitSources_ok {ops : DataOps D} {I : MeshState D → Prop} (hI : Keeps ops I) (hdec : Decides ops) (sd fuel : ℕ) :
    ∀ (conds : List ℕ) (index : ℕ) (m : MeshState D), I m →
      (∀ j c, Live m j c → c.depth ≤ sd) → totalWeight sd m.cells < fuel →
      ∃ ms : ℕ → MeshState D, MeshBuilder.splitSources ops sd fuel conds index m = .ok (ms conds.length) ∧ ms 0 = m ∧
        (∀ j c, Live (ms conds.length) j c → c.depth ≤ sd) ∧
        ∀ p, p < conds.length → Splits ops (ms p) (ms (p + 1)) ∧ (conds.getD p 0 = 0 → ms (p + 1) = ms p) ∧
          (0 < conds.getD p 0 → ∀ j c, Live (ms (p + 1)) j c → Settled ops sd (index + p) c) := by
  intro conds
  induction conds with
  | nil =>
    intro index m hg hdep _
    exact ⟨fun _ => m, rfl, rfl, hdep, by intro p hp; simp at hp⟩
  | cons n rest ih =>
    intro index m hg hdep hfuel
    unfold MeshBuilder.splitSources
    have step : ∀ m1, Splits ops m m1 → (n = 0 → m1 = m) → (0 < n → ∀ j c, Live m1 j c → Settled ops sd index c) →
        (∀ j c, Live m1 j c → c.depth ≤ sd) → totalWeight sd m1.cells = totalWeight sd m.cells →
        ∃ ms : ℕ → MeshState D, MeshBuilder.splitSources ops sd fuel rest (index + 1) m1 = .ok (ms (rest.length + 1)) ∧ ms 0 = m ∧
        (∀ j c, Live (ms (rest.length + 1)) j c → c.depth ≤ sd) ∧
        ∀ p, p < rest.length + 1 → Splits ops (ms p) (ms (p + 1)) ∧ ((n :: rest).getD p 0 = 0 → ms (p + 1) = ms p) ∧
          (0 < (n :: rest).getD p 0 → ∀ j c, Live (ms (p + 1)) j c → Settled ops sd (index + p) c) := by
      intro m1 h2 h0 h4 h3 h5
      obtain ⟨ms, e1, e2, e3, e4⟩ := ih (index + 1) m1 (hI.splits hg h2) h3 (by omega)
      refine ⟨fun p => if p = 0 then m else ms (p - 1), ?_, rfl, ?_, ?_⟩
      · simpa using e1
      · simpa using e3
      · intro p hp
        cases p with
        | zero => simpa [e2] using ⟨h2, h0, h4⟩
        | succ p =>
          have := e4 p (by omega)
          have e : index + (p + 1) = index + 1 + p := by omega
          rw [e]
          simpa using this
    by_cases hn : n > 0
    · obtain ⟨m1, h1, h2, h3, h4, h5⟩ := splitPass_ok hI hdec sd index fuel 0 m hg hdep (by intro j c h; omega)
        (by simpa using hfuel)
      simp only [hn, if_true, h1, bind, Except.bind, List.length_cons]
      exact step m1 h2 (fun h => by omega) (fun _ => h4) h3 h5
    · simp only [hn, if_false, bind, Except.bind, List.length_cons]
      exact step m (.refl m) (fun _ => rfl) (fun h => (hn h).elim) hdep rfl

/-- More fuel never changes a result. -/
theorem splitPass_mono {ops : DataOps D} {sd index : ℕ} : ∀ (fuel fuel' i : ℕ) (m m' : MeshState D), fuel ≤ fuel' →
    MeshBuilder.splitPass ops sd index fuel i m = .ok m' → MeshBuilder.splitPass ops sd index fuel' i m = .ok m' := by
  intro fuel
  induction fuel with
  | zero => intro fuel' i m m' _ h; cases h
  | succ fuel ih =>
    intro fuel' i m m' hle h
    obtain ⟨f, rfl⟩ : ∃ f, fuel' = f + 1 := ⟨fuel' - 1, by omega⟩
    unfold MeshBuilder.splitPass at h ⊢
    rcases hi : m.cells[i]? with _ | _ | c
    · rw [hi] at h; exact h
    · rw [hi] at h; exact ih f (i + 1) m m' (by omega) h
    · rw [hi] at h
      simp only [bind, Except.bind] at h ⊢
      rcases hs : ops.shouldSplit (index + 1) c.bounds c.data with e | r
      · rw [hs] at h; cases h
      · rw [hs] at h
        simp only at h ⊢
        split at h
        · rename_i hc
          rw [if_pos hc]
          rcases hp : MeshBuilder.splitAndReplace ops m i with e | m1
          · rw [hp] at h; cases h
          · rw [hp] at h
            exact ih f (i + 1) m1 m' (by omega) h
        · rename_i hc
          rw [if_neg hc]
          exact ih f (i + 1) m m' (by omega) h

theorem splitSources_mono {ops : DataOps D} {sd : ℕ} : ∀ (conds : List ℕ) (fuel fuel' index : ℕ) (m m' : MeshState D), fuel ≤ fuel' →
    MeshBuilder.splitSources ops sd fuel conds index m = .ok m' → MeshBuilder.splitSources ops sd fuel' conds index m = .ok m' := by
  intro conds
  induction conds with
  | nil => intro fuel fuel' index m m' _ h; exact h
  | cons n rest ih =>
    intro fuel fuel' index m m' hle h
    unfold MeshBuilder.splitSources at h ⊢
    simp only [bind, Except.bind] at h ⊢
    by_cases hn : n > 0
    · simp only [hn, if_true] at h ⊢
      rcases hp : MeshBuilder.splitPass ops sd index fuel 0 m with e | m1
      · rw [hp] at h; cases h
      · rw [hp] at h
        rw [splitPass_mono fuel fuel' 0 m m1 hle hp]
        exact ih fuel fuel' (index + 1) m1 m' hle h
    · simp only [hn, if_false] at h ⊢
      exact ih fuel fuel' (index + 1) m m' hle h

/-- Whatever the graph does: a pass that ends is a sequence of splits that respects the depth limit. -/
theorem splitPass_sound {ops : DataOps D} {sd index : ℕ} :
    ∀ (fuel i : ℕ) (m m' : MeshState D), (∀ j c, Live m j c → c.depth ≤ sd) →
      MeshBuilder.splitPass ops sd index fuel i m = .ok m' → Splits ops m m' ∧ ∀ j c, Live m' j c → c.depth ≤ sd := by
  intro fuel
  induction fuel with
  | zero => intro i m m' _ h; cases h
  | succ fuel ih =>
    intro i m m' hdep h
    unfold MeshBuilder.splitPass at h
    rcases hi : m.cells[i]? with _ | _ | c
    · rw [hi] at h; cases h; exact ⟨.refl _, hdep⟩
    · rw [hi] at h; exact ih (i + 1) m m' hdep h
    · rw [hi] at h
      have hk : Live m i c := hi
      simp only [bind, Except.bind] at h
      rcases hs : ops.shouldSplit (index + 1) c.bounds c.data with e | r
      · rw [hs] at h; cases h
      · rw [hs] at h
        simp only at h
        split at h
        · rename_i hcond
          rcases hp : MeshBuilder.splitAndReplace ops m i with e | m1
          · rw [hp] at h; cases h
          · rw [hp] at h
            obtain ⟨nw, ne, sw, se, hq, hcells, -, -⟩ := split_list hk hp
            have hdep1 : ∀ j q, Live m1 j q → q.depth ≤ sd := by
              intro j q hl
              have hL := live_after hk nw ne sw se m1.graph j q
              have : Live { m with cells := (m.cells ++ [some nw, some ne, some sw, some se]).set i none, graph := m1.graph } j q := by
                unfold Live at hl ⊢; rw [hcells] at hl; exact hl
              simp only [List.mem_cons, List.not_mem_nil, or_false, forall_eq_or_imp, forall_eq] at hq
              rcases hL.1 this with ⟨-, h⟩ | ⟨-, rfl⟩ | ⟨-, rfl⟩ | ⟨-, rfl⟩ | ⟨-, rfl⟩
              · exact hdep j q h
              · rw [hq.1.1]; exact hcond.1
              · rw [hq.2.1.1]; exact hcond.1
              · rw [hq.2.2.1.1]; exact hcond.1
              · rw [hq.2.2.2.1]; exact hcond.1
            obtain ⟨h1, h2⟩ := ih (i + 1) m1 m' hdep1 h
            exact ⟨splits_trans (.step i (.refl m) hp) h1, h2⟩
        · exact ih (i + 1) m m' hdep h

theorem splitSources_sound {ops : DataOps D} {sd fuel : ℕ} :
    ∀ (conds : List ℕ) (index : ℕ) (m m' : MeshState D), (∀ j c, Live m j c → c.depth ≤ sd) →
      MeshBuilder.splitSources ops sd fuel conds index m = .ok m' → Splits ops m m' ∧ ∀ j c, Live m' j c → c.depth ≤ sd := by
  intro conds
  induction conds with
  | nil => intro index m m' hdep h; cases h; exact ⟨.refl _, hdep⟩
  | cons n rest ih =>
    intro index m m' hdep h
    unfold MeshBuilder.splitSources at h
    simp only [bind, Except.bind] at h
    by_cases hn : n > 0
    · simp only [hn, if_true] at h
      rcases hp : MeshBuilder.splitPass ops sd index fuel 0 m with e | m1
      · rw [hp] at h; cases h
      · rw [hp] at h
        obtain ⟨h1, h2⟩ := splitPass_sound fuel 0 m m1 hdep hp
        obtain ⟨h3, h4⟩ := ih (index + 1) m1 m' h2 h
        exact ⟨splits_trans h1 h3, h4⟩
    · simp only [hn, if_false] at h
      exact ih (index + 1) m m' hdep h

theorem splitToDepth_sound {ops : DataOps D} {sd fuel : ℕ} {m m' : MeshState D} 
    (hdep : ∀ j c, Live m j c → c.depth ≤ sd) (h : MeshBuilder.splitToDepth ops fuel sd m = .ok m') :
    Splits ops m m' ∧ ∀ j c, Live m' j c → c.depth ≤ sd := by
  unfold MeshBuilder.splitToDepth at h
  simp only [bind, Except.bind] at h
  split at h
  · cases h
  · exact splitSources_sound _ 0 m m' hdep h

end Verif
