import Mathlib.Tactic.FieldSimp
import Mathlib.Tactic.Ring
import Verif.Props.EnvQuery
import Verif.Props.EnvSplits

/-!
# Property C36: splitting around points
-/

namespace Verif
open Spec

/-- The rectangle is at the finest level: one side is at most the cell size divided by `2 ^ depth`. -/
def Spec.FineRect (W H : ℚ) (depth : ℕ) (r : Rect) : Prop := r.e - r.w ≤ W / 2 ^ depth ∨ r.n - r.s ≤ H / 2 ^ depth

/-- The point lies on a line that repeated halving of the rectangle can produce. -/
def Spec.OnDyadic (r : Rect) (x y : ℚ) : Prop :=
  ∃ n k : ℕ, x = r.w + k * ((r.e - r.w) / 2 ^ n) ∨ y = r.s + k * ((r.n - r.s) / 2 ^ n)

/-- Meshes reached by splitting only cells with the property `P`. -/
inductive Spec.SplitsWhere (P : AggCell → Prop) : EnvMesh → EnvMesh → Prop
  | refl (m : EnvMesh) : SplitsWhere P m m
  | step {m m' m'' : EnvMesh} (c : AggCell) : SplitsWhere P m m' → c ∈ m'.cells → P c → m'.splitAndReplace c.id = .ok m'' → SplitsWhere P m m''

theorem Spec.SplitsWhere.splits {P : AggCell → Prop} {m m' : EnvMesh} (h : SplitsWhere P m m') : EnvSplits m m' := by
  induction h with
  | refl => exact EnvSplits.refl _
  | step c _ _ _ he ih => exact EnvSplits.step c.id ih he

theorem Spec.SplitsWhere.mono {P Q : AggCell → Prop} (hPQ : ∀ c, P c → Q c) {m m' : EnvMesh} (h : SplitsWhere P m m') : SplitsWhere Q m m' := by
  induction h with
  | refl => exact SplitsWhere.refl _
  | step c _ hc hp he ih => exact SplitsWhere.step c ih hc (hPQ c hp) he

theorem Spec.SplitsWhere.trans {P : AggCell → Prop} {m m' m'' : EnvMesh} (h : SplitsWhere P m m') (h' : SplitsWhere P m' m'') : SplitsWhere P m m'' := by
  induction h' with
  | refl => exact h
  | step c _ hc hp he ih => exact SplitsWhere.step c ih hc hp he

theorem onDyadic_quarter {r : Rect} {q : Spec.Quad} {x y : ℚ} (h : OnDyadic (r.quarter q) x y) : OnDyadic r x y := by
  obtain ⟨n, k, h⟩ := h
  have p2 : (2 : ℚ) ^ n ≠ 0 := by positivity
  rcases h with h | h
  · cases q <;> simp only [Rect.quarter] at h
    · exact ⟨n + 1, k, Or.inl (by rw [h, pow_succ]; field_simp; ring)⟩
    · exact ⟨n + 1, 2 ^ n + k, Or.inl (by rw [h, pow_succ]; push_cast; field_simp; ring)⟩
    · exact ⟨n + 1, k, Or.inl (by rw [h, pow_succ]; field_simp; ring)⟩
    · exact ⟨n + 1, 2 ^ n + k, Or.inl (by rw [h, pow_succ]; push_cast; field_simp; ring)⟩
  · cases q <;> simp only [Rect.quarter] at h
    · exact ⟨n + 1, 2 ^ n + k, Or.inr (by rw [h, pow_succ]; push_cast; field_simp; ring)⟩
    · exact ⟨n + 1, 2 ^ n + k, Or.inr (by rw [h, pow_succ]; push_cast; field_simp; ring)⟩
    · exact ⟨n + 1, k, Or.inr (by rw [h, pow_succ]; field_simp; ring)⟩
    · exact ⟨n + 1, k, Or.inr (by rw [h, pow_succ]; field_simp; ring)⟩

/-- What the splits keep. -/
theorem Spec.SplitsWhere.keeps {P : AggCell → Prop} {m m' : EnvMesh} (hs : SplitsWhere P m m') (h : EnvOK m) (hl : Loaded m) :
    EnvOK m' ∧ Loaded m' ∧ m'.config = m.config ∧ (∀ c ∈ m.cells, ¬ P c → c ∈ m'.cells) ∧
    (∀ c' ∈ m'.cells, c' ∈ m.cells ∨ ∃ c ∈ m.cells, P c ∧ ∀ x y, (rectOf c'.bounds).Mem x y → (rectOf c.bounds).Mem x y) ∧
    (∀ c' ∈ m'.cells, ∃ c ∈ m.cells, ∀ x y, ((rectOf c'.bounds).IMem x y → (rectOf c.bounds).IMem x y) ∧
      (OnDyadic (rectOf c'.bounds) x y → OnDyadic (rectOf c.bounds) x y)) := by
  induction hs with
  | refl => exact ⟨h, hl, rfl, fun c hc _ => hc, fun c hc => Or.inl hc, fun c hc => ⟨c, hc, fun _ _ => ⟨fun h => h, fun h => h⟩⟩⟩
  | step c _ hc hp he ih =>
    rename_i mm m2 hprev
    obtain ⟨i1, i2, i3, i4, i5, i6⟩ := ih
    obtain ⟨m1, f, h1, h2, h3, hcfg, -, -, h5, -, h7⟩ := envSplit_ok mm i1 i2 c hc
    rw [h1] at he
    injection he with he
    subst he
    have hpos := (EnvOK.pos i1 hc).1
    have hq : ∀ q x y, ((rectOf (f q).bounds).Mem x y → (rectOf c.bounds).Mem x y) ∧
        ((rectOf (f q).bounds).IMem x y → (rectOf c.bounds).IMem x y) := by
      intro q x y
      rw [(h7 q).2.1]
      obtain ⟨p1, p2⟩ := hpos
      constructor <;> intro hm <;> cases q <;> simp only [Rect.quarter, Rect.Mem, Rect.IMem] at hm ⊢ <;>
        obtain ⟨a, b, c, d⟩ := hm <;> refine ⟨?_, ?_, ?_, ?_⟩ <;> linarith
    have hcase : ∀ x ∈ m1.cells, (x ∈ mm.cells ∧ x ≠ c) ∨ ∃ q, x = f q := by
      intro x hx
      rw [h5, List.mem_append, List.mem_filter] at hx
      simp only [ne_eq, decide_eq_true_eq, List.mem_cons, List.not_mem_nil, or_false] at hx
      rcases hx with h | h | h | h | h
      · exact Or.inl h
      all_goals exact Or.inr ⟨_, h⟩
    refine ⟨h2, h3, hcfg.trans i3, ?_, ?_, ?_⟩
    · intro x hx hnp
      rw [h5, List.mem_append, List.mem_filter]
      left
      refine ⟨i4 x hx hnp, ?_⟩
      simp only [ne_eq, decide_eq_true_eq]
      rintro rfl
      exact hnp hp
    · intro x hx
      rcases hcase x hx with ⟨hx, -⟩ | ⟨q, rfl⟩
      · exact i5 x hx
      · right
        rcases i5 c hc with hcm | ⟨c0, hc0, hp0, hin⟩
        · exact ⟨c, hcm, hp, fun x y h => (hq q x y).1 h⟩
        · exact ⟨c0, hc0, hp0, fun x y h => hin x y ((hq q x y).1 h)⟩
    · intro x hx
      rcases hcase x hx with ⟨hx, -⟩ | ⟨q, rfl⟩
      · exact i6 x hx
      · obtain ⟨c0, hc0, hin⟩ := i6 c hc
        exact ⟨c0, hc0, fun x y => ⟨fun h => (hin x y).1 ((hq q x y).2 h),
          fun h => (hin x y).2 (onDyadic_quarter (q := q) (by rw [← (h7 q).2.1]; exact h))⟩⟩

/-- `contains_point` on a box that does not cross the antimeridian. -/
theorem containsPoint_imem {c : AggCell} (hp : (rectOf c.bounds).Pos) (p : ℚ × ℚ) :
    c.containsPoint p.1 p.2 = true ↔ (rectOf c.bounds).IMem p.2 p.1 := by
  obtain ⟨h1, h2⟩ := hp
  simp only [rectOf] at h1 h2
  unfold AggCell.containsPoint Boundary.toPolygon
  simp only [h1, if_true, AggCell.polyContains, ringContains_rect h1.le h2.le, Rect.IMem, rectOf]

theorem queryInside_iff {m : EnvMesh} (h : EnvOK m) (p : ℚ × ℚ) :
    m.queryInside p = true ↔ ∃ c ∈ m.cells, (rectOf c.bounds).IMem p.2 p.1 := by
  unfold EnvMesh.queryInside
  rw [List.any_eq_true]
  constructor
  · rintro ⟨c, hc, hp⟩; exact ⟨c, hc, (containsPoint_imem (EnvOK.pos h hc).1 p).1 hp⟩
  · rintro ⟨c, hc, hp⟩; exact ⟨c, hc, (containsPoint_imem (EnvOK.pos h hc).1 p).2 hp⟩

theorem imem_unique {m : EnvMesh} (h : EnvOK m) {c c' : AggCell} (hc : c ∈ m.cells) (hc' : c' ∈ m.cells) {x y : ℚ}
    (hx : (rectOf c.bounds).IMem x y) (hx' : (rectOf c'.bounds).IMem x y) : c = c' := by
  by_contra hne
  have hid : c.id ≠ c'.id := fun e => hne (List.inj_on_of_nodup_map h.ids hc hc' e)
  refine h.graph.disjoint c.id c'.id _ _ hid ((envRect_iff h.ids _ _).2 ⟨c, hc, rfl, rfl⟩) ((envRect_iff h.ids _ _).2 ⟨c', hc', rfl, rfl⟩) ?_
  obtain ⟨a1, a2, a3, a4⟩ := hx
  obtain ⟨b1, b2, b3, b4⟩ := hx'
  exact ⟨by linarith, by linarith, by linarith, by linarith⟩

theorem queryIndex_of_mem {m : EnvMesh} (h : EnvOK m) {c : AggCell} (hc : c ∈ m.cells) {p : ℚ × ℚ}
    (hp : (rectOf c.bounds).IMem p.2 p.1) : m.queryIndex p = .ok c.id := by
  have hpw : m.cells.Pairwise (fun a b => ¬ (a.containsPoint p.1 p.2 = true ∧ b.containsPoint p.1 p.2 = true)) := by
    have := nodup_of_ids h.ids
    refine List.Pairwise.imp_of_mem ?_ this
    intro a b ha hb hne hab
    exact hne (imem_unique h ha hb ((containsPoint_imem (EnvOK.pos h ha).1 p).1 hab.1) ((containsPoint_imem (EnvOK.pos h hb).1 p).1 hab.2))
  have hin : c ∈ m.cells.filter (fun c => c.containsPoint p.1 p.2) := by
    rw [List.mem_filter]; exact ⟨hc, (containsPoint_imem (EnvOK.pos h hc).1 p).2 hp⟩
  unfold EnvMesh.queryIndex
  rcases filter_le_one (fun c : AggCell => c.containsPoint p.1 p.2) m.cells hpw with he | ⟨a, ha, hpa, he⟩
  · rw [he] at hin; simp at hin
  · rw [he] at hin
    simp only [List.mem_singleton] at hin
    subst hin
    rw [he]

theorem queryIndex_none {m : EnvMesh} (h : EnvOK m) {p : ℚ × ℚ} (hp : ¬ ∃ c ∈ m.cells, (rectOf c.bounds).IMem p.2 p.1) :
    m.queryIndex p = .error .exception := by
  have he : m.cells.filter (fun c => c.containsPoint p.1 p.2) = [] := by
    rw [List.filter_eq_nil_iff]
    intro c hc hcp
    exact hp ⟨c, hc, (containsPoint_imem (EnvOK.pos h hc).1 p).1 hcp⟩
  unfold EnvMesh.queryIndex
  rw [he]

/-- A point inside a rectangle is inside one of its quarters or on a middle line. -/
theorem imem_quarter {r : Rect} {x y : ℚ} (h : r.IMem x y) : (∃ q, (r.quarter q).IMem x y) ∨ OnDyadic r x y := by
  obtain ⟨h1, h2, h3, h4⟩ := h
  rcases lt_trichotomy x ((r.w + r.e) / 2) with hx | hx | hx
  · rcases lt_trichotomy y ((r.s + r.n) / 2) with hy | hy | hy
    · exact Or.inl ⟨.sw, h1, hx, h3, hy⟩
    · exact Or.inr ⟨1, 1, Or.inr (by rw [hy]; push_cast; ring)⟩
    · exact Or.inl ⟨.nw, h1, hx, hy, h4⟩
  · exact Or.inr ⟨1, 1, Or.inl (by rw [hx]; push_cast; ring)⟩
  · rcases lt_trichotomy y ((r.s + r.n) / 2) with hy | hy | hy
    · exact Or.inl ⟨.se, hx, h2, h3, hy⟩
    · exact Or.inr ⟨1, 1, Or.inr (by rw [hy]; push_cast; ring)⟩
    · exact Or.inl ⟨.ne, hx, h2, hy, h4⟩

/-- The cells that splitting around `p` may split. -/
def Splittable (m : EnvMesh) (depth : ℕ) (p : ℚ × ℚ) (c : AggCell) : Prop :=
  ¬ FineRect m.config.cellWidth m.config.cellHeight depth (rectOf c.bounds) ∧ (rectOf c.bounds).IMem p.2 p.1

/-- The `while` loop for one point. -/
theorem splitLoop_ok (depth : ℕ) (p : ℚ × ℚ) (N : ℕ) : ∀ (m : EnvMesh) (_ : EnvOK m) (_ : Loaded m) (_ : m.config.splitDepth = some depth)
    (c : AggCell) (_ : c ∈ m.cells) (_ : (rectOf c.bounds).IMem p.2 p.1)
    (_ : (rectOf c.bounds).e - (rectOf c.bounds).w ≤ m.config.cellWidth / 2 ^ depth * 2 ^ N) (fuel : ℕ) (_ : N < fuel),
    (∃ m', EnvMesh.splitLoop fuel m p = .ok m' ∧ SplitsWhere (Splittable m depth p) m m' ∧
      ∃ c' ∈ m'.cells, (rectOf c'.bounds).IMem p.2 p.1 ∧ FineRect m.config.cellWidth m.config.cellHeight depth (rectOf c'.bounds)) ∨
    (EnvMesh.splitLoop fuel m p = .error .exception ∧ OnDyadic (rectOf c.bounds) p.2 p.1) := by
  induction N with
  | zero =>
    intro m h hl hd c hc hp hw fuel hf
    obtain ⟨fuel, rfl⟩ : ∃ k, fuel = k + 1 := ⟨fuel - 1, by omega⟩
    have hpos := (EnvOK.pos h hc).1
    have hwd := width_of_lt hpos.1
    left
    rw [pow_zero, mul_one] at hw
    refine ⟨m, ?_, SplitsWhere.refl _, c, hc, hp, Or.inl hw⟩
    have hwd' : c.bounds.width = (rectOf c.bounds).e - (rectOf c.bounds).w := hwd
    have hfine : c.bounds.width ≤ m.config.cellWidth / 2 ^ depth ∨ c.bounds.height ≤ m.config.cellHeight / 2 ^ depth := Or.inl (by rw [hwd']; exact hw)
    unfold EnvMesh.splitLoop EnvMesh.splitLoc
    simp only [queryIndex_of_mem h hc hp, getCellbox_mem h.ids hc, hd, bind, Except.bind, if_pos hfine, pure, Except.pure]
    rfl
  | succ N ih =>
    intro m h hl hd c hc hp hw fuel hf
    obtain ⟨fuel, rfl⟩ : ∃ k, fuel = k + 1 := ⟨fuel - 1, by omega⟩
    have hpos := (EnvOK.pos h hc).1
    have hwd : c.bounds.width = (rectOf c.bounds).e - (rectOf c.bounds).w := width_of_lt hpos.1
    have hht : c.bounds.height = (rectOf c.bounds).n - (rectOf c.bounds).s := rfl
    by_cases hfine : c.bounds.width ≤ m.config.cellWidth / 2 ^ depth ∨ c.bounds.height ≤ m.config.cellHeight / 2 ^ depth
    · left
      refine ⟨m, ?_, SplitsWhere.refl _, c, hc, hp, by rw [hwd, hht] at hfine; exact hfine⟩
      unfold EnvMesh.splitLoop EnvMesh.splitLoc
      simp only [queryIndex_of_mem h hc hp, getCellbox_mem h.ids hc, hd, bind, Except.bind, if_pos hfine, pure, Except.pure]
      rfl
    · obtain ⟨m1, f, h1, h2, h3, hcfg, -, -, h5, -, h7⟩ := envSplit_ok m h hl c hc
      have hstep : EnvMesh.splitLoop (fuel + 1) m p = EnvMesh.splitLoop fuel m1 p := by
        conv_lhs => unfold EnvMesh.splitLoop EnvMesh.splitLoc
        simp only [queryIndex_of_mem h hc hp, getCellbox_mem h.ids hc, hd, bind, Except.bind, if_neg hfine, pure, Except.pure, h1]
        rfl
      have hS : Splittable m depth p c := ⟨by rw [hwd, hht] at hfine; exact hfine, hp⟩
      have hs1 : SplitsWhere (Splittable m depth p) m m1 := SplitsWhere.step c (SplitsWhere.refl m) hc hS h1
      have hfm : ∀ q, f q ∈ m1.cells := by
        intro q
        rw [h5, List.mem_append]
        right; cases q <;> simp
      rw [hstep]
      by_cases hqe : ∃ q, ((rectOf c.bounds).quarter q).IMem p.2 p.1
      · obtain ⟨q, hq⟩ := hqe
        have hsz : (rectOf (f q).bounds).e - (rectOf (f q).bounds).w = ((rectOf c.bounds).e - (rectOf c.bounds).w) / 2 := by
          rw [(h7 q).2.1]
          cases q <;> simp only [Rect.quarter] <;> ring
        rcases ih m1 h2 h3 (by rw [hcfg]; exact hd) (f q) (hfm q) (by rw [(h7 q).2.1]; exact hq)
          (by rw [hsz, hcfg]; rw [pow_succ] at hw; linarith) fuel (by omega) with ⟨m', g1, g2, g3⟩ | ⟨g1, g2⟩
        · left
          refine ⟨m', g1, hs1.trans (g2.mono ?_), by rw [hcfg] at g3; exact g3⟩
          intro x hx
          unfold Splittable at hx ⊢
          rw [hcfg] at hx
          exact hx
        · right
          refine ⟨g1, ?_⟩
          rw [(h7 q).2.1] at g2
          exact onDyadic_quarter g2
      · right
        refine ⟨?_, (imem_quarter hp).resolve_left hqe⟩
        have hin : ¬ ∃ x ∈ m1.cells, (rectOf x.bounds).IMem p.2 p.1 := by
          rintro ⟨x, hx, hxp⟩
          rw [h5, List.mem_append, List.mem_filter] at hx
          simp only [ne_eq, decide_eq_true_eq, List.mem_cons, List.not_mem_nil, or_false] at hx
          rcases hx with ⟨hx, hne⟩ | hx
          · exact hne (imem_unique h hx hc hxp hp)
          · have : ∃ q, x = f q := by rcases hx with h | h | h | h <;> exact ⟨_, h⟩
            obtain ⟨q, rfl⟩ := this
            rw [(h7 q).2.1] at hxp
            exact hqe ⟨q, hxp⟩
        obtain ⟨fuel, rfl⟩ : ∃ k, fuel = k + 1 := ⟨fuel - 1, by omega⟩
        unfold EnvMesh.splitLoop EnvMesh.splitLoc
        rw [queryIndex_none h2 hin]
        rfl

theorem exists_pow_ge {a b : ℚ} (ha : 0 < a) : ∃ N : ℕ, b ≤ a * 2 ^ N := by
  obtain ⟨N, hN⟩ : ∃ N : ℕ, b / a ≤ N := ⟨⌈b / a⌉₊, Nat.le_ceil _⟩
  refine ⟨N, ?_⟩
  have h2 : (N : ℚ) ≤ 2 ^ N := by exact_mod_cast Nat.lt_two_pow_self.le
  have : b / a ≤ 2 ^ N := le_trans hN h2
  rw [div_le_iff₀ ha] at this
  linarith

/-- Splitting around a list of points. -/
theorem splitPoints_ok (depth N : ℕ) (W H : ℚ) (hN : 360 ≤ W / 2 ^ depth * 2 ^ N) (fuel : ℕ) (hf : N < fuel) (pts : List (ℚ × ℚ)) :
    ∀ (m : EnvMesh) (_ : EnvOK m) (_ : Loaded m) (_ : m.config.splitDepth = some depth) (_ : m.config.cellWidth = W) (_ : m.config.cellHeight = H),
    (∃ m', EnvMesh.splitPoints fuel m pts = .ok m' ∧ SplitsWhere (fun c => ∃ p ∈ pts, Splittable m depth p c) m m' ∧
      ∀ p ∈ pts, ∀ c' ∈ m'.cells, (rectOf c'.bounds).IMem p.2 p.1 → FineRect W H depth (rectOf c'.bounds)) ∨
    (EnvMesh.splitPoints fuel m pts = .error .exception ∧
      ∃ p ∈ pts, ∃ c ∈ m.cells, (rectOf c.bounds).IMem p.2 p.1 ∧ OnDyadic (rectOf c.bounds) p.2 p.1) := by
  induction pts with
  | nil =>
    intro m h hl hd hw hh
    left
    exact ⟨m, rfl, SplitsWhere.refl _, by simp⟩
  | cons p ps ih =>
    intro m h hl hd hw hh
    have hunf : ∀ m : EnvMesh, EnvMesh.splitPoints fuel m (p :: ps) =
        (if m.queryInside p then EnvMesh.splitLoop fuel m p else .ok m) >>= fun m => EnvMesh.splitPoints fuel m ps := fun _ => rfl
    rw [hunf]
    by_cases hq : m.queryInside p = true
    · obtain ⟨c, hc, hp⟩ := (queryInside_iff h p).1 hq
      have hsize : (rectOf c.bounds).e - (rectOf c.bounds).w ≤ m.config.cellWidth / 2 ^ depth * 2 ^ N := by
        obtain ⟨-, h1, h2, -⟩ := EnvOK.pos h hc
        rw [hw]
        refine le_trans ?_ hN
        linarith
      rw [if_pos hq]
      rcases splitLoop_ok depth p N m h hl hd c hc hp hsize fuel hf with ⟨m1, g1, g2, c1, hc1, hp1, hf1⟩ | ⟨g1, g2⟩
      · rw [g1]
        obtain ⟨k1, k2, k3, k4, k5, k6⟩ := g2.keeps h hl
        simp only [bind, Except.bind]
        rcases ih m1 k1 k2 (by rw [k3]; exact hd) (by rw [k3]; exact hw) (by rw [k3]; exact hh) with ⟨m', e1, e2, e3⟩ | ⟨e1, p', hp', c', hc', e2, e3⟩
        · left
          refine ⟨m', e1, (g2.mono fun c hc => ⟨p, by simp, hc⟩).trans (e2.mono ?_), ?_⟩
          · rintro x ⟨q, hq, hx⟩
            refine ⟨q, by simp [hq], ?_⟩
            unfold Splittable at hx ⊢
            rw [k3] at hx
            exact hx
          · intro q hq c' hc' hin
            rcases List.mem_cons.1 hq with rfl | hq
            · obtain ⟨l1, -, -, l4, -⟩ := e2.keeps k1 k2
              have hfine : FineRect W H depth (rectOf c1.bounds) := by rw [← hw, ← hh]; exact hf1
              have hkeep : c1 ∈ m'.cells := by
                refine l4 c1 hc1 ?_
                rintro ⟨q', -, hns, -⟩
                rw [k3] at hns
                exact hns hf1
              rw [imem_unique l1 hc' hkeep hin hp1]
              exact hfine
            · exact e3 q hq c' hc' hin
        · right
          obtain ⟨c0, hc0, hh0⟩ := k6 c' hc'
          exact ⟨e1, p', by simp [hp'], c0, hc0, (hh0 _ _).1 e2, (hh0 _ _).2 e3⟩
      · right
        rw [g1]
        exact ⟨rfl, p, by simp, c, hc, hp, g2⟩
    · rw [if_neg hq]
      simp only [bind, Except.bind]
      rcases ih m h hl hd hw hh with ⟨m', e1, e2, e3⟩ | ⟨e1, p', hp', rest⟩
      · left
        refine ⟨m', e1, e2.mono ?_, ?_⟩
        · rintro x ⟨q, hq, hx⟩
          exact ⟨q, by simp [hq], hx⟩
        · intro q hq' c' hc' hin
          rcases List.mem_cons.1 hq' with rfl | hq'
          · obtain ⟨-, -, -, -, -, l6⟩ := e2.keeps h hl
            obtain ⟨c0, hc0, hh0⟩ := l6 c' hc'
            exact absurd ((queryInside_iff h q).2 ⟨c0, hc0, (hh0 _ _).1 hin⟩) hq
          · exact e3 q hq' c' hc' hin
      · right
        exact ⟨e1, p', by simp [hp'], rest⟩

/-- C36 (partial): splitting a consistent loaded mesh around any list of points terminates.  Unless a
point lies on a line that repeated halving of its cell can produce, it succeeds; if it succeeds, every
given point that is strictly inside a cell of the new mesh is inside a cell at the finest level; the new
mesh is consistent and tiles the same region; and a cell is unchanged if it is at the finest level
already or contains none of the points.  The only exception that can occur is the "not within the mesh"
of a point on a halving line (`C36_midpoint_false`). -/
theorem C36_points_partial (m : EnvMesh) (h : EnvOK m) (hl : Loaded m) (b : Boundary) (ht : EnvTiles m b) (depth : ℕ)
    (hd : m.config.splitDepth = some depth) (hW : 0 < m.config.cellWidth) (pts : List (ℚ × ℚ)) :
    ∃ N, ∀ fuel, N ≤ fuel →
      ((∀ p ∈ pts, ∀ c ∈ m.cells, (rectOf c.bounds).IMem p.2 p.1 → ¬ OnDyadic (rectOf c.bounds) p.2 p.1) →
        ∃ m', EnvMesh.splitPoints fuel m pts = .ok m') ∧
      (∀ e, EnvMesh.splitPoints fuel m pts = .error e → e = .exception) ∧
      ∀ m', EnvMesh.splitPoints fuel m pts = .ok m' →
        EnvOK m' ∧ EnvTiles m' b ∧
        (∀ p ∈ pts, ∀ c ∈ m'.cells, (rectOf c.bounds).IMem p.2 p.1 → FineRect m.config.cellWidth m.config.cellHeight depth (rectOf c.bounds)) ∧
        (∀ c ∈ m.cells, (∀ p ∈ pts, ¬ (rectOf c.bounds).IMem p.2 p.1) → c ∈ m'.cells) ∧
        (∀ c ∈ m.cells, FineRect m.config.cellWidth m.config.cellHeight depth (rectOf c.bounds) → c ∈ m'.cells) ∧
        (∀ c' ∈ m'.cells, c' ∈ m.cells ∨ ∃ c ∈ m.cells, (∃ p ∈ pts, (rectOf c.bounds).IMem p.2 p.1) ∧
          ∀ x y, (rectOf c'.bounds).Mem x y → (rectOf c.bounds).Mem x y) := by
  obtain ⟨N, hN⟩ := exists_pow_ge (a := m.config.cellWidth / 2 ^ depth) (b := 360) (by positivity)
  refine ⟨N + 1, fun fuel hf => ?_⟩
  rcases splitPoints_ok depth N m.config.cellWidth m.config.cellHeight hN fuel (by omega) pts m h hl hd rfl rfl with ⟨m1, e1, e2, e3⟩ | ⟨e1, p, hp, c, hc, e2, e3⟩
  · rw [e1]
    refine ⟨fun _ => ⟨m1, rfl⟩, fun e he => (by cases he), ?_⟩
    intro m' he
    injection he with he
    subst he
    obtain ⟨k1, k2, k3, k4, k5, k6⟩ := e2.keeps h hl
    refine ⟨k1, (C37_sequences m h hl b ht _ e2.splits).2.2.1, e3, ?_, ?_, ?_⟩
    · intro c hc hno
      refine k4 c hc ?_
      rintro ⟨p, hp, -, hin⟩
      exact hno p hp hin
    · intro c hc hfine
      refine k4 c hc ?_
      rintro ⟨p, hp, hnf, -⟩
      exact hnf hfine
    · intro c' hc'
      rcases k5 c' hc' with h | ⟨c, hc, ⟨p, hp, -, hin⟩, hsub⟩
      · exact Or.inl h
      · exact Or.inr ⟨c, hc, ⟨p, hp, hin⟩, hsub⟩
  · rw [e1]
    refine ⟨fun hno => absurd e3 (hno p hp c hc e2), fun e he => by cases he; rfl, fun m' he => by cases he⟩

/-- **C36 is false for points on a halving line**: a point in the middle of any cell that is not at the
finest level makes the call raise, for every consistent mesh. -/
theorem C36_midpoint_false (m : EnvMesh) (h : EnvOK m) (hl : Loaded m) (depth : ℕ) (hd : m.config.splitDepth = some depth)
    (c : AggCell) (hc : c ∈ m.cells) (hn : ¬ FineRect m.config.cellWidth m.config.cellHeight depth (rectOf c.bounds)) (fuel : ℕ) (pts : List (ℚ × ℚ)) :
    EnvMesh.splitPoints (fuel + 2) m (((c.bounds.latMin + c.bounds.latMax) / 2, (c.bounds.longMin + c.bounds.longMax) / 2) :: pts) =
      .error .exception := by
  set p : ℚ × ℚ := ((c.bounds.latMin + c.bounds.latMax) / 2, (c.bounds.longMin + c.bounds.longMax) / 2) with hpdef
  have hpos := (EnvOK.pos h hc).1
  have hp : (rectOf c.bounds).IMem p.2 p.1 := by
    obtain ⟨h1, h2⟩ := hpos
    simp only [rectOf] at h1 h2
    simp only [rectOf, Rect.IMem, hpdef]
    refine ⟨?_, ?_, ?_, ?_⟩ <;> linarith
  have hwd : c.bounds.width = (rectOf c.bounds).e - (rectOf c.bounds).w := width_of_lt hpos.1
  have hht : c.bounds.height = (rectOf c.bounds).n - (rectOf c.bounds).s := rfl
  have hfine : ¬ (c.bounds.width ≤ m.config.cellWidth / 2 ^ depth ∨ c.bounds.height ≤ m.config.cellHeight / 2 ^ depth) := by
    rw [hwd, hht]; exact hn
  obtain ⟨m1, f, h1, h2, h3, hcfg, -, -, h5, -, h7⟩ := envSplit_ok m h hl c hc
  have hin : ¬ ∃ x ∈ m1.cells, (rectOf x.bounds).IMem p.2 p.1 := by
    rintro ⟨x, hx, hxp⟩
    rw [h5, List.mem_append, List.mem_filter] at hx
    simp only [ne_eq, decide_eq_true_eq, List.mem_cons, List.not_mem_nil, or_false] at hx
    rcases hx with ⟨hx, hne⟩ | hx
    · exact hne (imem_unique h hx hc hxp hp)
    · have : ∃ q, x = f q := by rcases hx with h | h | h | h <;> exact ⟨_, h⟩
      obtain ⟨q, rfl⟩ := this
      rw [(h7 q).2.1] at hxp
      cases q <;> simp [Rect.quarter, Rect.IMem, rectOf, hpdef] at hxp
  have hq : m.queryInside p = true := (queryInside_iff h p).2 ⟨c, hc, hp⟩
  have hloop : EnvMesh.splitLoop (fuel + 2) m p = .error .exception := by
    have hstep : EnvMesh.splitLoop (fuel + 2) m p = EnvMesh.splitLoop (fuel + 1) m1 p := by
      conv_lhs => unfold EnvMesh.splitLoop EnvMesh.splitLoc
      simp only [queryIndex_of_mem h hc hp, getCellbox_mem h.ids hc, hd, bind, Except.bind, if_neg hfine, pure, Except.pure, h1]
      rfl
    rw [hstep]
    unfold EnvMesh.splitLoop EnvMesh.splitLoc
    rw [queryIndex_none h2 hin]
    rfl
  have : EnvMesh.splitPoints (fuel + 2) m (p :: pts) = (if m.queryInside p then EnvMesh.splitLoop (fuel + 2) m p else .ok m) >>= fun m => EnvMesh.splitPoints (fuel + 2) m pts := rfl
  rw [this, if_pos hq, hloop]
  rfl

/-- The hypotheses hold for the loaded example, and a point off the halving lines is brought into a
cell of the finest level. -/
example : ∃ m, exLoaded = .ok m ∧ EnvOK m ∧ Loaded m ∧ EnvTiles m exRegion ∧ m.config.splitDepth = some 3 ∧ 0 < m.config.cellWidth := by
  obtain ⟨m, h1, h2, h3, h4, -, h6, -⟩ := exLoaded_ok
  exact ⟨m, h1, h2, h3, h4, by rw [h6]; rfl, by rw [h6]; norm_num [exConfig]⟩

/-- The example mesh split around two points, one of them outside. -/
def exPoints : Py EnvMesh := do
  let m ← exLoaded
  EnvMesh.splitPoints 10 m [(-52, 19/3), (0, 0)]

/-- The finest cell has the size 5/4 x 5/8. -/
example : (exPoints.map (fun m => (m.cells.length, (m.queryIndex (-52, 19/3)).map (fun i => envRect m i))) : Py (ℕ × Py (Option Rect))) =
    .ok (19, .ok (some ⟨25/4, 15/2, -105/2, -415/8⟩)) ∧
    FineRect 10 5 3 ⟨25/4, 15/2, -105/2, -415/8⟩ := by
  refine ⟨by decide +kernel, Or.inl (by norm_num)⟩

end Verif
