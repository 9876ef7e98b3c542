import Mathlib.Data.List.Nodup
import Verif.Proof.MeshInit
import Verif.Model.EnvMesh

/-!
# The keys of the neighbour graph stay unique

A Python `dict` has unique keys; the association lists of the model keep this property.
-/

namespace Verif
open Spec

namespace Dict
variable {K V : Type} [DecidableEq K]

theorem keys_set (d : Dict K V) (k : K) (v : V) : (d.set k v).map Prod.fst = if k ∈ d.map Prod.fst then d.map Prod.fst else d.map Prod.fst ++ [k] := by
  induction d with
  | nil => simp [set]
  | cons p r ih =>
    obtain ⟨a, b⟩ := p
    by_cases h : a = k
    · subst h; simp [set]
    · have h' : ¬ k = a := fun e => h e.symm
      simp only [set, if_neg h, List.map_cons, ih, List.mem_cons, h', false_or]
      by_cases hm : k ∈ List.map Prod.fst r <;> simp [hm]

theorem nodup_set {d : Dict K V} (h : (d.map Prod.fst).Nodup) (k : K) (v : V) : ((d.set k v).map Prod.fst).Nodup := by
  rw [keys_set]
  split
  · exact h
  · rename_i hk
    rw [List.nodup_append]
    refine ⟨h, by simp, ?_⟩
    rintro a ha b hb rfl
    simp only [List.mem_singleton] at hb
    exact hk (hb ▸ ha)

theorem del_sublist (d : Dict K V) (k : K) : (d.del k).Sublist d := by
  induction d with
  | nil => exact List.Sublist.refl _
  | cons p r ih =>
    obtain ⟨a, b⟩ := p
    by_cases h : a = k
    · simp only [del, if_pos h]; exact ih.cons _
    · simp only [del, if_neg h]; exact ih.cons_cons _

theorem nodup_del {d : Dict K V} (h : (d.map Prod.fst).Nodup) (k : K) : ((d.del k).map Prod.fst).Nodup :=
  List.Nodup.sublist ((del_sublist d k).map _) h

theorem nodup_foldl_set {α : Type} (f : α → K) (v : α → V) (l : List α) {d : Dict K V} (h : (d.map Prod.fst).Nodup) :
    ((l.foldl (fun acc p => acc.set (f p) (v p)) d).map Prod.fst).Nodup := by
  induction l generalizing d with
  | nil => exact h
  | cons p l ih => exact ih (nodup_set h _ _)

/-- Inserting the entries of a dict with new keys appends them. -/
theorem foldl_set_append {α : Type} (f : α → K) (v : α → V) (l : List α) (d : Dict K V) (hl : (l.map f).Nodup)
    (hd : ∀ p ∈ l, f p ∉ d.map Prod.fst) :
    l.foldl (fun acc p => acc.set (f p) (v p)) d = d ++ l.map (fun p => (f p, v p)) := by
  induction l generalizing d with
  | nil => simp
  | cons p l ih =>
    rw [List.map_cons] at hl
    obtain ⟨h1, h2⟩ := List.nodup_cons.1 hl
    have hset : d.set (f p) (v p) = d ++ [(f p, v p)] := by
      have := hd p (by simp)
      clear ih hl hd h1 h2
      induction d with
      | nil => rfl
      | cons q r ih =>
        obtain ⟨a, b⟩ := q
        have h' : ¬ a = f p := fun e => this (by simp [e])
        simp only [set, if_neg h', List.cons_append]
        rw [ih (fun hm => this (by simp [List.mem_cons, hm]))]
    rw [List.foldl_cons, hset, ih _ h2]
    · simp
    · intro q hq
      have hq' := hd q (by simp [hq])
      rw [List.map_append, List.mem_append]
      rintro (hm | hm)
      · exact hq' hm
      · simp only [List.map_cons, List.map_nil, List.mem_singleton] at hm
        exact h1 (by rw [← hm]; exact List.mem_map_of_mem hq)

theorem get?_eq_some_iff_mem {d : Dict K V} (h : (d.map Prod.fst).Nodup) (k : K) (v : V) : d.get? k = some v ↔ (k, v) ∈ d := by
  induction d with
  | nil => simp [get?]
  | cons p r ih =>
    obtain ⟨a, b⟩ := p
    obtain ⟨h1, h2⟩ := List.nodup_cons.1 (by simpa using h : (a :: List.map Prod.fst r).Nodup)
    by_cases he : a = k
    · subst he
      simp only [get?, if_pos, List.mem_cons, Prod.mk.injEq, true_and]
      constructor
      · intro h; left; simpa using h.symm
      · rintro (rfl | hm)
        · rfl
        · exact absurd (List.mem_map_of_mem (f := Prod.fst) hm) h1
    · have : ¬ k = a := fun e => he e.symm
      simp only [get?, if_neg he, ih h2, List.mem_cons, Prod.mk.injEq, this, false_and, false_or]

end Dict

/-- The node keys of the graph are unique. -/
def Graph.KeysNodup (g : Graph) : Prop := (g.nodes.map Prod.fst).Nodup

/-- Whatever graph the computation returns has unique keys. -/
def KeepsKeys (r : Py Graph) : Prop := ∀ g', r = .ok g' → g'.KeysNodup

theorem keeps_ok {g : Graph} (h : g.KeysNodup) : KeepsKeys (.ok g) := by
  intro g' e; cases e; exact h

theorem keeps_bind {r : Py Graph} {f : Graph → Py Graph} (h : KeepsKeys r) (hf : ∀ g, g.KeysNodup → KeepsKeys (f g)) :
    KeepsKeys (r >>= f) := by
  intro g' e
  cases r with
  | error x => cases e
  | ok g => exact hf g (h g rfl) g' e

theorem keeps_bind_any {α : Type} {r : Py α} {f : α → Py Graph} (hf : ∀ a, KeepsKeys (f a)) : KeepsKeys (r >>= f) := by
  intro g' e
  cases r with
  | error x => cases e
  | ok a => exact hf a g' e

theorem keeps_foldlM {α : Type} {step : Graph → α → Py Graph} (h : ∀ g a, g.KeysNodup → KeepsKeys (step g a)) (l : List α) :
    ∀ g : Graph, g.KeysNodup → KeepsKeys (l.foldlM step g) := by
  induction l with
  | nil => intro g hg; exact keeps_ok hg
  | cons a l ih =>
    intro g hg
    rw [List.foldlM_cons]
    exact keeps_bind (h g a hg) ih

theorem keeps_modify {g : Graph} (hg : g.KeysNodup) (i : ℕ) (f : NMap → Py NMap) :
    KeepsKeys (do let ns ← g.nodes.modifyM i f; return { g with nodes := ns }) := by
  intro g' e
  unfold Dict.modifyM at e
  split at e
  · rename_i v hv
    rcases hf : f v with er | v'
    · simp [hf, bind, Except.bind] at e
    · simp only [hf, bind, Except.bind, pure, Except.pure, Except.ok.injEq] at e
      subst e
      exact Dict.nodup_set hg _ _
  · cases e

theorem keeps_addNeighbour {g : Graph} (hg : g.KeysNodup) (i : ℕ) (d : Dir) (x : ℕ) : KeepsKeys (g.addNeighbour i d x) :=
  keeps_modify hg _ _
theorem keeps_updateNeighbour {g : Graph} (hg : g.KeysNodup) (i : ℕ) (d : Dir) (l : List ℕ) : KeepsKeys (g.updateNeighbour i d l) :=
  keeps_modify hg _ _
theorem keeps_removeNeighbour {g : Graph} (hg : g.KeysNodup) (i : ℕ) (d : Dir) (x : ℕ) : KeepsKeys (g.removeNeighbour i d x) :=
  keeps_modify hg _ _
theorem keeps_addNode {g : Graph} (hg : g.KeysNodup) (i : ℕ) (m : NMap) : (g.addNode i m).KeysNodup := Dict.nodup_set hg _ _

theorem keeps_removeNode {g : Graph} (hg : g.KeysNodup) (i : ℕ) : KeepsKeys (g.removeNode i) := by
  intro g' e
  unfold Graph.removeNode Dict.pop at e
  split at e
  · simp only [bind, Except.bind, pure, Except.pure, Except.ok.injEq] at e
    subst e
    exact Dict.nodup_del hg _
  · cases e

theorem keeps_removeNodeFromNeighbours {g : Graph} (hg : g.KeysNodup) (i : ℕ) (d : Dir) :
    KeepsKeys (g.removeNodeFromNeighbours i d) :=
  keeps_bind_any (fun l => keeps_foldlM (fun _ _ h => keeps_removeNeighbour h _ _ _) l g hg)

theorem keeps_removeNodeAndUpdate {g : Graph} (hg : g.KeysNodup) (i : ℕ) : KeepsKeys (g.removeNodeAndUpdateNeighbours i) :=
  keeps_bind (keeps_foldlM (fun _ _ h => keeps_removeNodeFromNeighbours h _ _) _ g hg) (fun _ h => keeps_removeNode h _)

theorem keeps_appendCase {bnd : ℕ → Py Boundary} {g : Graph} (hg : g.KeysNodup) (i n : ℕ) : KeepsKeys (Graph.appendCase bnd g i n) := by
  unfold Graph.appendCase
  refine keeps_bind_any (fun c => ?_)
  cases c with
  | none => exact keeps_ok hg
  | some e => exact keeps_addNeighbour hg _ _ _

theorem keeps_updateNeighbours {bnd : ℕ → Py Boundary} {g : Graph} (hg : g.KeysNodup) (k n0 n1 : ℕ) (d : Dir) :
    KeepsKeys (Graph.updateNeighbours bnd g k n0 n1 d) := by
  unfold Graph.updateNeighbours
  refine keeps_bind (keeps_removeNodeFromNeighbours hg _ _) (fun g hg => keeps_bind_any (fun l => ?_))
  exact keeps_foldlM (fun g a h => keeps_bind (keeps_appendCase h _ _) (fun g h => keeps_appendCase h _ _)) l g hg

theorem keeps_updateCorner {g : Graph} (hg : g.KeysNodup) (k : ℕ) (d : Dir) (n : ℕ) : KeepsKeys (Graph.updateCorner g k d n) := by
  unfold Graph.updateCorner
  refine keeps_bind_any (fun l => ?_)
  cases l with
  | nil => exact keeps_ok hg
  | cons i l => exact keeps_updateNeighbour hg _ _ _

theorem keeps_splitGraph {bnd : ℕ → Py Boundary} {g : Graph} (hg : g.KeysNodup) (k nw ne sw se : ℕ) :
    KeepsKeys (MeshBuilder.splitGraph bnd g k nw ne sw se) := by
  unfold MeshBuilder.splitGraph
  refine keeps_bind_any fun _ => keeps_bind_any fun _ => keeps_bind_any fun _ => keeps_bind_any fun _ => ?_
  refine keeps_bind_any fun _ => keeps_bind_any fun _ => keeps_bind_any fun _ => keeps_bind_any fun _ => ?_
  refine keeps_bind_any fun _ => keeps_bind_any fun _ => keeps_bind_any fun _ => keeps_bind_any fun _ => ?_
  refine keeps_bind (keeps_updateNeighbours (keeps_addNode (keeps_addNode (keeps_addNode (keeps_addNode hg _ _) _ _) _ _) _ _) _ _ _ _)
    fun _ h => ?_
  refine keeps_bind (keeps_updateNeighbours h _ _ _ _) fun _ h => keeps_bind (keeps_updateNeighbours h _ _ _ _) fun _ h =>
    keeps_bind (keeps_updateNeighbours h _ _ _ _) fun _ h => keeps_bind ?_ fun _ h => keeps_removeNode h _
  exact keeps_bind (keeps_updateCorner h _ _ _) fun _ h => keeps_bind (keeps_updateCorner h _ _ _) fun _ h =>
    keeps_bind (keeps_updateCorner h _ _ _) fun _ h => keeps_updateCorner h _ _ _

theorem keeps_globalStep (mins maxs : List ℕ) {g : Graph} (hg : g.KeysNodup) (i : ℕ) : KeepsKeys (MeshBuilder.globalStep mins maxs g i) := by
  unfold MeshBuilder.globalStep
  refine keeps_bind_any fun _ => keeps_bind_any fun _ => keeps_bind (keeps_addNeighbour hg _ _ _) fun _ h =>
    keeps_bind (keeps_addNeighbour h _ _ _) fun _ h => ?_
  have jp : ∀ (x y : ℕ) (g : Graph), g.KeysNodup → KeepsKeys (if 0 < i then do
        let hi' ← (fun (l : List ℕ) (i : ℕ) => match l[i]? with
                | some x => (Except.ok x : Py ℕ)
                | none => Except.error Err.indexError) maxs (i - 1)
        let lo' ← (fun (l : List ℕ) (i : ℕ) => match l[i]? with
                | some x => (Except.ok x : Py ℕ)
                | none => Except.error Err.indexError) mins (i - 1)
        let g ← g.addNeighbour x Dir.southWest hi'
        g.addNeighbour y Dir.southEast lo'
      else pure g) := by
    intro x y g h
    split
    · exact keeps_bind_any fun _ => keeps_bind_any fun _ => keeps_bind (keeps_addNeighbour h _ _ _) fun _ h => keeps_addNeighbour h _ _ _
    · exact keeps_ok h
  intro g' e
  simp only at e
  split at e
  · revert e
    revert g'
    exact keeps_bind_any fun _ => keeps_bind_any fun _ => keeps_bind (keeps_addNeighbour h _ _ _) fun _ h =>
      keeps_bind (keeps_addNeighbour h _ _ _) fun _ h => jp _ _ _ h
  · exact jp _ _ _ h _ e

variable {D : Type}

/-- Every reachable mesh has unique node keys. -/
theorem reach_keys {ops : DataOps D} {b : Boundary} {W H : ℚ} {initData : Boundary → D} {depth : ℕ} {m : MeshState D}
    (h : Reach ops b W H initData depth m) : m.graph.KeysNodup := by
  obtain ⟨m0, h0, hs⟩ := h
  have base : m0.graph.KeysNodup := by
    obtain ⟨boxes, g, glob, hval, hboxes, hcg, rfl⟩ := init_inv h0
    have hi : (Graph.initialise boxes.length (b.width / W)).KeysNodup :=
      Dict.nodup_foldl_set (fun i => i) (fun i => Graph.initialiseMap i (b.width / W) boxes.length) _ (by simp)
    show g.KeysNodup
    unfold MeshBuilder.checkGlobalMesh at hcg
    split at hcg
    · split at hcg
      · cases hcg
      · split at hcg
        · cases hcg; exact hi
        · simp only [bind, Except.bind] at hcg
          split at hcg
          · cases hcg
          · rename_i g1 hg1
            cases hcg
            exact keeps_foldlM (fun _ _ h => keeps_globalStep _ _ h _) _ _ hi _ hg1
    · cases hcg; exact hi
  induction hs with
  | refl => exact base
  | step k _ he ih =>
    unfold MeshBuilder.splitAndReplace at he
    simp only [bind, Except.bind] at he
    split at he
    · cases he
    · split at he
      · cases he
      · split at he
        · cases he
        · rename_i g hg
          cases he
          exact keeps_splitGraph ih _ _ _ _ _ _ hg

end Verif
