import Verif.Proofs.Dfs
/-!
# C05: connected-component colouring (`dfs`)
-/

namespace Opm.Dfs
open Opm Opm.Graph

/-- The graph is undirected. -/
def Symmetric (ia ja : List Nat) : Prop := ∀ u w, Edge ia ja u w → Edge ia ja w u

/-- A vertex may be connected to itself only through the first entry of its row. -/
def SelfFirst (ia ja : List Nat) : Prop :=
  ∀ v a b e : Nat, ia[v]? = some a → ia[v + 1]? = some b → a ≤ e → e < b → ja[e]? = some v → e = a

/-- **C05.** On every undirected graph in CSR form whose self connections (if any) are listed first
in their rows, `dfs` terminates without leaving any buffer, uses exactly the colours
`0, …, ncolors-1`, and gives two vertices the same colour iff they are connected. -/
theorem dfs_components {n : Nat} {ia ja : List Nat} (wf : WF n ia ja) (hself : SelfFirst ia ja)
    (hsym : Symmetric ia ja) {fuel : Nat} {color work : List Int} (hc : color.length = n)
    (hw : work.length = 2 * n) (hf : 4 * (n * ja.length) + n + 4 ≤ fuel) :
    ∃ color' work' ncolors, dfs fuel n ia ja color work = .ok (color', work', ncolors) ∧
      color'.length = n ∧
      (∀ v : Nat, v < n → ∃ k : Nat, k < ncolors ∧ color'[v]? = some (k : Int)) ∧
      (∀ k : Nat, k < ncolors → ∃ v : Nat, v < n ∧ color'[v]? = some (k : Int)) ∧
      (∀ u v : Nat, u < n → v < n → (color'[u]? = color'[v]? ↔ Reach ia ja u v)) := by
  have hs : ∀ v, v < n → ∀ k : Nat, (adj ia ja v)[k]? = some v → k = 0 := by
    intro v hv k hk
    have hl := (List.getElem?_eq_some_iff.1 hk).1
    rw [adj_length wf hv] at hl
    have := hself v _ _ (ia.getD v 0 + k) (ia_get wf (by omega)) (ia_get wf (show v + 1 ≤ n from hv)) (by omega)
      (by omega) (ja_of_adj wf hv hk)
    omega
  obtain ⟨color', work', nc, h1, h2, _, h4, h5, h6⟩ := dfs_main (color := color) (work := work) wf hs hsym hf (by omega) (by omega)
  exact ⟨color', work', nc, h1, by omega, h4, h5, h6⟩

/-- Non-vacuity: a graph with a path `0 – 2`, an isolated vertex `1`, self connections first, meets
every hypothesis. -/
example : WF 3 [0, 2, 3, 5] [0, 2, 1, 2, 0] ∧ SelfFirst [0, 2, 3, 5] [0, 2, 1, 2, 0] ∧
    Symmetric [0, 2, 3, 5] [0, 2, 1, 2, 0] := by
  have wf : WF 3 [0, 2, 3, 5] [0, 2, 1, 2, 0] := by
    refine ⟨rfl, ?_, ?_, ?_⟩
    · intro i a b ha hb
      have : i + 1 < 4 := (List.getElem?_eq_some_iff.1 hb).1
      have : i = 0 ∨ i = 1 ∨ i = 2 := by omega
      rcases this with rfl | rfl | rfl <;> (simp at ha hb; omega)
    · intro a ha; simp at ha; subst ha; simp
    · intro a e w ha he hw
      simp at ha
      have : e = 0 ∨ e = 1 ∨ e = 2 ∨ e = 3 ∨ e = 4 := by omega
      rcases this with rfl | rfl | rfl | rfl | rfl <;> (simp at hw; omega)
  refine ⟨wf, ?_, ?_⟩
  · intro v a b e ha hb h1 h2 hj
    have : v + 1 < 4 := (List.getElem?_eq_some_iff.1 hb).1
    have hv : v = 0 ∨ v = 1 ∨ v = 2 := by omega
    rcases hv with rfl | rfl | rfl <;> simp at ha hb <;> subst ha <;> subst hb
    · have : e = 0 ∨ e = 1 := by omega
      rcases this with rfl | rfl <;> simp at hj ⊢
    · omega
    · have : e = 3 ∨ e = 4 := by omega
      rcases this with rfl | rfl <;> simp at hj ⊢
  · intro u w he
    have hu := edge_lt wf he
    have hm := (edge_iff wf hu).1 he
    have hv : u = 0 ∨ u = 1 ∨ u = 2 := by omega
    rcases hv with rfl | rfl | rfl <;> simp [adj] at hm
    · rcases hm with rfl | rfl
      · exact he
      · exact (edge_iff wf (by omega)).2 (by simp [adj])
    · subst hm; exact he
    · rcases hm with rfl | rfl
      · exact he
      · exact (edge_iff wf (by omega)).2 (by simp [adj])

/-- The colouring the model computes for that graph. -/
example : (dfs 100 3 [0, 2, 3, 5] [0, 2, 1, 2, 0] [7, 7, 7] [9, 9, 9, 9, 9, 9]).map (fun r => (r.1, r.2.2)) =
    .ok ([0, 1, 0], 2) := by decide +kernel

/-- **Finding.** When self connections are *not* listed first, an unvisited vertex is pushed a
second time, the stack outgrows its `size` entries and overwrites the edge counters that follow
it in `work`.  On the graph with rows
`0:{3,0} 1:{1} 2:{2} 3:{0,4,3} 4:{3,5,4} 5:{4,6,5} 6:{5,6}` vertices `0`, `1` and `2` are in three
different components, yet `dfs` returns one colour for everything. -/
theorem dfs_self_connections_wrong :
    (dfs 1000 7 [0, 2, 3, 4, 7, 10, 13, 15] [3, 0, 1, 2, 0, 4, 3, 3, 5, 4, 4, 6, 5, 5, 6]
      (List.replicate 7 0) (List.replicate 14 0)).map (fun r => (r.1, r.2.2)) =
      .ok ([0, 0, 0, 0, 0, 0, 0], 1) ∧
    ¬ Reach [0, 2, 3, 4, 7, 10, 13, 15] [3, 0, 1, 2, 0, 4, 3, 3, 5, 4, 4, 6, 5, 5, 6] 1 2 := by
  refine ⟨by decide +kernel, ?_⟩
  intro h
  have key : ∀ w, Reach [0, 2, 3, 4, 7, 10, 13, 15] [3, 0, 1, 2, 0, 4, 3, 3, 5, 4, 4, 6, 5, 5, 6] 1 w → w = 1 := by
    intro w hw
    induction hw with
    | refl => rfl
    | tail _ he ih =>
      subst ih
      obtain ⟨a, b, e, ha, hb, h1, h2, h3⟩ := he
      simp at ha hb
      subst ha; subst hb
      obtain rfl : e = 2 := by omega
      simp at h3; exact h3.symm
  exact absurd (key 2 h) (by decide)

end Opm.Dfs
