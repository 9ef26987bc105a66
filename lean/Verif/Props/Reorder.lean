import Verif.Proofs.Reorder
/-!
# C03, C04: the solution sequence of the reordering transport solvers

`compute_sequence` (reordersequence.cpp) and `reorderAndTransport` (ReorderSolverInterface.cpp), for
every valid mesh and every flux field.
-/

namespace Opm.Reorder.Props

open Opm.Graph Opm.Reorder Relation

/-- **C03.** On a valid nonempty mesh, for every flux field, `compute_sequence` succeeds; the
sequence is a permutation of the cells cut into nonempty consecutive blocks; a cell never comes in
an earlier block than a cell that feeds it; and two cells share a block exactly when fluid can
circulate between them. -/
theorem compute_sequence_upwind {g : GridTopo} {flux : List Rat} (hg : g.Valid)
    (hfl : flux.length = g.nf) (hnc : 0 < g.nc)
    {sequence components : List Nat} (hs : sequence.length = g.nc) (hc : components.length = g.nc + 1)
    {fuel : Nat} (hfuel : 2 * g.nc + 2 * g.nf + 2 ≤ fuel) :
    ∃ r, computeSequence fuel g flux sequence components = .ok r ∧
      r.vert.Perm (List.range g.nc) ∧
      r.comp[0]? = some 0 ∧ r.comp[r.ncomp]? = some g.nc ∧
      (∀ i < r.ncomp, block r.vert r.comp i ≠ []) ∧
      (∀ v < g.nc, ∃ i < r.ncomp, v ∈ block r.vert r.comp i) ∧
      (∀ i < r.ncomp, ∀ d ∈ block r.vert r.comp i, ∀ u, g.FlowsTo flux u d →
        ∃ j ≤ i, u ∈ block r.vert r.comp j) ∧
      (∀ i < r.ncomp, ∀ u ∈ block r.vert r.comp i, ∀ v, v ∈ block r.vert r.comp i ↔
        ReflTransGen (g.FlowsTo flux) u v ∧ ReflTransGen (g.FlowsTo flux) v u) := by
  obtain ⟨cs, tail, e, hp, hne, hscc, htopo⟩ := sequence_main hg hfl hnc hs hc hfuel
  have hlen : cs.flatten.length = g.nc := by simpa using hp.length_eq
  refine ⟨_, e, hp, ?_, ?_, ?_, ?_, ?_, ?_⟩
  · rw [boundaries_app_get _ _ _ (Nat.zero_le _)]; simp
  · simp only
    rw [boundaries_app_get _ _ _ (Nat.le_refl _), List.take_length, hlen]
  · intro i hi
    simp only at hi ⊢
    rw [block_eq cs tail (List.getElem?_eq_getElem hi)]
    exact hne _ (List.getElem_mem _)
  · intro v hv
    have : v ∈ cs.flatten := hp.mem_iff.2 (List.mem_range.2 hv)
    obtain ⟨C, hC, hvC⟩ := List.mem_flatten.1 this
    obtain ⟨i, hi⟩ := List.mem_iff_getElem?.1 hC
    exact ⟨i, (List.getElem?_eq_some_iff.1 hi).1, by rw [block_eq cs tail hi]; exact hvC⟩
  · intro i hi
    simp only at hi ⊢
    have hg := List.getElem?_eq_getElem hi
    rw [block_eq cs tail hg]
    intro d hd u hu
    obtain ⟨j, D, hj, hD, huD⟩ := htopo i _ hg d hd u hu
    exact ⟨j, hj, by rw [block_eq cs tail hD]; exact huD⟩
  · intro i hi
    simp only at hi ⊢
    rw [block_eq cs tail (List.getElem?_eq_getElem hi)]
    exact hscc _ (List.getElem_mem _)

/-- **C03**, the graph returned by `compute_sequence_graph`: row `d` lists exactly the cells that
feed cell `d`. -/
theorem upwind_graph_exact {g : GridTopo} {flux : List Rat} (hg : g.Valid) (hfl : flux.length = g.nf)
    {ia ja work : List Nat} (hia : ia.length = g.nc + 1) (hja : g.nf ≤ ja.length)
    (hw : g.nf ≤ work.length) :
    ∃ ia' ja' work', makeUpwindGraph g flux ia ja work = .ok (ia', ja', work') ∧ WF g.nc ia' ja' ∧
      ∀ d u, Edge ia' ja' d u ↔ g.FlowsTo flux u d := by
  obtain ⟨ia', ja', work', e, _, _, h1, h2⟩ := upwind_graph hg hfl hia hja hw
  exact ⟨ia', ja', work', e, h1, h2⟩

/-- **C03**, boundary case: on a mesh without cells `compute_sequence` trips its own assertion
(`assert (0 < *ncomponents)`). -/
theorem compute_sequence_empty_mesh {g : GridTopo} {flux : List Rat} (hg : g.Valid)
    (hnc : g.nc = 0) {fuel : Nat} (hfuel : 1 ≤ fuel) :
    computeSequence fuel g flux [] [0] = .error .assertFail := by
  have hpos := hg.csr.len
  obtain ⟨k, rfl⟩ : ∃ k, fuel = k + 1 := ⟨fuel - 1, by omega⟩
  unfold computeSequence computeReorderSequenceGraph makeUpwindGraph
  rw [hnc]
  simp only [loop_zero, bind_ok, List.replicate_succ, List.replicate_zero]
  have hw : ∀ w : List Nat, Tarjan.init 0 [] [0] w =
      .ok { vert := [], comp := [0], time := [], link := [], status := [], stack := 0, cstack := 0 - 1,
            compp := 1, t := 0, pos := 0, ncomp := 0, seed := 0 } := by
    intro w
    simp [Tarjan.init, Tarjan.clearVector, wr, loop]
  simp [Tarjan.tarjan, hw, whileFuel_succ, Tarjan.outerStep, wr, check]

/-- The cells handled by a solver call. -/
def cells : Call → List Nat
  | .single c => [c]
  | .multi cs => cs

/-- **C04.** `reorderAndTransport` hands every cell to the solver exactly once; whenever a cell is
handed over, every cell that feeds it has been handed over before or is handed over in the same
call; single-cell calls are made exactly for the cells without circulation, and a multi-cell call
gets at least two cells, all in circulation with each other. -/
theorem reorderAndTransport_order {g : GridTopo} {flux : List Rat} (hg : g.Valid)
    (hfl : flux.length = g.nf) (hnc : 0 < g.nc) (sequence components : List Nat)
    {fuel : Nat} (hfuel : 2 * g.nc + 2 * g.nf + 2 ≤ fuel) :
    ∃ calls, reorderAndTransport fuel g flux sequence components = .ok calls ∧
      (calls.flatMap cells).Perm (List.range g.nc) ∧
      (∀ (i : Nat) c, calls[i]? = some c → ∀ d ∈ cells c, ∀ u, g.FlowsTo flux u d →
        ∃ (j : Nat) (c' : Call), j ≤ i ∧ calls[j]? = some c' ∧ u ∈ cells c') ∧
      (∀ c ∈ calls, ∀ u ∈ cells c, ∀ v, v ∈ cells c ↔
        ReflTransGen (g.FlowsTo flux) u v ∧ ReflTransGen (g.FlowsTo flux) v u) ∧
      (∀ cs, Call.multi cs ∈ calls → 2 ≤ cs.length) := by
  have hs : (sequence.take g.nc ++ List.replicate (g.nc - sequence.length) 0).length = g.nc := by
    simp; omega
  have hc : (components.take (g.nc + 1) ++ List.replicate (g.nc + 1 - components.length) 0).length
      = g.nc + 1 := by
    simp; omega
  obtain ⟨cs, tail, e, hp, hne, hscc, htopo⟩ := sequence_main hg hfl hnc hs hc hfuel
  let mk : List Nat → Call := fun C => match C with
    | [c] => .single c
    | C => .multi C
  have hcells : ∀ C, cells (mk C) = C := by
    intro C
    match C with
    | [] => rfl
    | [c] => rfl
    | _ :: _ :: _ => rfl
  have htake : (boundaries 0 cs ++ tail).take (cs.length + 1) = boundaries 0 cs := by
    rw [List.take_left' (boundaries_length cs 0)]
  have hloop : ∃ t, loop cs.length (solveComponent
      { vert := cs.flatten, comp := boundaries 0 cs, ncomp := cs.length }) [] = .ok t ∧
      t = (cs.take cs.length).map mk := by
    refine loop_inv (fun n t => t = (cs.take n).map mk) (by simp) ?_
    rintro n t hn rfl
    have hg := List.getElem?_eq_getElem hn
    have h1 : (cs.take (n + 1)).flatten.length = (cs.take n).flatten.length + cs[n].length := by
      rw [List.take_add_one, hg, List.flatten_append]; simp
    have hb := block_eq cs [] hg
    rw [List.append_nil] at hb
    unfold block at hb
    rw [boundaries_get _ _ n (by omega), boundaries_get _ _ (n + 1) (by omega)] at hb
    simp only [Nat.zero_add, h1, Nat.add_sub_cancel_left] at hb
    have hpos := List.length_pos_of_ne_nil (hne cs[n] (List.getElem_mem _))
    have htk : (cs.take (n + 1)).map mk = (cs.take n).map mk ++ [mk cs[n]] := by
      rw [List.take_add_one, hg, List.map_append]; rfl
    have hle : (cs.take n).flatten.length + cs[n].length ≤ cs.flatten.length := by
      rw [← h1]
      have : cs.flatten = (cs.take (n + 1)).flatten ++ (cs.drop (n + 1)).flatten := by
        rw [← List.flatten_append, List.take_append_drop]
      rw [this]; simp
    unfold solveComponent
    rw [rd_of_getElem? (boundaries_get cs 0 (n + 1) (by omega)), bind_ok,
      rd_of_getElem? (boundaries_get cs 0 n (by omega)), bind_ok, h1]
    have hsz : (((0 + ((cs.take n).flatten.length + cs[n].length) : Nat) : Int)
        - ((0 + (cs.take n).flatten.length : Nat) : Int)) = (cs[n].length : Int) := by omega
    rw [hsz]
    by_cases h1' : cs[n].length = 1
    · rw [if_pos (by simp [h1'])]
      obtain ⟨c, hcn⟩ := List.length_eq_one_iff.1 h1'
      have hget : cs.flatten[0 + (cs.take n).flatten.length]? = some c := by
        rw [hcn] at hb
        have : ((cs.flatten.drop (cs.take n).flatten.length).take [c].length)[0]? = some c := by
          rw [hb]; rfl
        rw [List.getElem?_take] at this
        simpa using this
      rw [rd_of_getElem? hget, bind_ok]
      refine ⟨_, rfl, ?_⟩
      rw [htk, hcn]
    · rw [if_neg (by simpa using fun h : (cs[n].length : Int) = 1 => h1' (by omega))]
      rw [if_pos (by
        simp only [Int.toNat_natCast, Bool.and_eq_true, decide_eq_true_eq]
        omega)]
      refine ⟨_, rfl, ?_⟩
      simp only [Int.toNat_natCast, Nat.zero_add]
      rw [htk, hb]
      congr 2
      revert hpos h1'
      generalize cs[n] = C
      match C with
      | [] => intro hpos; simp at hpos
      | [c] => intro _ h1'; simp at h1'
      | _ :: _ :: _ => intros; rfl
  obtain ⟨_, hloop, rfl⟩ := hloop
  rw [List.take_length] at hloop
  refine ⟨cs.map mk, ?_, ?_, ?_, ?_, ?_⟩
  · unfold reorderAndTransport
    simp only
    rw [e, bind_ok]
    simp only
    rw [htake]
    exact hloop
  · have : (cs.map mk).flatMap cells = cs.flatten := by
      rw [List.flatMap_map]
      have : (fun C => cells (mk C)) = id := by funext C; exact hcells C
      rw [this]; simp [List.flatMap]
    rw [this]; exact hp
  · intro i c hi d hd u hu
    rw [List.getElem?_map] at hi
    obtain ⟨C, hC, rfl⟩ := Option.map_eq_some_iff.1 hi
    rw [hcells] at hd
    obtain ⟨j, D, hj, hD, huD⟩ := htopo i C hC d hd u hu
    exact ⟨j, mk D, hj, by rw [List.getElem?_map, hD]; rfl, by rw [hcells]; exact huD⟩
  · intro c hc'
    obtain ⟨C, hC, rfl⟩ := List.mem_map.1 hc'
    rw [hcells]
    exact hscc C hC
  · intro ds hds
    obtain ⟨C, hC, hm⟩ := List.mem_map.1 hds
    match C, hm with
    | [], _ => exact absurd rfl (hne _ hC)
    | [c], hm => cases hm
    | _ :: _ :: _, hm => cases hm; simp

/-! ### Non-vacuity -/

/-- A ring of four cells with one outer face. -/
def ring : GridTopo :=
  { nc := 4, nf := 5, faceCells := [0, 1, 1, 2, 2, 3, 0, 3, 3, -1]
    cellFacepos := [0, 2, 4, 6, 9], cellFaces := [0, 3, 0, 1, 1, 2, 2, 3, 4] }

theorem ring_csr : CSR 4 5 ring.cellFacepos ring.cellFaces := by
  constructor
  · rfl
  · intro i a b ha hb
    match i with
    | 0 | 1 | 2 | 3 => simp [ring] at ha hb; omega
    | _ + 4 => simp [ring] at hb
  · intro a ha; simp [ring] at ha ⊢; omega
  · intro a e w _ _ hw
    have := List.mem_of_getElem? hw
    simp [ring] at this; omega

theorem ring_valid : ring.Valid where
  csr := ring_csr
  fcLen := rfl
  fcRange := by decide
  agree := by
    intro c f a b hs
    have hf : f < 5 := by
      have := (List.getElem?_eq_some_iff.1 hs.2).1
      simp [ring] at this; omega
    by_cases hc : c < 4
    · unfold GridTopo.HasFace
      rw [edge_iff ring_csr hc]
      obtain ⟨h1, h2⟩ := hs
      match f, c, hf, hc with
      | 0, 0, _, _ | 0, 1, _, _ | 0, 2, _, _ | 0, 3, _, _
      | 1, 0, _, _ | 1, 1, _, _ | 1, 2, _, _ | 1, 3, _, _
      | 2, 0, _, _ | 2, 1, _, _ | 2, 2, _, _ | 2, 3, _, _
      | 3, 0, _, _ | 3, 1, _, _ | 3, 2, _, _ | 3, 3, _, _
      | 4, 0, _, _ | 4, 1, _, _ | 4, 2, _, _ | 4, 3, _, _ =>
        simp [ring] at h1 h2
        subst h1; subst h2
        decide
    · constructor
      · intro h; exact absurd (edge_lt ring_csr h) hc
      · obtain ⟨h1, h2⟩ := hs
        have m1 := List.mem_of_getElem? h1
        have m2 := List.mem_of_getElem? h2
        simp [ring] at m1 m2
        omega
  distinct := by
    intro f a b ⟨h1, h2⟩ _
    have hf : f < 5 := by
      have := (List.getElem?_eq_some_iff.1 h2).1
      simp [ring] at this; omega
    match f, hf with
    | 0, _ | 1, _ | 2, _ | 3, _ | 4, _ => simp [ring] at h1 h2; omega
  once := by
    intro c a b e e' f ha hb h1 h2 h3 h4 h5 h6
    have hc : c < 4 := by
      have := (List.getElem?_eq_some_iff.1 hb).1
      simp [ring] at this; omega
    match c, hc with
    | 0, _ | 1, _ | 2, _ | 3, _ =>
      simp [ring] at ha hb
      subst ha; subst hb
      have he : e < 9 := by omega
      have he' : e' < 9 := by omega
      have key : ∀ x y : Fin 9, ring.cellFaces[x.1]? = ring.cellFaces[y.1]? → x ≠ y →
          (x.1 / 2 ≠ y.1 / 2) ∧ (6 ≤ x.1 → 6 ≤ y.1 → False) := by decide
      have := key ⟨e, he⟩ ⟨e', he'⟩ (by simp only; rw [h5, h6])
      simp at this
      omega

/-- Circulation through all four cells: one multi-cell call. -/
example : reorderAndTransport 100 ring [1, 1, 1, -1, 1] [] [] = .ok [.multi [1, 2, 3, 0]] := by
  decide +kernel

/-- No circulation: four single-cell calls, upwind first. -/
example : reorderAndTransport 100 ring [1, 1, -1, 1, 1] [9] [9] =
    .ok [.single 0, .single 1, .single 3, .single 2] := by
  decide +kernel

end Opm.Reorder.Props
