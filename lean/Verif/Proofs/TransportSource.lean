import Verif.Proofs.Mobility
/-!
# Lemmas about transport sources
-/

namespace Opm.MiscUtil
open Opm Opm.IfsTpfa

theorem bdyInflux_ok {G : GridTopo} (hv : G.Valid) {flux : List Rat} (hf : G.nf ≤ flux.length) {c f : Nat} (hlt : f < G.nf) :
    bdyInflux G flux c f = .ok (boundaryInflow G (fun f => flux.getD f 0) c f) := by
  obtain ⟨a, b, hs⟩ := hv.sides hlt
  unfold bdyInflux boundaryInflow
  rw [rd_of_getElem? hs.1, bind_ok, rd_of_getElem? hs.2, bind_ok, hs.1, hs.2, rdD (by omega)]
  simp only [Option.some.injEq, bind_ok]
  split
  · rfl
  · split <;> rfl

theorem boundaryInflow_zero {G : GridTopo} {q : Nat → Rat} {c f : Nat} (h : ¬ (G.faceCells[2 * f]? = some (c : Int) ∨ G.faceCells[2 * f + 1]? = some (c : Int))) :
    boundaryInflow G q c f = 0 := by
  unfold boundaryInflow
  rw [if_neg (fun h' => h (Or.inl h'.1)), if_neg (fun h' => h (Or.inr h'.2))]

theorem sourcesAndBoundary_ok {G : GridTopo} (hv : G.Valid) {src flux ts : List Rat} (hs : G.nc ≤ src.length) (hf : G.nf ≤ flux.length) (ht : ts.length = G.nc) (frac : Rat) :
    ∃ r, sourcesAndBoundary G src flux frac ts = .ok r ∧ r.length = G.nc ∧ ∀ c, c < G.nc → r.getD c 0 = scaled frac (src.getD c 0) +
      ∑ f ∈ Finset.range G.nf, scaled frac (boundaryInflow G (fun f => flux.getD f 0) c f) := by
  obtain ⟨r, e, h1, h2⟩ := loop_inv (n := G.nc) (s := ts) (f := fun c ts => do
      let ts ← wr ts c 0
      let q ← rd src c
      let ts ← addAt ts c (weigh frac q)
      let b ← rd G.cellFacepos c
      let e ← rd G.cellFacepos (c + 1)
      forRange b e (fun hf ts => do
        let f ← rd G.cellFaces hf
        let v ← bdyInflux G flux c f
        if v ≠ 0 then addAt ts c (weigh frac v) else .ok ts) ts)
    (P := fun k (t : List Rat) => t.length = G.nc ∧ ∀ c, c < k → t.getD c 0 = scaled frac (src.getD c 0) +
      ∑ f ∈ Finset.range G.nf, scaled frac (boundaryInflow G (fun f => flux.getD f 0) c f)) ⟨ht, by simp⟩ (by
      rintro c t hc ⟨h1, h2⟩
      rw [wr_ok (by omega), bind_ok, rdD (by omega), bind_ok, addAt_ok (by simp; omega), bind_ok,
        rd_of_getElem? (Graph.ia_get hv.csr (i := c) (by omega)), bind_ok, rd_of_getElem? (Graph.ia_get hv.csr (i := c + 1) hc), bind_ok]
      have hle : G.cellFacepos.getD c 0 ≤ G.cellFacepos.getD (c + 1) 0 := Graph.ia_mono hv.csr (by omega) (by omega)
      obtain ⟨u, eu, u1, u2⟩ := forRange_sum (s := (t.set c 0).set c ((t.set c 0).getD c 0 + weigh frac (src.getD c 0)))
        (f := fun hf ts => do
          let f ← rd G.cellFaces hf
          let v ← bdyInflux G flux c f
          if v ≠ 0 then addAt ts c (weigh frac v) else .ok ts) hle
        (Ok := fun t : List Rat => t.length = G.nc) (V := fun t r => t.getD r 0)
        (g := fun i r => if r = c then scaled frac (boundaryInflow G (fun f => flux.getD f 0) c (G.cellFaces.getD i 0)) else 0) (by simpa using h1) (by
          intro i t hi hi' ht
          obtain ⟨f, ef, hlt⟩ := hv.face_at hc hi'
          rw [rd_of_getElem? ef, bind_ok, bdyInflux_ok hv hf hlt, bind_ok, getD_of_getElem? ef]
          by_cases hz : boundaryInflow G (fun f => flux.getD f 0) c f ≠ 0
          · rw [if_pos hz, addAt_ok (by omega)]
            exact ⟨_, rfl, by simpa using ht, fun r => getD_addAt (by omega) _ _⟩
          · rw [if_neg hz]
            refine ⟨_, rfl, ht, fun r => ?_⟩
            rw [not_not.1 hz]
            simp [scaled])
      refine ⟨u, eu, u1, fun c' hc' => ?_⟩
      rw [u2]
      by_cases h : c' = c
      · subst h
        simp only [if_true]
        rw [getD_set (by simp; omega), if_pos rfl, getD_set (by omega), if_pos rfl, zero_add,
          G.sum_row hv hc (fun f => scaled frac (boundaryInflow G (fun f => flux.getD f 0) c' f))]
        congr 1
        rw [Finset.sum_filter]
        refine Finset.sum_congr rfl fun f _ => ?_
        split
        · rfl
        · rename_i h
          rw [boundaryInflow_zero h]
          simp [scaled]
      · simp only [h, if_false, Finset.sum_const_zero, add_zero]
        rw [getD_set (by simp; omega), if_neg h, getD_set (by omega), if_neg h]
        exact h2 c' (by omega))
  exact ⟨r, e, h1, h2⟩

theorem perfSource_ok {nc : Nat} {W : Wells.W} (hW : Wells2 nc W) {w : Nat} (hw : w < W.nw) (q : Rat) : perfSource W w q = .ok (perfShare W w q) := by
  have h1 := hW.frac
  have h2 := hW.type
  unfold perfSource perfShare
  rw [hW.np, rdD (by omega), bind_ok, rdD (by omega), bind_ok]
  obtain ⟨ty, ety⟩ : ∃ ty, W.type[w]? = some ty := ⟨_, List.getElem?_eq_getElem (by omega)⟩
  rw [rd_of_getElem? ety, bind_ok, ety]
  by_cases hq : q > 0
  · rw [if_pos hq, if_pos hq]
    cases ty with
    | producer => rfl
    | injector =>
      have := hW.one w hw ety
      rw [if_neg (by simp), if_pos rfl, this, check_ok (by decide +kernel)]
      rfl
  · rw [if_neg hq, if_neg hq]

end Opm.MiscUtil
