import Verif.Proofs.HybsysFace
import Verif.Proofs.IfsSingular
/-!
# Hybrid systems: the structure of the matrix
-/

namespace Opm.Hybsys
open Opm Opm.MiscUtil Opm.SparseSys Graph
open Opm.IfsTpfa (MatOk ElmAt HasElm selfCount_ok getD_of_getElem? rowDot)

/-- A matrix with sorted rows made of the given elements. -/
structure PatternOf (m : Nat) (items : List (Nat × Nat)) (A : Csr) : Prop where
  m : A.m = m
  mat : MatOk A
  elm : ∀ p ∈ items, HasElm A p.1 p.2
  row : ∀ r, r < A.m → (block A.ja A.ia r).Perm ((items.filter (fun p => p.1 = r)).map Prod.snd)
  sorted : ∀ r, r < A.m → (block A.ja A.ia r).Pairwise (· ≤ ·)

theorem PatternOf.first {m : Nat} {items : List (Nat × Nat)} {A : Csr} (h : PatternOf m items A) (hm : 0 < m) (hone : List.count (0, 0) items = 1) :
    0 < A.ia.getD 1 0 ∧ A.ja.getD 0 0 = 0 ∧ ∀ p, p < A.ia.getD 1 0 → A.ja.getD p 0 = 0 → p = 0 := by
  have hm0 : 0 < A.m := by rw [h.m]; omega
  have hrow := h.row 0 hm0
  have hsort := h.sorted 0 hm0
  have e0 : A.ia[0]? = some 0 := by have := h.mat.pos.get (c := 0) (by omega); rwa [h.mat.pos.get_zero] at this
  have e1 : A.ia[1]? = some (A.ia.getD 1 0) := h.mat.pos.get (c := 1) hm0
  have hblock : block A.ja A.ia 0 = A.ja.take (A.ia.getD 1 0) := by
    unfold block
    rw [e0, e1]
    simp
  have hcount : (block A.ja A.ia 0).count 0 = 1 := by
    rw [hrow.count_eq, List.count, List.countP_map, List.countP_filter]
    have : List.countP (fun p : Nat × Nat => (((fun x => x == 0) ∘ Prod.snd) p && decide (p.1 = 0))) items = List.count (0, 0) items := by
      rw [List.count]
      refine List.countP_congr fun p _ => ?_
      obtain ⟨a, b⟩ := p
      simp [and_comm]
    rw [this, hone]
  have hlen : (block A.ja A.ia 0).length ≤ A.ia.getD 1 0 := by rw [hblock]; simp
  have hget : ∀ p, p < A.ia.getD 1 0 → (block A.ja A.ia 0)[p]? = A.ja[p]? := by
    intro p hp
    rw [hblock, List.getElem?_take, if_pos hp]
  have hja : A.ia.getD 1 0 ≤ A.ja.length := by
    have := h.mat.pos.mono' (c := 1) (d := A.m) hm0 (le_refl _)
    rw [h.mat.nnz] at this
    rw [h.mat.ja]; exact this
  generalize block A.ja A.ia 0 = l at *
  cases l with
  | nil => simp at hcount
  | cons a t =>
    have hpos : 0 < A.ia.getD 1 0 := by rw [List.length_cons] at hlen; omega
    have ha : a = 0 := by
      have hmem : 0 ∈ a :: t := List.count_pos_iff.1 (by rw [hcount]; omega)
      rcases List.mem_cons.1 hmem with h | h
      · exact h.symm
      · have := (List.pairwise_cons.1 hsort).1 0 h
        omega
    subst ha
    refine ⟨hpos, ?_, ?_⟩
    · have := hget 0 hpos
      rw [List.getElem?_cons_zero] at this
      rw [List.getD_eq_getElem?_getD, ← this]; rfl
    · intro p hp hz
      by_contra hne
      obtain ⟨k, rfl⟩ : ∃ k, p = k + 1 := ⟨p - 1, by omega⟩
      have h1 := hget (k + 1) hp
      rw [List.getElem?_cons_succ] at h1
      have h2 : A.ja[k + 1]? = some 0 := by
        rw [List.getD_eq_getElem?_getD] at hz
        rw [List.getElem?_eq_getElem (by omega)] at hz ⊢
        simpa using hz
      rw [h2] at h1
      have : 0 < List.count 0 t := List.count_pos_iff.2 (List.mem_of_getElem? h1)
      rw [List.count_cons_self] at hcount
      omega

theorem PatternOf.first_elm {m : Nat} {items : List (Nat × Nat)} {A : Csr} (h : PatternOf m items A) (hm : 0 < m) (hone : List.count (0, 0) items = 1) :
    ElmAt A 0 0 0 := by
  obtain ⟨h1, h2, h3⟩ := h.first hm hone
  obtain ⟨k, hk⟩ := h.elm (0, 0) (List.count_pos_iff.1 (by omega))
  have : k = 0 := h3 k hk.2.2.2.1 hk.2.2.2.2
  subst this
  exact hk

theorem PatternOf.rowDot_delta {m : Nat} {items : List (Nat × Nat)} {A : Csr} (h : PatternOf m items A) (hm : 0 < m) (hone : List.count (0, 0) items = 1) (sa : List Rat) :
    rowDot A sa (fun k => if k = 0 then 1 else 0) 0 = sa.getD 0 0 := by
  obtain ⟨h1, h2, h3⟩ := h.first hm hone
  unfold rowDot
  rw [h.mat.pos.get_zero, Finset.sum_eq_single 0]
  · rw [h2]; simp
  · intro p hp hne
    rw [Finset.mem_Ico] at hp
    simp only []
    rw [if_neg (fun e => hne (h3 p hp.2 e)), mul_zero]
  · intro hn
    exact absurd (Finset.mem_Ico.2 ⟨le_refl _, h1⟩) hn

/-- The elements of half face `i` of cell `c`. -/
def halfItems (G : GridTopo) (c i : Nat) : List (Nat × Nat) :=
  (List.range (deg G.cellFacepos c - 1)).map (fun k =>
    (G.cellFaces.getD i 0, G.cellFaces.getD (G.cellFacepos.getD c 0 + (i - G.cellFacepos.getD c 0 + 1 + k) % deg G.cellFacepos c) 0))

def gridItems (G : GridTopo) : List (Nat × Nat) :=
  (List.range G.nc).flatMap (fun c => (List.range (G.cellFacepos.getD (c + 1) 0 - G.cellFacepos.getD c 0)).flatMap (fun k => halfItems G c (G.cellFacepos.getD c 0 + k)))

def connItems (G : GridTopo) : List (Nat × Nat) := (List.range G.nf).map (fun i => (i, i)) ++ gridItems G

theorem loop_map {σ α : Type} {n : Nat} {f : Nat → σ → M σ} (g : σ → α → M σ) (L : Nat → α) (h : ∀ i s, i < n → f i s = g s (L i)) (s : σ) :
    loop n f s = ((List.range n).map L).foldlM g s := by
  rw [loop_flatMap (n := n) (f := f) g (fun i => [L i]) (fun i s hi => by rw [h i s hi]; simp only [List.foldlM_cons, List.foldlM_nil]; cases g s (L i) <;> rfl) s]
  rw [List.map_eq_flatMap]

section
variable {G : GridTopo} (hv : G.Valid) (h0 : G.cellFacepos[0]? = some 0)
include hv h0

theorem gridLoop_ok (op : Nat → Nat → Csr → M Csr) (A : Csr) :
    rowLoop G.nc G.cellFacepos (fun c i A => do
      let f ← rd G.cellFaces i
      let p ← rd G.cellFacepos c
      let e ← rd G.cellFacepos (c + 1)
      loop (e - p - 1) (fun k A => do
        let g ← rd G.cellFaces (p + (i - p + 1 + k) % (e - p))
        op f g A) A) A = (gridItems G).foldlM (fun A p => op p.1 p.2 A) A := by
  have hp := hv.rowPos h0
  unfold gridItems
  refine rowLoop_flatMap hp _ (halfItems G) (fun c i s hc hi hi' => ?_) A
  have h1 := pos_add hp hc
  obtain ⟨f, hf, hlt⟩ := hv.face_at hc hi'
  rw [rd_of_getElem? hf, bind_ok, rd_of_getElem? (hp.get (by omega)), bind_ok, rd_of_getElem? (hp.get (c := c + 1) hc), bind_ok]
  unfold halfItems
  have hfd : G.cellFaces.getD i 0 = f := getD_of_getElem? hf
  rw [hfd]
  refine loop_map _ _ (fun k s hk => ?_) s
  have hd : deg G.cellFacepos c = G.cellFacepos.getD (c + 1) 0 - G.cellFacepos.getD c 0 := rfl
  obtain ⟨g, hg, _⟩ := hv.face_at hc (i := G.cellFacepos.getD c 0 + (i - G.cellFacepos.getD c 0 + 1 + k) % deg G.cellFacepos c) (by
    have := Nat.mod_lt (i - G.cellFacepos.getD c 0 + 1 + k) (show 0 < deg G.cellFacepos c by omega)
    omega)
  have hgd := getD_of_getElem? (d := 0) hg
  rw [← hd, rd_of_getElem? hg, bind_ok, hgd]

theorem countLoop_ok (A : Csr) :
    rowLoop G.nc G.cellFacepos (fun c i A => do
      let f ← rd G.cellFaces i
      let p ← rd G.cellFacepos c
      let e ← rd G.cellFacepos (c + 1)
      loop (e - p - 1) (fun _ A => countElm A f) A) A = (gridItems G).foldlM (fun A p => countElm A p.1) A := by
  have hp := hv.rowPos h0
  unfold gridItems
  refine rowLoop_flatMap hp _ (halfItems G) (fun c i s hc hi hi' => ?_) A
  have h1 := pos_add hp hc
  obtain ⟨f, hf, hlt⟩ := hv.face_at hc hi'
  rw [rd_of_getElem? hf, bind_ok, rd_of_getElem? (hp.get (by omega)), bind_ok, rd_of_getElem? (hp.get (c := c + 1) hc), bind_ok]
  unfold halfItems
  rw [show G.cellFaces.getD i 0 = f from getD_of_getElem? hf]
  refine loop_map (fun A (p : Nat × Nat) => countElm A p.1) _ (fun k s hk => ?_) s
  rfl

theorem mem_gridItems {p : Nat × Nat} : p ∈ gridItems G ↔ ∃ c i j, c < G.nc ∧ i < deg G.cellFacepos c ∧ j < deg G.cellFacepos c ∧ i ≠ j ∧
    p = (face G.cellFacepos G.cellFaces c i, face G.cellFacepos G.cellFaces c j) := by
  unfold gridItems halfItems
  simp only [List.mem_flatMap, List.mem_map, List.mem_range]
  constructor
  · rintro ⟨c, hc, i, hi, k, hk, rfl⟩
    have hi' : i < deg G.cellFacepos c := hi
    refine ⟨c, i, (i + 1 + k) % deg G.cellFacepos c, hc, hi', Nat.mod_lt _ (by omega), ?_, ?_⟩
    · intro h
      rcases Nat.lt_or_ge (i + 1 + k) (deg G.cellFacepos c) with hlt | hge
      · rw [Nat.mod_eq_of_lt hlt] at h; omega
      · rw [Nat.mod_eq_sub_mod hge, Nat.mod_eq_of_lt (by omega)] at h; omega
    · unfold face
      rw [show G.cellFacepos.getD c 0 + i - G.cellFacepos.getD c 0 + 1 + k = i + 1 + k by omega]
  · rintro ⟨c, i, j, hc, hi, hj, hij, rfl⟩
    refine ⟨c, hc, i, hi, if i < j then j - i - 1 else j + deg G.cellFacepos c - i - 1, by split <;> omega, ?_⟩
    unfold face
    rw [show G.cellFacepos.getD c 0 + i - G.cellFacepos.getD c 0 = i by omega]
    congr 3
    split
    · rw [show i + 1 + (j - i - 1) = j by omega, Nat.mod_eq_of_lt hj]
    · rw [show i + 1 + (j + deg G.cellFacepos c - i - 1) = j + deg G.cellFacepos c by omega, Nat.add_mod_right, Nat.mod_eq_of_lt hj]

theorem count_first (hnf : 0 < G.nf) : List.count (0, 0) (connItems G) = 1 := by
  unfold connItems
  rw [List.count_append]
  have hother : List.count (0, 0) (gridItems G) = 0 := by
    rw [List.count_eq_zero]
    intro hmem
    obtain ⟨c, i, j, hc, hi, hj, hij, he⟩ := (mem_gridItems hv h0).1 hmem
    injection he with h1 h2
    exact hij (face_inj hv h0 hc hi hj (h1.symm.trans h2))
  have hdiag : List.count (0, 0) ((List.range G.nf).map (fun i => (i, i))) = List.count 0 (List.range G.nf) := by
    rw [List.count, List.countP_map, List.count]
    refine List.countP_congr fun i _ => ?_
    simp
  rw [hother, hdiag, List.count_range, if_pos (by omega)]

theorem defineGlobconn_ok (junk : Nat → Nat) (hnf : 0 < G.nf) : ∃ A, defineGlobconn junk G = .ok A ∧ PatternOf G.nf (connItems G) A := by
  have hlt : ∀ p ∈ connItems G, p.1 < G.nf := by
    intro p hp
    unfold connItems at hp
    rcases List.mem_append.1 hp with h | h
    · obtain ⟨i, hi, rfl⟩ := List.mem_map.1 h
      exact List.mem_range.1 hi
    · obtain ⟨c, i, j, hc, hi, hj, hij, rfl⟩ := (mem_gridItems hv h0).1 h
      exact (face_get hv h0 hc hi).2
  have hne : connItems G ≠ [] := by
    unfold connItems
    obtain ⟨n, hn⟩ : ∃ n, G.nf = n + 1 := ⟨G.nf - 1, by omega⟩
    rw [hn, List.range_succ]
    simp
  obtain ⟨A, eA, hAm, hAn, hAj, hAi, hA0, hAe, hAmono, hArow⟩ := csr_construction junk G.nf ((connItems G).map Prod.fst) (connItems G) hnf hne
    (List.Perm.refl _) hlt
  have hmem : ∀ r : Nat, r < G.nf → ∀ j, j ∈ block A.ja A.ia r ↔ (r, j) ∈ connItems G := by
    intro r hr j
    rw [hArow r hr, List.mem_map]
    constructor
    · rintro ⟨p, hp, rfl⟩
      rw [List.mem_filter] at hp
      obtain ⟨h1, h2⟩ := hp
      have h3 : p.1 = r := of_decide_eq_true h2
      rw [← h3]
      exact h1
    · intro h
      exact ⟨(r, j), List.mem_filter.2 ⟨h, by simp⟩, rfl⟩
  have hcsr0 : CSR G.nf (exists_bound A.ja).choose A.ia A.ja :=
    { len := hAi, mono := hAmono, bound := fun a ha => by rw [hAe] at ha; cases ha; omega
      range := fun a e w _ _ hw => (exists_bound A.ja).choose_spec w (List.mem_of_getElem? hw) }
  obtain ⟨ja', eja, hl, hsort, _⟩ := sortrows_sorts _ _ A.ia A.ja hcsr0
  obtain ⟨ja'', eja', hidx⟩ := sortrows_then_elm_index _ _ A.ia A.ja hcsr0
  rw [eja] at eja'
  cases eja'
  have hpos : RowPos G.nf A.ia := ⟨by omega, hA0, fun c a b _ => hAmono c a b⟩
  refine ⟨{ A with ja := ja' }, ?_, ?_, ?_, ?_, ?_, ?_⟩
  · unfold build at eA
    unfold defineGlobconn countConnGrid fillGrid
    obtain ⟨B0, e0, eA⟩ := bind_eq_ok.1 eA
    have e0' : B0 = { m := G.nf, nnz := 0, ia := List.replicate (G.nf + 1) 0, ja := [] } := by
      unfold newCountNnz at e0
      rw [check_ok (by simpa using hnf), bind_ok] at e0
      cases e0; rfl
    rw [e0, bind_ok, e0']
    simp only
    rw [selfCount_ok]
    obtain ⟨B1, e1, eA⟩ := bind_eq_ok.1 eA
    rw [List.foldlM_map, e0'] at e1
    unfold connItems at e1
    rw [List.foldlM_append] at e1
    obtain ⟨B1', e1', e1''⟩ := bind_eq_ok.1 e1
    rw [e1', bind_ok, countLoop_ok hv h0, e1'', bind_ok]
    obtain ⟨B2, e2, eA⟩ := bind_eq_ok.1 eA
    rw [e2, bind_ok]
    unfold connItems at eA
    rw [List.foldlM_append] at eA
    obtain ⟨B3, e3, eA⟩ := bind_eq_ok.1 eA
    have hB2 : B2.m = G.nf := by
      have : ∀ (l : List (Nat × Nat)) (B C : Csr), l.foldlM (fun A p => pushElm A p.1 p.2) B = .ok C → C.m = B.m := by
        intro l
        induction l with
        | nil => intro B C h; cases h; rfl
        | cons p l ih =>
          intro B C h
          rw [List.foldlM_cons] at h
          obtain ⟨D, hD, hC⟩ := bind_eq_ok.1 h
          rw [ih D C hC]
          unfold pushElm at hD
          obtain ⟨s, _, hs⟩ := bind_eq_ok.1 hD
          cases hs
          rfl
      rw [← this _ _ _ e3, ← this _ _ _ eA, hAm]
    rw [hB2, loop_map (fun A (p : Nat × Nat) => pushElm A p.1 p.2) (fun i => (i, i)) (fun i s hi => rfl), e3, bind_ok,
      gridLoop_ok hv h0 (fun f g A => pushElm A f g), eA, bind_ok, hAm, eja]
    rfl
  · exact hAm
  · refine ⟨by simpa [hAm] using hpos, by simp [hAi, hAm], ?_, by simp [hl, hAj, hAn]⟩
    simp only [hAm, hAn]
    exact getD_of_getElem? hAe
  · intro p hp
    have h1 := hlt p hp
    obtain ⟨k, ek, ⟨a, b, ha, hb, h3, h4⟩, hj⟩ := hidx p.1 p.2 h1 ((hmem p.1 h1 p.2).2 hp)
    refine ⟨k, by simpa [hAm] using h1, ek, ?_, ?_, getD_of_getElem? hj⟩
    · simp only [getD_of_getElem? ha]; exact h3
    · simp only [getD_of_getElem? hb]; exact h4
  · intro r hr
    have hr' : r < G.nf := by simpa [hAm] using hr
    have := (hsort r hr').1
    rw [hArow r hr'] at this
    exact this
  · intro r hr
    exact (hsort r (by simpa [hAm] using hr)).2

theorem PatternOf.elms {A : Csr} (h : PatternOf G.nf (connItems G) A) {c i j : Nat} (hc : c < G.nc) (hi : i < deg G.cellFacepos c) (hj : j < deg G.cellFacepos c) :
    HasElm A (face G.cellFacepos G.cellFaces c i) (face G.cellFacepos G.cellFaces c j) := by
  by_cases hij : i = j
  · subst hij
    exact h.elm (_, _) (List.mem_append_left _ (List.mem_map.2 ⟨_, List.mem_range.2 (face_get hv h0 hc hi).2, rfl⟩))
  · exact h.elm (_, _) (List.mem_append_right _ ((mem_gridItems hv h0).2 ⟨c, i, j, hc, hi, hj, hij, rfl⟩))

end

end Opm.Hybsys
