import Verif.Proofs.CfsCell
/-!
# Compressible flow: all rows of cells
-/

namespace Opm.CfsTpfa
open Opm.SparseSys
open _root_.Opm.IfsTpfa (numPerf getD_of_getElem? index_ok Sys addSa addB XR Res MatOk ElmAt HasElm SysOk addSa_res addB_res rowDot)

/-- The matrix has room for all cells and connections. -/
structure Fits (G : GridTopo) (J : Csr) : Prop where
  mat : MatOk J
  nc : G.nc ≤ J.m
  diag : ∀ i, i < J.m → HasElm J i i
  adj : ∀ f a b : Nat, G.Sides f a b → HasElm J a b ∧ HasElm J b a

theorem interior_of {G : GridTopo} {f c : Nat} (hs : G.faceCells.getD (2 * f) (-1) = (c : Int) ∨ G.faceCells.getD (2 * f + 1) (-1) = (c : Int)) : 0 ≤ ot G c f ↔ Int2 G f := by
  unfold ot Int2
  split <;> omega

theorem assembleCell_ok {G : GridTopo} (hv : G.Valid) (h0 : G.cellFacepos[0]? = some 0) {J : Csr} (hJ : Fits G J) {c : Nat} (hc : c < G.nc) {row : CellRow} {O : Nat → Rat}
    (ho : ∀ j, G.cellFacepos.getD c 0 ≤ j → j < G.cellFacepos.getD (c + 1) 0 → row.offs[j - G.cellFacepos.getD c 0]? = some (if Int2 G (fc G j) then O j else 0))
    {s : Sys} (hs : SysOk J s) (hb : s.b.getD c 0 = 0) :
    ∃ s', assembleCell G J c row s = .ok s' ∧ SysOk J s' ∧ (∀ j, j ≠ c → s'.b.getD j 0 = s.b.getD j 0) ∧
      ∀ xr : XR, Res J s' xr = Res J s xr + if xr.2 = c then row.res - row.diag * xr.1 c -
        ∑ j ∈ Finset.Ico (G.cellFacepos.getD c 0) (G.cellFacepos.getD (c + 1) 0), (if Int2 G (fc G j) then O j * xr.1 (ot G c (fc G j)).toNat else 0) else 0 := by
  obtain ⟨e1, e2, hle⟩ := pos_ok hv h0 hc
  have hcm : c < J.m := by have := hJ.nc; omega
  obtain ⟨k, hk⟩ := hJ.diag c hcm
  unfold assembleCell
  rw [hk.2.1, bind_ok]
  obtain ⟨s1, g1, k1, b1, r1⟩ := addSa_res hJ.mat hs hk row.diag
  rw [g1, bind_ok, e1, bind_ok, e2, bind_ok]
  obtain ⟨s2, g2, ⟨k2, b2⟩, r2⟩ := forRange_sum (s := s1) (f := fun i s => do
    let f ← rd G.cellFaces i
    let c1 ← rd G.faceCells (2 * f)
    let c2 ← rd G.faceCells (2 * f + 1)
    let o := if c1 = (c : Int) then c2 else c1
    if 0 ≤ o then do
      let j2 ← elmIndex c o.toNat J.ia J.ja
      let v ← rd row.offs (i - G.cellFacepos.getD c 0)
      addSa j2 v s
    else .ok s) hle (fun t => SysOk J t ∧ t.b = s.b) (Res J)
    (fun j (xr : XR) => if xr.2 = c then (if Int2 G (fc G j) then -(O j * xr.1 (ot G c (fc G j)).toNat) else 0) else 0) ⟨k1, b1⟩
    (by
      rintro i t h1 h2 ⟨ht, htb⟩
      obtain ⟨q1, hlt, q2, q3, hside, hsd⟩ := half_face hv hc h1 h2
      rw [q1, bind_ok, q2, bind_ok, q3, bind_ok]
      have eo : (if G.faceCells.getD (2 * fc G i) (-1) = (c : Int) then G.faceCells.getD (2 * fc G i + 1) (-1) else G.faceCells.getD (2 * fc G i) (-1)) = ot G c (fc G i) := rfl
      dsimp only
      rw [eo]
      by_cases hi : Int2 G (fc G i)
      · have hel : HasElm J c (ot G c (fc G i)).toNat := by
          obtain ⟨p1, p2⟩ := hi
          unfold ot
          rcases hside with h | h
          · rw [if_pos h]
            refine (hJ.adj (fc G i) c _ ?_).1
            rw [Int.toNat_of_nonneg p2, ← h]
            exact hsd
          · have hne : G.faceCells.getD (2 * fc G i) (-1) ≠ (c : Int) := by
              have := hv.distinct _ _ _ hsd p1
              rw [h] at this
              exact this
            rw [if_neg hne]
            refine (hJ.adj (fc G i) _ c ?_).2
            rw [Int.toNat_of_nonneg p1, ← h]
            exact hsd
        obtain ⟨k', hk'⟩ := hel
        obtain ⟨t', g', h', b', r'⟩ := addSa_res hJ.mat ht hk' (O i)
        rw [if_pos ((interior_of hside).2 hi), hk'.2.1, bind_ok, rd_of_getElem? (ho i h1 h2), bind_ok, if_pos hi, g']
        refine ⟨t', rfl, ⟨h', b'.trans htb⟩, fun xr => ?_⟩
        rw [r', if_pos hi]
      · rw [if_neg (fun h => hi ((interior_of hside).1 h))]
        refine ⟨t, rfl, ⟨ht, htb⟩, fun xr => ?_⟩
        rw [if_neg hi, ite_self, add_zero])
  rw [g2, bind_ok, wr_ok (by rw [k2.2]; exact hcm), bind_ok]
  refine ⟨_, rfl, ⟨k2.1, by simp [k2.2]⟩, fun j hj => ?_, fun xr => ?_⟩
  · dsimp only
    rw [getD_set_list (by rw [k2.2]; exact hcm), if_neg hj, b2]
  · have e : Res J { s2 with b := s2.b.set c row.res } xr = Res J s2 xr + if xr.2 = c then row.res else 0 := by
      unfold Res
      dsimp only
      rw [getD_set_list (by rw [k2.2]; exact hcm)]
      by_cases hx : xr.2 = c
      · rw [if_pos hx, if_pos hx, hx, b2, hb]; ring
      · rw [if_neg hx, if_neg hx]; ring
    rw [e, r2, r1]
    by_cases hx : xr.2 = c
    · simp only [if_pos hx]
      have : ∑ j ∈ Finset.Ico (G.cellFacepos.getD c 0) (G.cellFacepos.getD (c + 1) 0), (if Int2 G (fc G j) then -(O j * xr.1 (ot G c (fc G j)).toNat) else 0) =
          -∑ j ∈ Finset.Ico (G.cellFacepos.getD c 0) (G.cellFacepos.getD (c + 1) 0), (if Int2 G (fc G j) then O j * xr.1 (ot G c (fc G j)).toNat else 0) := by
        rw [← Finset.sum_neg_distrib]
        exact Finset.sum_congr rfl fun j _ => by split <;> ring
      rw [this]
      ring
    · simp only [if_neg hx, Finset.sum_const_zero, add_zero]

/-- Sums over the faces of a cell are net outflows. -/
theorem sum_half {G : GridTopo} (hv : G.Valid) {c : Nat} (hc : c < G.nc) {q : Nat → Rat} (hq : ∀ f, ¬ Int2 G f → q f = 0) :
    ∑ j ∈ Finset.Ico (G.cellFacepos.getD c 0) (G.cellFacepos.getD (c + 1) 0), (if Int2 G (fc G j) then sg G c (fc G j) * q (fc G j) else 0) = G.netOutflow q c := by
  have h := GridTopo.sum_row hv hc (fun f => if Int2 G f then sg G c f * q f else 0)
  refine Eq.trans h ?_
  rw [Finset.sum_filter]
  unfold GridTopo.netOutflow
  refine Finset.sum_congr rfl fun f hf => ?_
  obtain ⟨a, b, hs⟩ := hv.sides (Finset.mem_range.1 hf)
  have hd := hv.distinct f a b hs
  simp only [hs.1, hs.2, Option.some.injEq]
  by_cases hi : Int2 G f
  · rw [if_pos hi]
    unfold sg
    unfold Int2 at hi
    rw [getD_of_getElem? hs.1] at hi ⊢
    by_cases ha : a = (c : Int)
    · have hb : b ≠ (c : Int) := fun e => hd (by omega) (by omega)
      rw [if_pos (Or.inl ha), if_pos ha, if_pos ha, if_neg hb]; ring
    · by_cases hb : b = (c : Int)
      · rw [if_pos (Or.inr hb), if_neg ha, if_neg ha, if_pos hb]; ring
      · rw [if_neg (by tauto), if_neg ha, if_neg hb]; ring
  · rw [if_neg hi, hq f hi]
    simp

theorem faceComp_bdry {I : Input} {x : Nat → Rat} {g : Rat} {i f : Nat} (h : ¬ Int2 I.G f) : faceComp I x g i f = 0 := by
  unfold faceComp
  rw [if_neg (by exact h)]

/-- What is in the cell after the step, wells not counted. -/
def T0 (I : Input) (c : Nat) : Nat → Rat := fun i => I.porevol.getD c 0 * ent I.zc I.cq.np c i - I.dt * I.G.netOutflow (faceComp I (given I) 1 i) c

theorem acc_eq {I : Input} (h : InputOk I) {face : List Comp} (hf : FaceOk I face) {c : Nat} (hc : c < I.G.nc) : acc I face c = (-1 : Rat) • T0 I c := by
  funext i
  rw [Pi.smul_apply, smul_eq_mul]
  unfold acc T0
  rw [← sum_half h.valid hc (fun f hf => faceComp_bdry hf)]
  have : ∑ j ∈ Finset.Ico (I.G.cellFacepos.getD c 0) (I.G.cellFacepos.getD (c + 1) 0),
      (if Int2 I.G (fc I.G j) then I.dt * sg I.G c (fc I.G j) * (face.getD (fc I.G j) default).flux i else 0) =
      I.dt * ∑ j ∈ Finset.Ico (I.G.cellFacepos.getD c 0) (I.G.cellFacepos.getD (c + 1) 0),
        (if Int2 I.G (fc I.G j) then sg I.G c (fc I.G j) * faceComp I (given I) 1 i (fc I.G j) else 0) := by
    rw [Finset.mul_sum]
    refine Finset.sum_congr rfl fun j hj => ?_
    rw [Finset.mem_Ico] at hj
    split
    · rename_i hi
      rw [hf.flux _ (half_face h.valid hc hj.1 hj.2).2.1 hi]
      ring
    · ring
  rw [this]
  ring

/-- What row `c` is made of after the loop over cells: residual less matrix times `x`. -/
def Solver.row {s : Block → Block} {c : Nat} {I : Input} (hs : Solver I.cq.np I.cq.Ac I.cq.dAc c s) (x : Nat → Rat) : Rat :=
  I.porevol.getD c 0 - hs.L (T0 I c) - hs.L2 (T0 I c) * x c - I.dt * hs.L (fun i => I.G.netOutflow (faceComp I x 0 i) c)

theorem cell_ok {I : Input} (h : InputOk I) {lu : Lapack} {c : Nat} (hc : c < I.G.nc) {s : Block → Block}
    (hlu : lu I.cq.np (fun j => I.cq.Ac.getD (c * (I.cq.np * I.cq.np) + j) 0) = some s)
    (hs : Solver I.cq.np I.cq.Ac I.cq.dAc c s) {face : List Comp} (hf : FaceOk I face) {J : Csr} (hJ : Fits I.G J) {t : Sys} (ht : SysOk J t) (hb : t.b.getD c 0 = 0) :
    ∃ row t', cellContrib lu I.G c I.cq.np (I.porevol.getD c 0) I.dt (fun j => I.zc.getD (c * I.cq.np + j) 0) (fun j => I.cq.Ac.getD (c * (I.cq.np * I.cq.np) + j) 0)
        (fun j => I.cq.dAc.getD (c * (I.cq.np * I.cq.np) + j) 0) face = .ok row ∧ assembleCell I.G J c row t = .ok t' ∧ SysOk J t' ∧
      (∀ j, j ≠ c → t'.b.getD j 0 = t.b.getD j 0) ∧ row.incomp = decide (hs.L2 (T0 I c) = 0) ∧ ∀ xr : XR, Res J t' xr = Res J t xr + if xr.2 = c then hs.row xr.1 else 0 := by
  obtain ⟨row, e, h1, h2, h3, h4⟩ := cellContrib_ok h hc hlu hs hf.len
  obtain ⟨t', e', k', b', r'⟩ := assembleCell_ok h.valid h.first hJ hc (O := fun j => sg I.G c (fc I.G j) * I.dt * hs.L (oth I.G c face (fc I.G j))) h4 ht hb
  refine ⟨row, t', e, e', k', b', ?_, fun xr => ?_⟩
  · rw [h2, acc_eq h hf hc, LinearMap.map_smul, smul_eq_mul]
    exact decide_eq_decide.2 ⟨fun e => by linarith, fun e => by rw [e]; ring⟩
  · rw [r']
    congr 1
    by_cases hx : xr.2 = c
    · rw [if_pos hx, if_pos hx, h1, h3, acc_eq h hf hc, LinearMap.map_smul, LinearMap.map_smul, smul_eq_mul, smul_eq_mul]
      unfold Solver.row
      rw [map_outflow hs.L I.G (faceComp I xr.1 0) c, ← sum_half h.valid hc (fun f hf => by
        have : (fun i => faceComp I xr.1 0 i f) = (0 : Nat → Rat) := by funext i; exact faceComp_bdry hf
        rw [this, LinearMap.map_zero])]
      have key : (∑ j ∈ Finset.Ico (I.G.cellFacepos.getD c 0) (I.G.cellFacepos.getD (c + 1) 0),
            (if Int2 I.G (fc I.G j) then sg I.G c (fc I.G j) * I.dt * hs.L (own I.G c face (fc I.G j)) else 0)) * xr.1 c +
          ∑ j ∈ Finset.Ico (I.G.cellFacepos.getD c 0) (I.G.cellFacepos.getD (c + 1) 0),
            (if Int2 I.G (fc I.G j) then sg I.G c (fc I.G j) * I.dt * hs.L (oth I.G c face (fc I.G j)) * xr.1 (ot I.G c (fc I.G j)).toNat else 0) =
          I.dt * ∑ j ∈ Finset.Ico (I.G.cellFacepos.getD c 0) (I.G.cellFacepos.getD (c + 1) 0),
            (if Int2 I.G (fc I.G j) then sg I.G c (fc I.G j) * hs.L (fun i => faceComp I xr.1 0 i (fc I.G j)) else 0) := by
        rw [Finset.sum_mul, ← Finset.sum_add_distrib, Finset.mul_sum]
        refine Finset.sum_congr rfl fun j hj => ?_
        rw [Finset.mem_Ico] at hj
        obtain ⟨_, hlt, _, _, hside, hsd⟩ := half_face h.valid hc hj.1 hj.2
        by_cases hi : Int2 I.G (fc I.G j)
        · simp only [if_pos hi]
          rw [← hf.deriv _ hlt hi]
          have hsum : (fun i => (face.getD (fc I.G j) default).d0 i * xr.1 (side1 I.G (fc I.G j)) + (face.getD (fc I.G j) default).d1 i * xr.1 (side2 I.G (fc I.G j))) =
              xr.1 c • own I.G c face (fc I.G j) + xr.1 (ot I.G c (fc I.G j)).toNat • oth I.G c face (fc I.G j) := by
            funext i
            rw [Pi.add_apply, Pi.smul_apply, Pi.smul_apply, smul_eq_mul, smul_eq_mul]
            unfold own oth ot side1 side2
            rcases hside with g | g
            · simp only [if_pos g]
              rw [g, Int.toNat_natCast]
              ring
            · have hne : I.G.faceCells.getD (2 * fc I.G j) (-1) ≠ (c : Int) := by
                have := h.valid.distinct _ _ _ hsd hi.1
                rw [g] at this
                exact this
              simp only [if_neg hne]
              rw [g, Int.toNat_natCast]
              ring
          rw [hsum, LinearMap.map_add, LinearMap.map_smul, LinearMap.map_smul, smul_eq_mul, smul_eq_mul]
          ring
        · simp only [if_neg hi]
          ring
      rw [← key]
      ring
    · rw [if_neg hx, if_neg hx]

/-- The solver of every cell. -/
abbrev Solvers (I : Input) (lu : Lapack) (S : Nat → Block → Block) : Prop :=
  ∀ c, c < I.G.nc → lu I.cq.np (fun j => I.cq.Ac.getD (c * (I.cq.np * I.cq.np) + j) 0) = some (S c) ∧ Solver I.cq.np I.cq.Ac I.cq.dAc c (S c)

theorem exists_solvers {I : Input} (h : InputOk I) {lu : Lapack} (hlu : LapackOk lu) : ∃ S, Solvers I lu S := by
  have : ∀ c, ∃ s, c < I.G.nc → lu I.cq.np (fun j => I.cq.Ac.getD (c * (I.cq.np * I.cq.np) + j) 0) = some s ∧ Solver I.cq.np I.cq.Ac I.cq.dAc c s := by
    intro c
    by_cases hc : c < I.G.nc
    · obtain ⟨s, e, hs⟩ := hlu I.cq.np _ (h.regular c hc)
      exact ⟨s, fun _ => ⟨e, h.regular c hc, hs⟩⟩
    · exact ⟨fun _ => fun _ => 0, fun h => absurd h hc⟩
  choose S hS using this
  exact ⟨S, hS⟩

theorem cells_ok {I : Input} (h : InputOk I) {lu : Lapack} {S : Nat → Block → Block} (hS : Solvers I lu S) {face : List Comp} (hf : FaceOk I face) {J : Csr} (hJ : Fits I.G J) {t : Sys}
    (ht : SysOk J t) (hb : ∀ r, t.b.getD r 0 = 0) {V : Nat → (Nat → Rat) → Rat} (hV : ∀ c (hc : c < I.G.nc) x, V c x = (hS c hc).2.row x) :
    ∃ t' inc, cells lu I.G J I.dt I.zc I.cq I.porevol face (t, true) = .ok (t', inc) ∧ SysOk J t' ∧
      (inc = true ↔ ∀ c (hc : c < I.G.nc), (hS c hc).2.L2 (T0 I c) = 0) ∧ ∀ xr : XR, Res J t' xr = Res J t xr + if xr.2 < I.G.nc then V xr.2 xr.1 else 0 := by
  obtain ⟨r, e, h1, _, h3, h4⟩ := loop_inv (n := I.G.nc) (s := (t, true)) (f := fun c (s : Sys × Bool) => do
    let pv ← rd I.porevol c
    let z ← block I.zc (c * I.cq.np) I.cq.np
    let Ac ← block I.cq.Ac (c * (I.cq.np * I.cq.np)) (I.cq.np * I.cq.np)
    let dAc ← block I.cq.dAc (c * (I.cq.np * I.cq.np)) (I.cq.np * I.cq.np)
    let row ← cellContrib lu I.G c I.cq.np pv I.dt z Ac dAc face
    let sys ← assembleCell I.G J c row s.1
    .ok (sys, s.2 && row.incomp))
    (fun n r => SysOk J r.1 ∧ (∀ q, n ≤ q → r.1.b.getD q 0 = 0) ∧ (r.2 = true ↔ ∀ c (hc : c < I.G.nc), c < n → (hS c hc).2.L2 (T0 I c) = 0) ∧
      ∀ xr : XR, Res J r.1 xr = Res J t xr + if xr.2 < n then V xr.2 xr.1 else 0)
    ⟨ht, fun q _ => hb q, by simp, by simp⟩
    (by
      rintro c r hc ⟨h1, h2, h3, h4⟩
      obtain ⟨hlu, hsol⟩ := hS c hc
      obtain ⟨row, t', e1, e2, k, bk, hinc, hres⟩ := cell_ok h hc hlu hsol hf hJ h1 (h2 c (le_refl _))
      have hp := h.porevol
      rw [rd_getD (d := 0) (by omega), bind_ok, blk hc h.zc, bind_ok, blk hc h.Ac, bind_ok, blk hc h.dAc, bind_ok, e1, bind_ok, e2, bind_ok]
      refine ⟨_, rfl, k, fun q hq => ?_, ?_, fun xr => ?_⟩
      · dsimp only
        rw [bk q (by omega)]
        exact h2 q (by omega)
      · dsimp only
        rw [hinc, Bool.and_eq_true, h3, decide_eq_true_iff]
        constructor
        · rintro ⟨p1, p2⟩ c' hc' hlt
          rcases Nat.lt_or_ge c' c with hl | hl
          · exact p1 c' hc' hl
          · obtain rfl : c' = c := by omega
            exact p2
        · intro p
          exact ⟨fun c' hc' hl => p c' hc' (by omega), p c hc (by omega)⟩
      · dsimp only
        rw [hres, h4]
        by_cases hx : xr.2 = c
        · rw [if_pos hx, hx, if_neg (Nat.lt_irrefl _), if_pos (Nat.lt_succ_self _), hV c hc]
          ring
        · rw [if_neg hx]
          have : xr.2 < c ↔ xr.2 < c + 1 := by omega
          simp only [this, add_zero])
  refine ⟨r.1, r.2, e, h1, ?_, h4⟩
  rw [h3]
  exact ⟨fun p c hc => p c hc hc, fun p c hc _ => p c hc⟩

end Opm.CfsTpfa
