import Verif.Proofs.CfsLin
/-!
# Compressible flow: the row of a cell
-/

namespace Opm.CfsTpfa
open Opm.SparseSys
open _root_.Opm.IfsTpfa (numPerf getD_of_getElem? index_ok Sys addSa addB XR Res MatOk ElmAt HasElm SysOk addSa_res addB_res rowDot)

/-- The face at a position. -/
def fc (G : GridTopo) (j : Nat) : Nat := G.cellFaces.getD j 0

/-- Sign of the face in cell `c`. -/
def sg (G : GridTopo) (c f : Nat) : Rat := if G.faceCells.getD (2 * f) (-1) = (c : Int) then 1 else -1

/-- The other side of the face. -/
def ot (G : GridTopo) (c f : Nat) : Int := if G.faceCells.getD (2 * f) (-1) = (c : Int) then G.faceCells.getD (2 * f + 1) (-1) else G.faceCells.getD (2 * f) (-1)

/-- A connection for every interior face at positions `a` to `a + n`. -/
def connsOf (G : GridTopo) (c : Nat) (dt : Rat) (face : List Comp) (a : Nat) : Nat → List Conn
  | 0 => []
  | n + 1 => connsOf G c dt face a n ++ if Int2 G (fc G (a + n)) then [⟨dt * sg G c (fc G (a + n)), face.getD (fc G (a + n)) default⟩] else []

theorem connsOf_split (G : GridTopo) (c : Nat) (dt : Rat) (face : List Comp) (a n m : Nat) :
    connsOf G c dt face a (n + m) = connsOf G c dt face a n ++ connsOf G c dt face (a + n) m := by
  induction m with
  | zero => simp [connsOf]
  | succ m ih =>
    rw [← Nat.add_assoc, connsOf, connsOf, ih, List.append_assoc, Nat.add_assoc]

theorem connsOf_sum (G : GridTopo) (c : Nat) (dt : Rat) (face : List Comp) (a n : Nat) (g : Conn → Rat) :
    ((connsOf G c dt face a n).map g).sum = ∑ j ∈ Finset.Ico a (a + n), if Int2 G (fc G j) then g ⟨dt * sg G c (fc G j), face.getD (fc G j) default⟩ else 0 := by
  induction n with
  | zero => simp [connsOf]
  | succ n ih =>
    rw [connsOf, List.map_append, List.sum_append, ih, ← Nat.add_assoc, Finset.sum_Ico_succ_top (by omega)]
    congr 1
    split
    · simp
    · simp

/-- Reading the faces of a cell. -/
theorem half_face {G : GridTopo} (hv : G.Valid) {c j : Nat} (hc : c < G.nc) (h1 : G.cellFacepos.getD c 0 ≤ j) (h2 : j < G.cellFacepos.getD (c + 1) 0) :
    rd G.cellFaces j = .ok (fc G j) ∧ fc G j < G.nf ∧ rd G.faceCells (2 * fc G j) = .ok (G.faceCells.getD (2 * fc G j) (-1)) ∧
      rd G.faceCells (2 * fc G j + 1) = .ok (G.faceCells.getD (2 * fc G j + 1) (-1)) ∧
      (G.faceCells.getD (2 * fc G j) (-1) = (c : Int) ∨ G.faceCells.getD (2 * fc G j + 1) (-1) = (c : Int)) ∧
      G.Sides (fc G j) (G.faceCells.getD (2 * fc G j) (-1)) (G.faceCells.getD (2 * fc G j + 1) (-1)) := by
  obtain ⟨f, hf, hlt⟩ := hv.face_at hc h2
  obtain ⟨a, b, hs⟩ := hv.sides hlt
  have e : fc G j = f := getD_of_getElem? hf
  have hside := (hv.agree c f a b hs).1 (GridTopo.hasFace_of hv hc h1 h2 hf)
  rw [e, getD_of_getElem? hs.1, getD_of_getElem? hs.2]
  exact ⟨rd_of_getElem? hf, hlt, rd_of_getElem? hs.1, rd_of_getElem? hs.2, hside, hs⟩

theorem pos_ok {G : GridTopo} (hv : G.Valid) (h0 : G.cellFacepos[0]? = some 0) {c : Nat} (hc : c < G.nc) :
    rd G.cellFacepos c = .ok (G.cellFacepos.getD c 0) ∧ rd G.cellFacepos (c + 1) = .ok (G.cellFacepos.getD (c + 1) 0) ∧
      G.cellFacepos.getD c 0 ≤ G.cellFacepos.getD (c + 1) 0 := by
  have hp := hv.rowPos h0
  exact ⟨rd_of_getElem? (hp.get (by omega)), rd_of_getElem? (hp.get (c := c + 1) hc), hp.le hc⟩

theorem initCell_ok {G : GridTopo} (hv : G.Valid) (h0 : G.cellFacepos[0]? = some 0) {c : Nat} (hc : c < G.nc) (dt : Rat) {face : List Comp} (hl : G.nf ≤ face.length) :
    initCell G c dt face = .ok (connsOf G c dt face (G.cellFacepos.getD c 0) (G.cellFacepos.getD (c + 1) 0 - G.cellFacepos.getD c 0)) := by
  obtain ⟨e1, e2, hle⟩ := pos_ok hv h0 hc
  unfold initCell
  rw [e1, bind_ok, e2, bind_ok]
  obtain ⟨t, e, h⟩ := forRange_inv (a := G.cellFacepos.getD c 0) (b := G.cellFacepos.getD (c + 1) 0) (s := ([] : List Conn)) (f := fun i conns => do
    let f ← rd G.cellFaces i
    let c1 ← rd G.faceCells (2 * f)
    let c2 ← rd G.faceCells (2 * f + 1)
    if 0 ≤ c1 ∧ 0 ≤ c2 then do
      let x ← rd face f
      .ok (conns ++ [⟨dt * (2 * (if c1 = (c : Int) then 1 else 0) - 1), x⟩])
    else .ok conns) hle (fun i t => G.cellFacepos.getD c 0 ≤ i ∧ t = connsOf G c dt face (G.cellFacepos.getD c 0) (i - G.cellFacepos.getD c 0))
    ⟨le_refl _, by rw [Nat.sub_self]; rfl⟩
    (by
      rintro i t h1 h2 ⟨_, rfl⟩
      obtain ⟨r1, hlt, r2, r3, hs, _⟩ := half_face hv hc h1 h2
      rw [r1, bind_ok, r2, bind_ok, r3, bind_ok]
      have e : i + 1 - G.cellFacepos.getD c 0 = (i - G.cellFacepos.getD c 0) + 1 := by omega
      have e' : G.cellFacepos.getD c 0 + (i - G.cellFacepos.getD c 0) = i := by omega
      by_cases hi : Int2 G (fc G i)
      · rw [if_pos (by exact hi), rd_getD (d := default) (by omega), bind_ok]
        refine ⟨_, rfl, by omega, ?_⟩
        rw [e, connsOf, e', if_pos hi]
        congr 4
        unfold sg
        split <;> ring
      · rw [if_neg (by exact hi)]
        refine ⟨_, rfl, by omega, ?_⟩
        rw [e, connsOf, e', if_neg hi, List.append_nil])
  rw [e, h.2]

/-- Derivatives of the flux out of cell `c` by its own pressure, by the pressure of the other side. -/
def own (G : GridTopo) (c : Nat) (face : List Comp) (f : Nat) : Block := if G.faceCells.getD (2 * f) (-1) = (c : Int) then (face.getD f default).d0 else (face.getD f default).d1
def oth (G : GridTopo) (c : Nat) (face : List Comp) (f : Nat) : Block := if G.faceCells.getD (2 * f) (-1) = (c : Int) then (face.getD f default).d1 else (face.getD f default).d0

/-- The accumulated volumes, as the code computes them (with the opposite sign). -/
def acc (I : Input) (face : List Comp) (c : Nat) : Block := fun i => -(I.porevol.getD c 0) * ent I.zc I.cq.np c i +
  ∑ j ∈ Finset.Ico (I.G.cellFacepos.getD c 0) (I.G.cellFacepos.getD (c + 1) 0), if Int2 I.G (fc I.G j) then I.dt * sg I.G c (fc I.G j) * (face.getD (fc I.G j) default).flux i else 0

theorem cellContrib_ok {I : Input} (h : InputOk I) {lu : Lapack} {c : Nat} (hc : c < I.G.nc) {s : Block → Block}
    (hlu : lu I.cq.np (fun j => I.cq.Ac.getD (c * (I.cq.np * I.cq.np) + j) 0) = some s)
    (hs : Solver I.cq.np I.cq.Ac I.cq.dAc c s) {face : List Comp} (hl : I.G.nf ≤ face.length) :
    ∃ row, cellContrib lu I.G c I.cq.np (I.porevol.getD c 0) I.dt (fun j => I.zc.getD (c * I.cq.np + j) 0) (fun j => I.cq.Ac.getD (c * (I.cq.np * I.cq.np) + j) 0)
        (fun j => I.cq.dAc.getD (c * (I.cq.np * I.cq.np) + j) 0) face = .ok row ∧
      row.res = I.porevol.getD c 0 + hs.L (acc I face c) ∧
      row.incomp = decide (hs.L2 (acc I face c) = 0) ∧
      row.diag = -(hs.L2 (acc I face c)) + ∑ j ∈ Finset.Ico (I.G.cellFacepos.getD c 0) (I.G.cellFacepos.getD (c + 1) 0),
        (if Int2 I.G (fc I.G j) then sg I.G c (fc I.G j) * I.dt * hs.L (own I.G c face (fc I.G j)) else 0) ∧
      ∀ j, I.G.cellFacepos.getD c 0 ≤ j → j < I.G.cellFacepos.getD (c + 1) 0 →
        row.offs[j - I.G.cellFacepos.getD c 0]? = some (if Int2 I.G (fc I.G j) then sg I.G c (fc I.G j) * I.dt * hs.L (oth I.G c face (fc I.G j)) else 0) := by
  obtain ⟨e1, e2, hle⟩ := pos_ok h.valid h.first hc
  set np := I.cq.np with hnp
  set a := I.G.cellFacepos.getD c 0 with ha
  set b := I.G.cellFacepos.getD (c + 1) 0 with hb
  unfold cellContrib
  rw [initCell_ok h.valid h.first hc I.dt hl, bind_ok]
  unfold factorise
  rw [hlu]
  dsimp only
  rw [bind_ok, e1, bind_ok, e2, bind_ok]
  rw [← ha, ← hb]
  set conns := connsOf I.G c I.dt face a (b - a) with hconns
  have hrow := forRange_inv (a := a) (b := b)
    (s := (⟨0, -sumN np (s (matvec np np (fun j => I.cq.dAc.getD (c * (np * np) + j) 0)
      (fun i => s (fun j => I.zc.getD (c * np + j) 0) i * -(I.porevol.getD c 0) + (conns.map (fun k => s k.comp.flux i * k.coeff)).sum))), []⟩ : RowState))
    (f := fun i (r : RowState) => do
    let f ← rd I.G.cellFaces i
    let c1 ← rd I.G.faceCells (2 * f)
    let c2 ← rd I.G.faceCells (2 * f + 1)
    if 0 ≤ c1 ∧ 0 ≤ c2 then do
      let k ← rd conns r.k
      let sg : Rat := if c1 = (c : Int) then 1 else -1
      let dF1 := sumN np (s (if c1 = (c : Int) then k.comp.d0 else k.comp.d1))
      let dF2 := sumN np (s (if c1 = (c : Int) then k.comp.d1 else k.comp.d0))
      .ok { k := r.k + 1, diag := r.diag + sg * I.dt * dF1, offs := r.offs ++ [sg * I.dt * dF2] }
    else .ok { r with offs := r.offs ++ [0] }) hle
    (fun i t => a ≤ i ∧ t.k = (connsOf I.G c I.dt face a (i - a)).length ∧
      t.diag = -sumN np (s (matvec np np (fun j => I.cq.dAc.getD (c * (np * np) + j) 0)
        (fun i => s (fun j => I.zc.getD (c * np + j) 0) i * -(I.porevol.getD c 0) + (conns.map (fun k => s k.comp.flux i * k.coeff)).sum))) +
        ∑ j ∈ Finset.Ico a i, (if Int2 I.G (fc I.G j) then sg I.G c (fc I.G j) * I.dt * hs.L (own I.G c face (fc I.G j)) else 0) ∧
      t.offs.length = i - a ∧
      ∀ j, a ≤ j → j < i → t.offs[j - a]? = some (if Int2 I.G (fc I.G j) then sg I.G c (fc I.G j) * I.dt * hs.L (oth I.G c face (fc I.G j)) else 0))
    ⟨le_refl _, by simp [connsOf], by simp, by simp, fun j h1 h2 => absurd h2 (by omega)⟩
    (by
      rintro i t h1 h2 ⟨_, hk, hd, hlen, ho⟩
      obtain ⟨r1, hlt, r2, r3, _, _⟩ := half_face h.valid hc (ha ▸ h1) (hb ▸ h2)
      rw [r1, bind_ok, r2, bind_ok, r3, bind_ok]
      have e : i + 1 - a = (i - a) + 1 := by omega
      have e' : a + (i - a) = i := by omega
      by_cases hi : Int2 I.G (fc I.G i)
      · have hget : conns[t.k]? = some ⟨I.dt * sg I.G c (fc I.G i), face.getD (fc I.G i) default⟩ := by
          rw [hconns, show b - a = (i - a) + 1 + (b - i - 1) by omega, connsOf_split, connsOf, e', if_pos hi, hk,
            List.append_assoc, List.getElem?_append_right (le_refl _), Nat.sub_self]
          rfl
        rw [if_pos (by exact hi), rd_of_getElem? hget, bind_ok]
        refine ⟨_, rfl, by omega, ?_, ?_, ?_, ?_⟩
        · rw [e, connsOf, e', if_pos hi, hk]; simp
        · dsimp only
          rw [hd, Finset.sum_Ico_succ_top h1, if_pos hi, ← hs.L_eq (own I.G c face (fc I.G i)), ← add_assoc]
          rfl
        · simp only [List.length_append, hlen, List.length_singleton]; omega
        · intro j g1 g2
          dsimp only
          rcases Nat.lt_or_ge j i with hj | hj
          · rw [List.getElem?_append_left (by omega)]
            exact ho j g1 hj
          · obtain rfl : j = i := by omega
            rw [List.getElem?_append_right (by omega), hlen, Nat.sub_self, if_pos hi, hs.L_eq]
            rfl
      · rw [if_neg (by exact hi)]
        refine ⟨_, rfl, by omega, ?_, ?_, ?_, ?_⟩
        · rw [e, connsOf, e', if_neg hi, hk]; simp
        · dsimp only
          rw [hd, Finset.sum_Ico_succ_top h1, if_neg hi, add_zero]
        · simp only [List.length_append, hlen, List.length_singleton]; omega
        · intro j g1 g2
          dsimp only
          rcases Nat.lt_or_ge j i with hj | hj
          · rw [List.getElem?_append_left (by omega)]
            exact ho j g1 hj
          · obtain rfl : j = i := by omega
            rw [List.getElem?_append_right (by omega), hlen, Nat.sub_self, if_neg hi]
            rfl)
  obtain ⟨r, er, _, _, hdiag, _, hoffs⟩ := hrow
  rw [er, bind_ok]
  -- the solution for the accumulated volumes
  have hacc : ∀ i, i < np → (s (fun j => I.zc.getD (c * np + j) 0) i * -(I.porevol.getD c 0) + (conns.map (fun k => s k.comp.flux i * k.coeff)).sum) = s (acc I face c) i := by
    intro i hi
    refine hs.unique (b := acc I face c)
      (u := fun i => s (fun j => I.zc.getD (c * np + j) 0) i * -(I.porevol.getD c 0) + (conns.map (fun k => s k.comp.flux i * k.coeff)).sum) (fun m hm => ?_) hi
    have hsum : (fun i => s (fun j => I.zc.getD (c * np + j) 0) i * -(I.porevol.getD c 0) + (conns.map (fun k => s k.comp.flux i * k.coeff)).sum) =
        (-(I.porevol.getD c 0)) • s (fun j => I.zc.getD (c * np + j) 0) +
          ∑ j ∈ Finset.Ico a b, (if Int2 I.G (fc I.G j) then I.dt * sg I.G c (fc I.G j) else 0) • s (face.getD (fc I.G j) default).flux := by
      funext i
      rw [Pi.add_apply, Pi.smul_apply, smul_eq_mul, Finset.sum_apply, hconns, connsOf_sum, show a + (b - a) = b by omega, mul_comm]
      congr 1
      refine Finset.sum_congr rfl fun j _ => ?_
      rw [Pi.smul_apply, smul_eq_mul]
      split
      · ring
      · ring
    rw [hsum, mul_add', mul_smul', hs.sol _ _ hm]
    have hms : ∀ S : Finset Nat, mul I.cq.Ac np c (∑ j ∈ S, (if Int2 I.G (fc I.G j) then I.dt * sg I.G c (fc I.G j) else 0) • s (face.getD (fc I.G j) default).flux) m =
        ∑ j ∈ S, if Int2 I.G (fc I.G j) then I.dt * sg I.G c (fc I.G j) * (face.getD (fc I.G j) default).flux m else 0 := by
      intro S
      induction S using Finset.induction_on with
      | empty => simp [mul]
      | insert x S hx ih =>
        rw [Finset.sum_insert hx, Finset.sum_insert hx, mul_add', ih, mul_smul', hs.sol _ _ hm]
        congr 1
        split <;> ring
    rw [hms]
    rfl
  have hL2 : sumN np (s (matvec np np (fun j => I.cq.dAc.getD (c * (np * np) + j) 0)
      (fun i => s (fun j => I.zc.getD (c * np + j) 0) i * -(I.porevol.getD c 0) + (conns.map (fun k => s k.comp.flux i * k.coeff)).sum))) = hs.L2 (acc I face c) := by
    rw [hs.L_eq, matvec_eq, hs.L2_eq]
    exact hs.L_congr fun i _ => mul_congr hacc i
  refine ⟨_, rfl, ?_, ?_, ?_, hoffs⟩
  · dsimp only
    congr 1
    rw [sumN_eq, ← hs.L_eq, sumN_eq]
    exact Finset.sum_congr rfl fun i hi => hacc i (Finset.mem_range.1 hi)
  · dsimp only
    rw [hL2]
  · dsimp only
    rw [hdiag, hL2]

end Opm.CfsTpfa
