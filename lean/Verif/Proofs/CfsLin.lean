import Verif.Spec.CfsTpfa
import Verif.Proofs.IfsMatrix
import Mathlib.Algebra.Module.LinearMap.Defs
import Mathlib.Algebra.Module.Pi
import Mathlib.Algebra.BigOperators.Pi
import Mathlib.Algebra.BigOperators.Ring.Finset
/-!
# Compressible flow: blocks, small systems and fluxes of faces
-/

namespace Opm.CfsTpfa
open Opm.SparseSys
open _root_.Opm.IfsTpfa (numPerf getD_of_getElem? index_ok)

instance : Inhabited Comp := ⟨⟨fun _ => 0, fun _ => 0, fun _ => 0⟩⟩

theorem sumN_eq (n : Nat) (v : Block) : sumN n v = ∑ i ∈ Finset.range n, v i := by
  induction n with
  | zero => simp [sumN]
  | succ n ih => rw [sumN, ih, Finset.sum_range_succ]

theorem block_ok {a : List Rat} {off n : Nat} (h : off + n ≤ a.length) : block a off n = .ok (fun j => a.getD (off + j) 0) := by
  unfold block
  rw [if_pos h]

theorem blk {n k m : Nat} {a : List Rat} (hk : k < n) (h : n * m ≤ a.length) : block a (k * m) m = .ok (fun j => a.getD (k * m + j) 0) :=
  block_ok (by
    have : (k + 1) * m ≤ n * m := Nat.mul_le_mul_right _ hk
    rw [Nat.add_mul, Nat.one_mul] at this
    omega)

theorem matvec_eq (A : List Rat) (np k : Nat) (v : Block) : matvec np np (fun j => A.getD (k * (np * np) + j) 0) v = fun i => mul A np k v i := by
  funext i
  unfold matvec mul elm
  rw [sumN_eq]

theorem mul_add' (A : List Rat) (np k : Nat) (v w : Block) (i : Nat) : mul A np k (v + w) i = mul A np k v i + mul A np k w i := by
  unfold mul
  rw [← Finset.sum_add_distrib]
  exact Finset.sum_congr rfl fun j _ => by rw [Pi.add_apply]; ring

theorem mul_smul' (A : List Rat) (np k : Nat) (a : Rat) (v : Block) (i : Nat) : mul A np k (a • v) i = a * mul A np k v i := by
  unfold mul
  rw [Finset.mul_sum]
  exact Finset.sum_congr rfl fun j _ => by rw [Pi.smul_apply, smul_eq_mul]; ring

theorem mul_congr {A : List Rat} {np k : Nat} {v w : Block} (h : ∀ j, j < np → v j = w j) (i : Nat) : mul A np k v i = mul A np k w i := by
  unfold mul
  exact Finset.sum_congr rfl fun j hj => by rw [h j (Finset.mem_range.1 hj)]

/-! ## Small systems -/

/-- What is known about the solver for one cell. -/
structure Solver (np : Nat) (Ac dAc : List Rat) (c : Nat) (s : Block → Block) : Prop where
  reg : Regular np (fun j => Ac.getD (c * (np * np) + j) 0)
  sol : ∀ b i, i < np → mul Ac np c (s b) i = b i

variable {np : Nat} {Ac dAc : List Rat} {c : Nat} {s : Block → Block}

/-- The solution is unique. -/
theorem Solver.unique (h : Solver np Ac dAc c s) {b u : Block} (hu : ∀ i, i < np → mul Ac np c u i = b i) {j : Nat} (hj : j < np) : u j = s b j := by
  have := h.reg (u + (-1 : Rat) • s b) (fun i hi => by
    have e := mul_add' Ac np c u ((-1 : Rat) • s b) i
    rw [mul_smul', hu i hi, h.sol b i hi] at e
    show mul Ac np c (u + (-1 : Rat) • s b) i = 0
    rw [e]; ring) j hj
  rw [Pi.add_apply, Pi.smul_apply, smul_eq_mul] at this
  linarith

theorem Solver.add (h : Solver np Ac dAc c s) (a b : Block) {j : Nat} (hj : j < np) : s (a + b) j = s a j + s b j := by
  have := h.unique (b := a + b) (u := s a + s b) (fun i hi => by rw [mul_add', h.sol _ _ hi, h.sol _ _ hi, Pi.add_apply]) hj
  rw [← this, Pi.add_apply]

theorem Solver.smul (h : Solver np Ac dAc c s) (k : Rat) (b : Block) {j : Nat} (hj : j < np) : s (k • b) j = k * s b j := by
  have := h.unique (b := k • b) (u := k • s b) (fun i hi => by rw [mul_smul', h.sol _ _ hi, Pi.smul_apply, smul_eq_mul]) hj
  rw [← this, Pi.smul_apply, smul_eq_mul]

theorem Solver.congr (h : Solver np Ac dAc c s) {a b : Block} (hab : ∀ i, i < np → a i = b i) {j : Nat} (hj : j < np) : s a j = s b j :=
  h.unique (fun i hi => by rw [h.sol _ _ hi, hab i hi]) hj

/-- Total volume of the solution. -/
def Solver.L (h : Solver np Ac dAc c s) : (Nat → Rat) →ₗ[Rat] Rat where
  toFun b := ∑ i ∈ Finset.range np, s b i
  map_add' a b := by rw [← Finset.sum_add_distrib]; exact Finset.sum_congr rfl fun j hj => h.add a b (Finset.mem_range.1 hj)
  map_smul' k b := by rw [RingHom.id_apply, smul_eq_mul, Finset.mul_sum]; exact Finset.sum_congr rfl fun j hj => h.smul k b (Finset.mem_range.1 hj)

theorem Solver.L_eq (h : Solver np Ac dAc c s) (b : Block) : sumN np (s b) = h.L b := sumN_eq _ _

theorem Solver.L_congr (h : Solver np Ac dAc c s) {a b : Block} (hab : ∀ i, i < np → a i = b i) : h.L a = h.L b :=
  Finset.sum_congr rfl fun _ hj => h.congr hab (Finset.mem_range.1 hj)

/-- Total volume after the derivative of the fluid matrix. -/
def Solver.L2 (h : Solver np Ac dAc c s) : (Nat → Rat) →ₗ[Rat] Rat where
  toFun b := h.L (fun i => mul dAc np c (s b) i)
  map_add' a b := by
    rw [← LinearMap.map_add]
    refine h.L_congr fun i _ => ?_
    rw [Pi.add_apply, ← mul_add']
    exact mul_congr (fun j hj => h.add a b hj) i
  map_smul' k b := by
    rw [RingHom.id_apply, ← LinearMap.map_smul]
    refine h.L_congr fun i _ => ?_
    rw [Pi.smul_apply, smul_eq_mul, ← mul_smul']
    exact mul_congr (fun j hj => h.smul k b hj) i

theorem Solver.L2_eq (h : Solver np Ac dAc c s) (b : Block) : h.L2 b = h.L (fun i => mul dAc np c (s b) i) := rfl

/-- Moving a linear functional into a sum of functions. -/
theorem map_sum_fun (T : (Nat → Rat) →ₗ[Rat] Rat) (S : Finset Nat) (g : Nat → Nat → Rat) : T (fun i => ∑ f ∈ S, g f i) = ∑ f ∈ S, T (g f) := by
  rw [← map_sum]
  congr 1
  funext i
  rw [Finset.sum_apply]

theorem map_outflow (T : (Nat → Rat) →ₗ[Rat] Rat) (G : GridTopo) (q : Nat → Nat → Rat) (c : Nat) :
    T (fun i => G.netOutflow (fun f => q i f) c) = G.netOutflow (fun f => T (fun i => q i f)) c := by
  unfold GridTopo.netOutflow
  rw [map_sum_fun]
  refine Finset.sum_congr rfl fun f _ => ?_
  have : (fun i => (if G.faceCells[2 * f]? = some (c : Int) then q i f else 0) - (if G.faceCells[2 * f + 1]? = some (c : Int) then q i f else 0)) =
      ((if G.faceCells[2 * f]? = some (c : Int) then (1 : Rat) else 0) - (if G.faceCells[2 * f + 1]? = some (c : Int) then 1 else 0)) • (fun i => q i f) := by
    funext i
    rw [Pi.smul_apply, smul_eq_mul]
    split <;> split <;> ring
  rw [this, LinearMap.map_smul, smul_eq_mul]
  split <;> split <;> ring

/-! ## Fluxes through faces -/

/-- Both sides of face `f` are cells. -/
def Int2 (G : GridTopo) (f : Nat) : Prop := 0 ≤ G.faceCells.getD (2 * f) (-1) ∧ 0 ≤ G.faceCells.getD (2 * f + 1) (-1)

instance (G : GridTopo) (f : Nat) : Decidable (Int2 G f) := by unfold Int2; infer_instance

/-- The stored fluxes of interior faces are those of the specification. -/
structure FaceOk (I : Input) (face : List Comp) : Prop where
  len : I.G.nf ≤ face.length
  flux : ∀ f, f < I.G.nf → Int2 I.G f → (face.getD f default).flux = fun i => faceComp I (given I) 1 i f
  deriv : ∀ f, f < I.G.nf → Int2 I.G f → ∀ y : Nat → Rat, (fun i => (face.getD f default).d0 i * y (side1 I.G f) + (face.getD f default).d1 i * y (side2 I.G f)) =
    fun i => faceComp I y 0 i f

theorem getD_set_list {α : Type} {l : List α} {k : Nat} {v d : α} (h : k < l.length) (j : Nat) : (l.set k v).getD j d = if j = k then v else l.getD j d := by
  by_cases hj : j = k
  · subst hj; simp [List.getD_eq_getElem?_getD, h]
  · simp [List.getD_eq_getElem?_getD, hj, Ne.symm hj]

theorem rd_getD {α : Type} {l : List α} {k : Nat} {d : α} (h : k < l.length) : rd l k = .ok (l.getD k d) := by
  rw [rd_ok h]
  simp [List.getD_eq_getElem?_getD, h]

theorem times_face (I : Input) (f : Nat) (hi : Int2 I.G f) :
    let X := times I.cq.np (fun j => I.cq.Af.getD (f * (I.cq.np * I.cq.np) + j) 0) (darcy (I.trans.getD f 0) (given I (side1 I.G f) - given I (side2 I.G f))
      (fun j => I.cq.phasemobf.getD (f * I.cq.np + j) 0) (fun j => I.gravcap.getD (f * I.cq.np + j) 0))
    X.flux = (fun i => faceComp I (given I) 1 i f) ∧ ∀ y : Nat → Rat, (fun i => X.d0 i * y (side1 I.G f) + X.d1 i * y (side2 I.G f)) = fun i => faceComp I y 0 i f := by
  dsimp only [times, darcy]
  unfold Int2 at hi
  refine ⟨?_, fun y => ?_⟩
  · rw [matvec_eq]
    funext i
    unfold faceComp
    rw [if_pos hi]
    refine mul_congr (fun p _ => ?_) i
    unfold faceVel ent
    ring
  · rw [matvec_eq, matvec_eq]
    funext i
    unfold faceComp
    rw [if_pos hi]
    dsimp only
    unfold mul
    rw [Finset.sum_mul, Finset.sum_mul, ← Finset.sum_add_distrib]
    refine Finset.sum_congr rfl fun p _ => ?_
    unfold faceVel ent
    ring

theorem compFlux_ok {I : Input} (h : InputOk I) {face : List Comp} (hl : I.G.nf ≤ face.length) :
    ∃ face', compFlux I.G I.cq.np I.cpress I.trans I.cq.phasemobf I.gravcap I.cq.Af face = .ok face' ∧ face'.length = face.length ∧ FaceOk I face' := by
  obtain ⟨t, e, hlen, ht⟩ := loop_inv (n := I.G.nf) (s := face) (f := fun f face => do
    let c1 ← rd I.G.faceCells (2 * f)
    let c2 ← rd I.G.faceCells (2 * f + 1)
    if 0 ≤ c1 ∧ 0 ≤ c2 then do
      let p1 ← rd I.cpress c1.toNat
      let p2 ← rd I.cpress c2.toNat
      let t ← rd I.trans f
      let mob ← block I.cq.phasemobf (f * I.cq.np) I.cq.np
      let g ← block I.gravcap (f * I.cq.np) I.cq.np
      let A ← block I.cq.Af (f * (I.cq.np * I.cq.np)) (I.cq.np * I.cq.np)
      wr face f (times I.cq.np A (darcy t (p1 - p2) mob g))
    else .ok face)
    (fun n t => t.length = face.length ∧ ∀ f, f < n → Int2 I.G f → (t.getD f default).flux = (fun i => faceComp I (given I) 1 i f) ∧
      ∀ y : Nat → Rat, (fun i => (t.getD f default).d0 i * y (side1 I.G f) + (t.getD f default).d1 i * y (side2 I.G f)) = fun i => faceComp I y 0 i f)
    ⟨rfl, fun f hf => absurd hf (by omega)⟩
    (by
      rintro f t hf ⟨hl', hP⟩
      obtain ⟨a, b, hs⟩ := h.valid.sides hf
      obtain ⟨ra, rb⟩ := h.valid.side_range hs
      rw [rd_of_getElem? hs.1, bind_ok, rd_of_getElem? hs.2, bind_ok]
      by_cases hi : 0 ≤ a ∧ 0 ≤ b
      · have hI : Int2 I.G f := by unfold Int2; rw [getD_of_getElem? hs.1, getD_of_getElem? hs.2]; exact hi
        have e1 : side1 I.G f = a.toNat := by unfold side1; rw [getD_of_getElem? hs.1]
        have e2 : side2 I.G f = b.toNat := by unfold side2; rw [getD_of_getElem? hs.2]
        have g1 : I.cpress.getD a.toNat 0 = given I (side1 I.G f) := by unfold given; rw [e1, if_pos (by omega)]
        have g2 : I.cpress.getD b.toNat 0 = given I (side2 I.G f) := by unfold given; rw [e2, if_pos (by omega)]
        have hc := h.cpress
        have htr := h.trans
        rw [if_pos hi, rd_getD (d := 0) (by omega), bind_ok, rd_getD (d := 0) (by omega), bind_ok, rd_getD (d := 0) (by omega), bind_ok, blk hf h.mob, bind_ok, blk hf h.gravcap, bind_ok,
          blk hf h.Af, bind_ok, wr_ok (by omega), g1, g2]
        refine ⟨_, rfl, by simp [hl'], fun j hj hij => ?_⟩
        rw [getD_set_list (by omega)]
        by_cases hjf : j = f
        · subst hjf
          rw [if_pos rfl]
          exact times_face I j hI
        · rw [if_neg hjf]
          exact hP j (by omega) hij
      · rw [if_neg hi]
        refine ⟨_, rfl, hl', fun j hj hij => ?_⟩
        by_cases hjf : j = f
        · subst hjf
          unfold Int2 at hij
          rw [getD_of_getElem? hs.1, getD_of_getElem? hs.2] at hij
          exact absurd hij hi
        · exact hP j (by omega) hij)
  exact ⟨t, e, hlen, by omega, fun f hf hi => (ht f hf hi).1, fun f hf hi => (ht f hf hi).2⟩

end Opm.CfsTpfa
