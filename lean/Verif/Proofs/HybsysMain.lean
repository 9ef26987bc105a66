import Verif.Proofs.HybsysMatrix
/-!
# Hybrid systems: what a solution of the linear system satisfies
-/

namespace Opm.Hybsys
open Opm Opm.MiscUtil Opm.SparseSys
open Opm.IfsTpfa (getD_set MatOk ElmAt HasElm SysOk XR Res BcOk HasCond rowDot getD_of_getElem? double_first)

/-- The conditions found are those set. -/
theorem cond_iff {G : GridTopo} {bc : Option FlowBc.Bcs} {m : List Int} (hb : ∀ b, bc = some b → BcOk G b) {f : Nat}
    (hm : (m.getD f (-1) = -1 ∧ ∀ b, bc = some b → ∀ j, j < b.condPos.getD b.nbc 0 → b.face[j]? ≠ some (f : Int)) ∨
      ∃ (b : FlowBc.Bcs) (i j : Nat), bc = some b ∧ m.getD f (-1) = (i : Int) ∧ i < b.nbc ∧ b.condPos.getD i 0 ≤ j ∧ j < b.condPos.getD (i + 1) 0 ∧ b.face[j]? = some (f : Int))
    (ty : FlowBc.BcType) (v : Rat) : condAt m (bcTypes bc) (bcValues bc) f = some (ty, v) ↔ Cond bc ty v f := by
  unfold condAt Cond
  rcases hm with ⟨h1, h2⟩ | ⟨b, i, j, rfl, h1, h2, h3, h4, h5⟩
  · rw [if_pos h1]
    constructor
    · intro h; cases h
    · rintro ⟨b, rfl, i, j, a, e, q1, q2, q3, q4, q5, q6, q7, q8⟩
      have hB := hb b rfl
      have := getD_of_getElem? (d := 0) q5
      exact absurd q8 (h2 b rfl j (hB.pos.lt_total q1 (by omega)))
  · have hB := hb b rfl
    have ht := hB.type
    have hv := hB.value
    rw [h1, if_neg (by omega)]
    simp only [Int.toNat_natCast, Option.some.injEq, Prod.mk.injEq, bcTypes, bcValues]
    constructor
    · rintro ⟨rfl, rfl⟩
      refine ⟨b, rfl, i, j, _, _, h2, ?_, ?_, hB.pos.get (by omega), hB.pos.get (c := i + 1) h2, h3, h4, h5⟩
      · have : i < b.type.length := by omega
        simp [this]
      · have : i < b.value.length := by omega
        simp [this]
    · rintro ⟨b', hb', i', j', a, e, q1, q2, q3, q4, q5, q6, q7, q8⟩
      cases hb'
      have e1 := getD_of_getElem? (d := 0) q4
      have e2 := getD_of_getElem? (d := 0) q5
      have hjj := hB.once j j' (hB.pos.lt_total h2 h4) (hB.pos.lt_total q1 (by omega)) (by rw [h5, q8])
      have hii : i = i' := hB.pos.row_unique h2 q1 h3 h4 (by omega) (by omega)
      subst hii
      exact ⟨getD_of_getElem? q2, getD_of_getElem? q3⟩

theorem bcArr_of {G : GridTopo} {bc : Option FlowBc.Bcs} {m : List Int} (hb : ∀ b, bc = some b → BcOk G b) (hl : m.length = G.nf)
    (hm : ∀ f, f < G.nf → (m.getD f (-1) = -1 ∧ ∀ b, bc = some b → ∀ j, j < b.condPos.getD b.nbc 0 → b.face[j]? ≠ some (f : Int)) ∨
      ∃ (b : FlowBc.Bcs) (i j : Nat), bc = some b ∧ m.getD f (-1) = (i : Int) ∧ i < b.nbc ∧ b.condPos.getD i 0 ≤ j ∧ j < b.condPos.getD (i + 1) 0 ∧ b.face[j]? = some (f : Int)) :
    BcArr G.nf m (bcTypes bc) (bcValues bc) := by
  refine ⟨hl, fun f hf => ?_⟩
  rcases hm f hf with ⟨h, _⟩ | ⟨b, i, j, rfl, h1, h2, _⟩
  · exact Or.inl h
  · have hB := hb b rfl
    have ht := hB.type
    have hv := hB.value
    exact Or.inr ⟨i, h1, by show i < b.type.length; omega, by show i < b.value.length; omega⟩

/-- The data of the cells of a mesh. -/
def meshData (G : GridTopo) (Binv gpress src : List Rat) (F1 F2 : Nat → Nat → Rat) (L : Nat → Rat) : Data :=
  { pconn := G.cellFacepos, conn := G.cellFaces, Binv := Binv, gpress := gpress, src := src, F1 := F1, F2 := F2, L := L }

section
variable {G : GridTopo} {bc : Option FlowBc.Bcs} {src Binv gpress : List Rat} (p : Problem G bc src Binv gpress)
include p

theorem row_sum (u : Nat → Nat → Rat) (f : Nat) :
    (∑ c ∈ Finset.range G.nc, ∑ i ∈ Finset.range (deg G.cellFacepos c), if f = face G.cellFacepos G.cellFaces c i then u c i else 0) =
      ∑ c ∈ Finset.range G.nc, 1 * hw G.cellFacepos G.cellFaces u c f := by
  refine Finset.sum_congr rfl (fun c _ => ?_)
  rw [one_mul]
  rfl

/-- A face has one cell outside or two cells. -/
theorem cases_sides {f : Nat} (hf : f < G.nf) : (∃ a b : Nat, G.Sides f a b) ∨ (∃ a : Nat, G.Sides f a (-1)) ∨ ∃ b : Nat, G.Sides f (-1) b := by
  obtain ⟨a, b, hs⟩ := p.valid.sides hf
  have hr := GridTopo.Valid.side_range p.valid hs
  have hne := p.sides f
  rcases hr.1 with rfl | ⟨ha, _⟩
  · rcases hr.2 with rfl | ⟨hb, _⟩
    · exact absurd hs hne
    · obtain ⟨b, rfl⟩ := Int.eq_ofNat_of_zero_le hb
      exact Or.inr (Or.inr ⟨b, hs⟩)
  · obtain ⟨a, rfl⟩ := Int.eq_ofNat_of_zero_le ha
    rcases hr.2 with rfl | ⟨hb, _⟩
    · exact Or.inr (Or.inl ⟨a, hs⟩)
    · obtain ⟨b, rfl⟩ := Int.eq_ofNat_of_zero_le hb
      exact Or.inl ⟨a, b, hs⟩

theorem no_cond_inside {f : Nat} {a b : Nat} (hs : G.Sides f a b) (ty : FlowBc.BcType) (v : Rat) : ¬Cond bc ty v f := by
  rintro ⟨b', hb', i', j', a', e, q1, q2, q3, q4, q5, q6, q7, q8⟩
  have hB := p.bc b' hb'
  have e2 := getD_of_getElem? (d := 0) q5
  obtain ⟨f', c, hf', hs'⟩ := hB.face j' (hB.pos.lt_total q1 (by omega))
  rw [q8] at hf'
  have : f = f' := by
    have := Option.some.inj hf'
    omega
  subst this
  rcases hs' with hs' | hs'
  · have := (GridTopo.Sides.unique hs hs').2; omega
  · have := (GridTopo.Sides.unique hs hs').1; omega

variable {F1 F2 : Nat → Nat → Rat} {L : Nat → Rat} {co : Nat → Option (FlowBc.BcType × Rat)} {x : Nat → Rat}

/-- The equation of a half face without a prescribed pressure. -/
theorem term_eq {m : List Int} {ty : List FlowBc.BcType} {value : List Rat} (hc : ∀ f, co f = condAt m ty value f)
    (hF : ∀ c i, c < G.nc → i < deg G.cellFacepos c → F1 c i = ∑ j ∈ Finset.range (deg G.cellFacepos c), ip G.cellFacepos Binv c i j)
    (hpr : ∀ f, f < G.nf → ∀ v, pressOf (co f) = some v → x f = v) (c i : Nat) (hc' : c < G.nc) (hi : i < deg G.cellFacepos c)
    (hno : pressOf (co (face G.cellFacepos G.cellFaces c i)) = none) :
    rowTerm (meshData G Binv gpress src F1 F2 L) m ty value x c i =
      (meshData G Binv gpress src F1 F2 L).v c (fun j => x (face G.cellFacepos G.cellFaces c j)) i - fluxOf (co (face G.cellFacepos G.cellFaces c i)) := by
  unfold rowTerm
  have hno' : pressOf (condAt m ty value (face (meshData G Binv gpress src F1 F2 L).pconn (meshData G Binv gpress src F1 F2 L).conn c i)) = none := by
    rw [← hc]; exact hno
  rw [hno', Data.v_eq (meshData G Binv gpress src F1 F2 L) c (fun i hi => hF c i hc' hi) _ hi, ← hc]
  simp only
  have : ∑ j ∈ Finset.range ((meshData G Binv gpress src F1 F2 L).n c), (meshData G Binv gpress src F1 F2 L).S c i j *
        (pressOf (condAt m ty value (face (meshData G Binv gpress src F1 F2 L).pconn (meshData G Binv gpress src F1 F2 L).conn c j))).getD
          (x (face (meshData G Binv gpress src F1 F2 L).pconn (meshData G Binv gpress src F1 F2 L).conn c j)) =
      ∑ j ∈ Finset.range ((meshData G Binv gpress src F1 F2 L).n c), (meshData G Binv gpress src F1 F2 L).S c i j * x (face G.cellFacepos G.cellFaces c j) := by
    refine Finset.sum_congr rfl (fun j hj => ?_)
    congr 1
    show (pressOf (condAt m ty value (face G.cellFacepos G.cellFaces c j))).getD (x (face G.cellFacepos G.cellFaces c j)) = x (face G.cellFacepos G.cellFaces c j)
    rw [← hc]
    cases hpo : pressOf (co (face G.cellFacepos G.cellFaces c j)) with
    | none => rfl
    | some v => exact (hpr _ (face_get p.valid p.first hc' (Finset.mem_range.1 hj)).2 v hpo).symm
  rw [this]
  show _ = _ - fluxOf (co (face G.cellFacepos G.cellFaces c i))
  have e : face (meshData G Binv gpress src F1 F2 L).pconn (meshData G Binv gpress src F1 F2 L).conn c i = face G.cellFacepos G.cellFaces c i := rfl
  rw [e]
  ring

/-- What the half face fluxes satisfy if the equations of all faces hold. -/
theorem solve_core {m : List Int} {ty : List FlowBc.BcType} {value : List Rat} (hc : ∀ f, co f = condAt m ty value f) (hin : ∀ f (a b : Nat), G.Sides f a b → co f = none)
    (hF : ∀ c i, c < G.nc → i < deg G.cellFacepos c → F1 c i = ∑ j ∈ Finset.range (deg G.cellFacepos c), ip G.cellFacepos Binv c i j)
    (hS : ∀ c i, c < G.nc → i < deg G.cellFacepos c → (meshData G Binv gpress src F1 F2 L).S c i i ≠ 0)
    (hres : ∀ f, f < G.nf → (∑ c ∈ Finset.range G.nc, ∑ i ∈ Finset.range (deg G.cellFacepos c),
      if f = face G.cellFacepos G.cellFaces c i then rowTerm (meshData G Binv gpress src F1 F2 L) m ty value x c i else 0) = 0) :
    (∀ f, f < G.nf → ∀ v, pressOf (co f) = some v → x f = v) ∧
    (∀ c i, c < G.nc → i < deg G.cellFacepos c → pressOf (co (face G.cellFacepos G.cellFaces c i)) = none →
      rowTerm (meshData G Binv gpress src F1 F2 L) m ty value x c i =
        (meshData G Binv gpress src F1 F2 L).v c (fun j => x (face G.cellFacepos G.cellFaces c j)) i - fluxOf (co (face G.cellFacepos G.cellFaces c i))) := by
  have hpr : ∀ f, f < G.nf → ∀ v, pressOf (co f) = some v → x f = v := by
    intro f hf v hv
    have key : ∀ c : Nat, c < G.nc → (∀ φ : Nat → Rat, ∑ c ∈ Finset.range G.nc, φ c * hw G.cellFacepos G.cellFaces (rowTerm (meshData G Binv gpress src F1 F2 L) m ty value x) c f =
        φ c * hw G.cellFacepos G.cellFaces (rowTerm (meshData G Binv gpress src F1 F2 L) m ty value x) c f) → (∃ i, i < deg G.cellFacepos c ∧ face G.cellFacepos G.cellFaces c i = f) → x f = v := by
      rintro c hc' hsum ⟨i, hi, rfl⟩
      have h := hres _ hf
      rw [row_sum p, hsum (fun _ => 1), hw_face p.valid p.first hc' hi, one_mul] at h
      unfold rowTerm at h
      have hv' : pressOf (condAt m ty value (face (meshData G Binv gpress src F1 F2 L).pconn (meshData G Binv gpress src F1 F2 L).conn c i)) = some v := by
        rw [← hc]; exact hv
      rw [hv'] at h
      simp only at h
      rcases mul_eq_zero.1 h with h | h
      · exact absurd h (hS c i hc' hi)
      · have : (meshData G Binv gpress src F1 F2 L).pconn = G.cellFacepos ∧ (meshData G Binv gpress src F1 F2 L).conn = G.cellFaces := ⟨rfl, rfl⟩
        rw [this.1, this.2] at h
        linarith
    rcases cases_sides p hf with ⟨a, b, hs⟩ | ⟨a, hs⟩ | ⟨b, hs⟩
    · rw [hin f a b hs] at hv
      cases hv
    · have hr := GridTopo.Valid.side_range p.valid hs
      exact key a (by omega) (fun φ => sum_outer p.valid p.first hs (Or.inl ⟨rfl, rfl⟩) φ) (half_of p.valid p.first (by omega) hs (Or.inl rfl))
    · have hr := GridTopo.Valid.side_range p.valid hs
      exact key b (by omega) (fun φ => sum_outer p.valid p.first hs (Or.inr ⟨rfl, rfl⟩) φ) (half_of p.valid p.first (by omega) hs (Or.inr rfl))
  exact ⟨hpr, fun c i hc' hi hno => term_eq p hc hF hpr c i hc' hi hno⟩

/-- The half face fluxes are continuous and have the prescribed values. -/
theorem solve_flux {v : Nat → Nat → Rat} {R : Nat → Nat → Rat} (hin : ∀ f (a b : Nat), G.Sides f a b → co f = none)
    (hR : ∀ c i, c < G.nc → i < deg G.cellFacepos c → pressOf (co (face G.cellFacepos G.cellFaces c i)) = none → R c i = v c i - fluxOf (co (face G.cellFacepos G.cellFaces c i)))
    (hres : ∀ f, f < G.nf → (∑ c ∈ Finset.range G.nc, ∑ i ∈ Finset.range (deg G.cellFacepos c),
      if f = face G.cellFacepos G.cellFaces c i then R c i else 0) = 0) :
    (∀ f (a b : Nat), G.Sides f a b → hw G.cellFacepos G.cellFaces v a f + hw G.cellFacepos G.cellFaces v b f = 0) ∧
    ∀ f (c : Nat), (G.Sides f c (-1) ∨ G.Sides f (-1) c) → pressOf (co f) = none → hw G.cellFacepos G.cellFaces v c f = fluxOf (co f) := by
  have hwR : ∀ f (c : Nat) (a b : Int), G.Sides f a b → (a = c ∨ b = c) → pressOf (co f) = none → c < G.nc ∧
      hw G.cellFacepos G.cellFaces R c f = hw G.cellFacepos G.cellFaces v c f - fluxOf (co f) := by
    intro f c a b hs hab hno
    have hr := GridTopo.Valid.side_range p.valid hs
    have hc : c < G.nc := by omega
    obtain ⟨i, hi, rfl⟩ := half_of p.valid p.first hc hs hab
    exact ⟨hc, by rw [hw_face p.valid p.first hc hi, hw_face p.valid p.first hc hi, hR c i hc hi hno]⟩
  constructor
  · intro f a b hs
    have h := hres f (GridTopo.Sides.lt p.valid hs)
    have hno : pressOf (co f) = none := by rw [hin f a b hs]; rfl
    rw [row_sum p, sum_inner p.valid p.first hs (fun _ => 1), (hwR f a _ _ hs (Or.inl rfl) hno).2, (hwR f b _ _ hs (Or.inr rfl) hno).2, hin f a b hs] at h
    simp only [fluxOf] at h
    linarith
  · intro f c hs hno
    have hf : f < G.nf := by
      rcases hs with hs | hs
      · exact GridTopo.Sides.lt p.valid hs
      · exact GridTopo.Sides.lt p.valid hs
    have h := hres f hf
    rw [row_sum p] at h
    rcases hs with hs | hs
    · rw [sum_outer p.valid p.first hs (Or.inl ⟨rfl, rfl⟩) (fun _ => 1), (hwR f c _ _ hs (Or.inl rfl) hno).2] at h
      linarith
    · rw [sum_outer p.valid p.first hs (Or.inr ⟨rfl, rfl⟩) (fun _ => 1), (hwR f c _ _ hs (Or.inr rfl) hno).2] at h
      linarith

/-- The outflow of a cell through its faces is that of its half faces. -/
theorem outOf_eq {v : Nat → Nat → Rat} {q : Nat → Rat}
    (hin : ∀ f (a b : Nat), G.Sides f a b → q f = (hw G.cellFacepos G.cellFaces v a f - hw G.cellFacepos G.cellFaces v b f) / 2)
    (hout : ∀ f (a : Nat), G.Sides f a (-1) → q f = hw G.cellFacepos G.cellFaces v a f)
    (hout' : ∀ f (b : Nat), G.Sides f (-1) b → q f = -hw G.cellFacepos G.cellFaces v b f)
    (hcont : ∀ f (a b : Nat), G.Sides f a b → hw G.cellFacepos G.cellFaces v a f + hw G.cellFacepos G.cellFaces v b f = 0)
    {c i : Nat} (hc : c < G.nc) (hi : i < deg G.cellFacepos c) : outOf G q c i = v c i := by
  unfold outOf
  obtain ⟨g1, g2⟩ := face_get p.valid p.first hc hi
  have hwf := hw_face (v := v) p.valid p.first hc hi
  have hp := p.valid.rowPos p.first
  have h1 := pos_add hp hc
  have hhf : G.HasFace c (face G.cellFacepos G.cellFaces c i) := GridTopo.hasFace_of p.valid hc (i := G.cellFacepos.getD c 0 + i) (by omega) (by omega) g1
  generalize face G.cellFacepos G.cellFaces c i = f at *
  rcases cases_sides p g2 with ⟨a, b, hs⟩ | ⟨a, hs⟩ | ⟨b, hs⟩
  · have hd := p.valid.distinct f _ _ hs (by omega)
    have hq := hin f a b hs
    have hz := hcont f a b hs
    rw [hs.1, ← hwf]
    rcases (p.valid.agree c f a b hs).1 hhf with h | h
    · have : a = c := by omega
      subst this
      rw [if_pos rfl]; linarith
    · have : b = c := by omega
      subst this
      rw [if_neg (by simpa using hd)]; linarith
  · rcases (p.valid.agree c f a (-1) hs).1 hhf with h | h
    · have : a = c := by omega
      subst this
      rw [hs.1, if_pos rfl, hout f a hs, hwf]
    · omega
  · rcases (p.valid.agree c f (-1) b hs).1 hhf with h | h
    · omega
    · have : b = c := by omega
      subst this
      rw [hs.1, if_neg (by simp), hout' f b hs, hwf, neg_neg]

end

/-- The numbers of half faces are bounded by the maximum found. -/
theorem maxNgdof_ok {nc : Nat} {pconn : List Nat} (hp : RowPos nc pconn) : ∃ m, maxNgdof nc pconn = .ok m ∧ ∀ c, c < nc → deg pconn c ≤ m := by
  unfold maxNgdof
  obtain ⟨m, e, h⟩ := loop_inv (n := nc) (f := fun c m => do
    let p ← rd pconn c
    let e ← rd pconn (c + 1)
    .ok (max m (e - p))) (s := 0) (fun k (m : Nat) => ∀ c, c < k → deg pconn c ≤ m) (fun c hc => absurd hc (Nat.not_lt_zero _)) (by
    intro k m hk ih
    rw [rd_of_getElem? (hp.get (by omega)), bind_ok, rd_of_getElem? (hp.get (c := k + 1) hk), bind_ok]
    refine ⟨_, rfl, fun c hc => ?_⟩
    rcases Nat.lt_or_ge c k with h | h
    · exact le_trans (ih c h) (le_max_left _ _)
    · obtain rfl : c = k := by omega
      exact le_max_right _ _)
  exact ⟨m, e, h⟩

theorem init_ok {mx : Nat} {s : Sys} (h : mx ≤ s.one.length) : ∃ one, init mx s = .ok { s with one := one } ∧ one.length = s.one.length ∧ ∀ i, i < mx → one.getD i 0 = 1 := by
  unfold init
  obtain ⟨one, e, u⟩ := loop_upd (n := mx) (a := s.one) (f := fun i a => wr a i 1) 0 (fun _ => 1) (by omega) (by
    intro i t hi ht _
    rw [Nat.zero_add])
  rw [e, bind_ok]
  refine ⟨one, rfl, u.1, fun i hi => ?_⟩
  have := u.2.1 i hi
  rwa [Nat.zero_add] at this

/-- What the constructor makes. -/
theorem construct_ok (junk : Nat → Nat) (jd : Nat → Rat) {G : GridTopo} (hv : G.Valid) (h0 : G.cellFacepos[0]? = some 0) (hnf : 0 < G.nf) :
    ∃ h, ifshConstruct junk jd G = .ok h ∧ Fits G h ∧ SameArray h := by
  have hp := hv.rowPos h0
  obtain ⟨A, eA, hA⟩ := defineGlobconn_ok hv h0 junk hnf
  obtain ⟨mx, em, hm⟩ := maxNgdof_ok hp
  obtain ⟨one, eo, lo, vo⟩ := init_ok (mx := mx) (s := { L := (List.range G.nc).map jd, q := (List.range G.nc).map jd, F1 := (List.range (G.cellFacepos.getD G.nc 0)).map jd, F2 := (List.range (G.cellFacepos.getD G.nc 0)).map jd, r := (List.range mx).map jd, S := (List.range (mx * mx)).map jd, one := (List.range mx).map jd }) (by simp)
  unfold ifshConstruct
  rw [eA, bind_ok, em, bind_ok, rd_of_getElem? (hp.get (le_refl _)), bind_ok]
  simp only
  rw [eo, bind_ok]
  refine ⟨_, rfl, ⟨⟨junk, eA⟩, by simp, by simp, by simp, by simp, by simp, by simp, by simp, mx, hm, ?_, vo, by simp, by simp, by simp⟩, rfl⟩
  simp only
  rw [lo]
  simp

/-- The facts about solver data that the algorithms need. -/
theorem Fits.facts {G : GridTopo} (hv : G.Valid) (h0 : G.cellFacepos[0]? = some 0) (hnf : 0 < G.nf) {h : Fsh} (hm : Fits G h) :
    ∃ mx, (∀ c, c < G.nc → deg G.cellFacepos c ≤ mx) ∧ PatternOf G.nf (connItems G) h.A ∧ Sized G.nc G.cellFacepos mx h.sys ∧ SysOk h.A h.lin ∧
      mx ≤ h.work.length := by
  obtain ⟨mx, h1, h2, h3, h4, h5, h6⟩ := hm.loc
  obtain ⟨junk, e⟩ := hm.A
  obtain ⟨A, e', hA⟩ := defineGlobconn_ok hv h0 junk hnf
  rw [e] at e'
  cases e'
  exact ⟨mx, h1, hA, ⟨hm.L, hm.q, hm.F1, hm.F2, h2, h3, h4, h5⟩, ⟨hm.sa, hm.b⟩, h6⟩

theorem Fits.of {G : GridTopo} {h : Fsh} (hm : Fits G h) {mx : Nat} (h1 : ∀ c, c < G.nc → deg G.cellFacepos c ≤ mx) {s : Sys} (hs : Sized G.nc G.cellFacepos mx s) {t : IfsTpfa.Sys}
    (ht : SysOk h.A t) (hw : mx ≤ h.work.length) : Fits G { h with sys := s, lin := t } :=
  ⟨hm.A, ht.1, ht.2, hs.L, hs.q, hs.F1, hs.F2, hm.cflux, mx, h1, hs.one, hs.ones, hs.S, hs.r, hw⟩

/-- Whether a pressure is prescribed anywhere. -/
theorem numPressure_ok {G : GridTopo} (hv : G.Valid) (h0 : G.cellFacepos[0]? = some 0) {m : List Int} {ty : List FlowBc.BcType} {value : List Rat} (hb : BcArr G.nf m ty value) :
    ∃ n, numPressure G.nc G.cellFacepos G.cellFaces m ty = .ok n ∧
      (n = 0 ↔ ∀ c i, c < G.nc → i < deg G.cellFacepos c → pressOf (condAt m ty value (face G.cellFacepos G.cellFaces c i)) = none) := by
  have hp := hv.rowPos h0
  unfold numPressure
  obtain ⟨n, e, h⟩ := rowLoop_inv hp (s := 0) (f := fun _ i n => do
    let f ← rd G.cellFaces i
    let j ← rd m f
    if j ≠ -1 then do
      let t ← rdI ty j
      .ok (if t = .pressure then n + 1 else n)
    else .ok n) (fun _ j (n : Nat) => n = 0 ↔ ∀ k, k < j → pressOf (condAt m ty value (G.cellFaces.getD k 0)) = none)
    ⟨fun _ k hk => absurd hk (Nat.not_lt_zero _), fun _ => rfl⟩ (by
    intro c i n hc hi hi' ih
    obtain ⟨f, hf, hlt⟩ := hv.face_at hc hi'
    have hfd := getD_of_getElem? (d := 0) hf
    have hm : m[f]? = some (m.getD f (-1)) := by
      have : f < m.length := by rw [hb.1]; exact hlt
      simp [this]
    have snoc : ∀ (P : Nat → Prop), (∀ k, k < i + 1 → P k) ↔ (∀ k, k < i → P k) ∧ P i :=
      fun P => ⟨fun h => ⟨fun k hk => h k (by omega), h i (by omega)⟩, fun h k hk => by
        rcases Nat.lt_or_ge k i with h' | h'
        · exact h.1 k h'
        · obtain rfl : k = i := by omega
          exact h.2⟩
    rw [rd_of_getElem? hf, bind_ok, rd_of_getElem? hm, bind_ok]
    rcases hb.2 f hlt with h | ⟨j, h, hj, hj'⟩
    · rw [h, if_neg (by simp)]
      refine ⟨_, rfl, ?_⟩
      rw [snoc, ← ih, hfd]
      unfold condAt
      rw [if_pos h]
      simp [pressOf]
    · rw [h, if_pos (by omega)]
      have ht : ty[j]? = some (ty.getD j .noflow) := by simp [hj]
      rw [rdI_natCast, rd_of_getElem? ht, bind_ok]
      refine ⟨_, rfl, ?_⟩
      rw [snoc, ← ih, hfd]
      unfold condAt
      rw [h, if_neg (show ¬((j : Int) = -1) by omega), Int.toNat_natCast]
      cases ty.getD j .noflow <;> simp [pressOf]) (fun c t _ h => h)
  refine ⟨n, e, h.trans ⟨fun h c i hc hi => h _ (by have := pos_add hp hc; exact hp.lt_total hc (by omega)), fun h k hk => ?_⟩⟩
  obtain ⟨c, hc, h1, h2⟩ := RowPos.exists_row hp hk
  have := h c (k - G.cellFacepos.getD c 0) hc (by have := pos_add hp hc; omega)
  unfold face at this
  rwa [show G.cellFacepos.getD c 0 + (k - G.cellFacepos.getD c 0) = k by omega] at this

end Opm.Hybsys
