import Verif.Spec.CompressibleTpfa
import Verif.Proofs.CfsRock
import Verif.Props.MiscUtil
/-!
# Data of the pressure solver for compressible fluids
-/

namespace Opm.CompressibleTpfa
open Opm Opm.CfsTpfa
open _root_.Opm.IfsTpfa (numPerf numWells index index_ok getD_of_getElem?)
open _root_.Opm.MiscBlackoil (sub)
open _root_.Opm.MiscUtil (vresize length_vresize)

/-- What `put` makes. -/
def putL (a : List Rat) (off n : Nat) (v : Block) : List Rat := (List.range a.length).map (fun k => if off ≤ k ∧ k < off + n then v (k - off) else a.getD k 0)

theorem put_ok {a : List Rat} {off n : Nat} (v : Block) (h : off + n ≤ a.length) : put a off n v = .ok (putL a off n v) := if_pos h

theorem length_putL (a : List Rat) (off n : Nat) (v : Block) : (putL a off n v).length = a.length := by simp [putL]

theorem row_le {n k i : Nat} (hi : i < n) : i * k + k ≤ n * k := by
  have : (i + 1) * k ≤ n * k := Nat.mul_le_mul_right _ hi
  rw [Nat.succ_mul] at this
  exact this

theorem getD_putL {a : List Rat} {n k i i' j : Nat} (v : Block) (hl : n * k ≤ a.length) (hi : i < n) (hj : j < k) :
    (putL a (i' * k) k v).getD (i * k + j) 0 = if i = i' then v j else a.getD (i * k + j) 0 := by
  have hlt : i * k + j < a.length := by have := row_le (k := k) hi; omega
  unfold putL
  rw [List.getD_eq_getElem?_getD, List.getElem?_map, List.getElem?_range hlt]
  dsimp only [Option.map, Option.getD]
  by_cases e : i = i'
  · subst e
    rw [if_pos ⟨by omega, by omega⟩, if_pos rfl]
    congr 1
    omega
  · rw [if_neg e, if_neg]
    rintro ⟨h1, h2⟩
    rcases Nat.lt_or_gt_of_ne e with h | h
    · have := row_le (k := k) h; omega
    · have := row_le (k := k) h; omega

theorem loop_put {n k : Nat} {f : Nat → List Rat → M (List Rat)} {s : List Rat} (V : Nat → Block) (hs : s.length = n * k) (hf : ∀ i t, i < n → f i t = put t (i * k) k (V i)) :
    ∃ t, loop n f s = .ok t ∧ t.length = n * k ∧ ∀ i j, i < n → j < k → t.getD (i * k + j) 0 = V i j := by
  obtain ⟨t, e, h1, h2⟩ := loop_inv (n := n) (f := f) (s := s) (fun m (t : List Rat) => t.length = n * k ∧ ∀ i j, i < m → i < n → j < k → t.getD (i * k + j) 0 = V i j) ⟨hs, by intro i j h; omega⟩ (by
    rintro i t hi ⟨h1, h2⟩
    rw [hf i t hi, put_ok _ (by rw [h1]; exact row_le hi)]
    refine ⟨_, rfl, by rw [length_putL, h1], fun i' j hi' hin hj => ?_⟩
    rw [getD_putL _ h1.ge hin hj]
    split
    · rename_i e; rw [e]
    · exact h2 i' j (by omega) hin hj)
  exact ⟨t, e, h1, fun i j hi hj => h2 i j hi hi hj⟩

theorem sub_ok {l : List Rat} {n c k : Nat} (hc : c < n) (h : n * k ≤ l.length) : sub l (c * k) k = .ok (point l c k) := if_pos (le_trans (row_le hc) h)

theorem divide_ok {n : Nat} {a b : Block} (h : ∀ p, p < n → b p ≠ 0) : divide n a b = .ok (fun p => a p / b p) := by
  unfold divide
  rw [if_pos]
  rw [List.all_eq_true]
  intro p hp
  exact decide_eq_true (h p (List.mem_range.1 hp))

theorem cellBlocks_ok {I : Input} {st : State} (hp : st.pressure.length = I.G.nc) (hz : st.surfacevol.length = I.G.nc * I.fluid.np) (n : Nat) (f : Rat → List Rat → Nat → Block) (a : List Rat) :
    ∃ t, cellBlocks I st n f a = .ok t ∧ t.length = I.G.nc * n ∧ ∀ c j, c < I.G.nc → j < n → t.getD (c * n + j) 0 = f (st.pressure.getD c 0) (point st.surfacevol c I.fluid.np) c j := by
  unfold cellBlocks
  exact loop_put (fun c => f (st.pressure.getD c 0) (point st.surfacevol c I.fluid.np) c) (length_vresize _ _) (fun c t hc => by
    rw [rd_getD (d := 0) (by omega), bind_ok, sub_ok hc hz.ge, bind_ok])

theorem cellMobilities_ok {I : Input} (hI : InputOk I) {st : State} (hp : st.pressure.length = I.G.nc) (hz : st.surfacevol.length = I.G.nc * I.fluid.np)
    (hs : st.saturation.length = I.G.nc * I.fluid.np) (a : List Rat) :
    ∃ t, cellMobilities I st a = .ok t ∧ t.length = I.G.nc * I.fluid.np ∧ ∀ c j, c < I.G.nc → j < I.fluid.np → t.getD (c * I.fluid.np + j) 0 = mobilityAt I st c j := by
  unfold cellMobilities
  exact loop_put (fun c => mobilityAt I st c) (length_vresize _ _) (fun c t hc => by
    rw [rd_getD (d := 0) (by omega), bind_ok, sub_ok hc hz.ge, bind_ok, sub_ok hc hs.ge, bind_ok, divide_ok (fun p hp => hI.viscous _ _ _ _ hp), bind_ok]
    rfl)

/-- Pore volumes and rock compressibilities held by the members. -/
structure RockAt (I : Input) (m k : Rat → Rat) (st : State) (pv rc : List Rat) : Prop where
  pvLen : pv.length = I.G.nc
  pv : ∀ c, c < I.G.nc → pv.getD c 0 = poreVolume I m c (st.pressure.getD c 0)
  rc : activeRock I ≠ none → rc.length = I.G.nc ∧ ∀ c, c < I.G.nc → rc.getD c 0 = k (st.pressure.getD c 0)

theorem rockPart_ok {I : Input} (hI : InputOk I) {m k : Rat → Rat} (hr : RockIs I m k) {st : State} (hp : st.pressure.length = I.G.nc) {pv rc : List Rat}
    (h : activeRock I = none → pv.length = I.G.nc ∧ ∀ c, c < I.G.nc → pv.getD c 0 = I.porosity.getD c 0 * I.vol.getD c 0) :
    ∃ r, rockPart I st pv rc = .ok r ∧ RockAt I m k st r.1 r.2 ∧ (activeRock I = none → r = (pv, rc)) := by
  unfold rockPart
  cases ha : activeRock I with
  | none =>
    obtain ⟨l, v⟩ := h ha
    refine ⟨_, rfl, ⟨l, fun c hc => ?_, fun hn => absurd ha hn⟩, fun _ => rfl⟩
    unfold poreVolume
    rw [v c hc, (hr.rigid ha _).1, mul_one]
  | some r =>
    obtain ⟨hm, hk⟩ := hr.active r ha
    obtain ⟨pv', e1, l1, v1⟩ := MiscUtil.porevolume_comp_eq I.G.nc pv (pressure := st.pressure) hm hI.vol hI.porosity hp.ge
    obtain ⟨rc', e2, l2, v2, _⟩ := IfsTpfa.loop_write (n := I.G.nc) (s := vresize rc I.G.nc) (f := fun c a => do
      let p ← rd st.pressure c
      let v ← r.rockComp p
      wr a c v) (fun c => k (st.pressure.getD c 0)) (by rw [length_vresize]) (fun c t hc _ => by rw [rd_getD (d := 0) (by omega), bind_ok, hk, bind_ok])
    dsimp only
    rw [e1, bind_ok, e2, bind_ok]
    exact ⟨_, rfl, ⟨l1, v1, fun _ => ⟨by rw [l2, length_vresize], v2⟩⟩, fun h => by cases h⟩

/-- Properties of cells held by the members. -/
structure CellsAt (I : Input) (st : State) (S : Solver) : Prop where
  ALen : S.cellA.length = I.G.nc * (I.fluid.np * I.fluid.np)
  A : ∀ c j, c < I.G.nc → j < I.fluid.np * I.fluid.np → S.cellA.getD (c * (I.fluid.np * I.fluid.np) + j) 0 = matrixAt I st c j
  dALen : S.cellDA.length = I.G.nc * (I.fluid.np * I.fluid.np)
  dA : ∀ c j, c < I.G.nc → j < I.fluid.np * I.fluid.np → S.cellDA.getD (c * (I.fluid.np * I.fluid.np) + j) 0 = dmatrixAt I st c j
  mobLen : S.cellMob.length = I.G.nc * I.fluid.np
  mob : ∀ c p, c < I.G.nc → p < I.fluid.np → S.cellMob.getD (c * I.fluid.np + p) 0 = mobilityAt I st c p

/-- The parts of the members that do not change in a call. -/
structure Static (I : Input) (W : Option Wells.W) (S : Solver) : Prop where
  htLen : I.G.cellFacepos.getD I.G.nc 0 ≤ S.htrans.length
  ht : ∀ c f i, I.G.HalfFace c f i → S.htrans.getD i 0 = halfTrans I c f
  transLen : S.trans.length = I.G.nf
  trans : ∀ f, f < I.G.nf → 0 < S.trans.getD f 0 ∧ (∀ a b : Nat, I.G.Sides f a b → S.trans.getD f 0 = harmonic (halfTrans I a f) (halfTrans I b f))
  pv : activeRock I = none → S.porevol.length = I.G.nc ∧ ∀ c, c < I.G.nc → S.porevol.getD c 0 = I.porosity.getD c 0 * I.vol.getD c 0

theorem cellData_ok {I : Input} (hI : InputOk I) {m k : Rat → Rat} (hr : RockIs I m k) {W : Option Wells.W} {st : State} (hp : st.pressure.length = I.G.nc)
    (hz : st.surfacevol.length = I.G.nc * I.fluid.np) (hs : st.saturation.length = I.G.nc * I.fluid.np) {S : Solver} (hS : Static I W S) :
    ∃ A dA mb pv rc, cellData I st S = .ok { S with cellA := A, cellDA := dA, cellMob := mb, porevol := pv, rockComp := rc } ∧
      CellsAt I st { S with cellA := A, cellDA := dA, cellMob := mb, porevol := pv, rockComp := rc } ∧ RockAt I m k st pv rc ∧ (activeRock I = none → pv = S.porevol) := by
  unfold cellData
  obtain ⟨A, e1, l1, v1⟩ := cellBlocks_ok hp hz (I.fluid.np * I.fluid.np) I.fluid.matrix S.cellA
  obtain ⟨dA, e2, l2, v2⟩ := cellBlocks_ok hp hz (I.fluid.np * I.fluid.np) I.fluid.dmatrix S.cellDA
  obtain ⟨mb, e3, l3, v3⟩ := cellMobilities_ok hI hp hz hs S.cellMob
  obtain ⟨r, e4, hR, hn⟩ := rockPart_ok hI hr hp (rc := S.rockComp) hS.pv
  rw [e1, bind_ok, e2, bind_ok, e3, bind_ok, e4, bind_ok]
  exact ⟨A, dA, mb, r.1, r.2, rfl, ⟨l1, v1, l2, v2, l3, v3⟩, hR, fun h => by rw [hn h]⟩

theorem down_ok {I : Input} (hI : InputOk I) : down I = .ok (grav I) := by
  unfold down grav
  cases hg : I.gravity with
  | none => rfl
  | some g =>
    have := hI.gravity g hg
    have := hI.dim
    exact rd_getD (by omega)

theorem point_eq {l : List Rat} {n k c : Nat} (h : l.length = n * k) (hc : c < n) {v : Block} (hv : ∀ j, j < k → l.getD (c * k + j) 0 = v j) : point l c k = (List.range k).map v := by
  have hlen : (point l c k).length = k := by
    unfold point
    rw [List.length_take, List.length_drop]
    have := row_le (k := k) hc
    omega
  refine List.ext_getElem (by simp [hlen]) fun j h1 h2 => ?_
  rw [hlen] at h1
  have h3 := hv j h1
  rw [List.getD_eq_getElem?_getD, List.getElem?_eq_getElem (by have := row_le (k := k) hc; omega)] at h3
  simp only [point, List.getElem_take, List.getElem_drop, List.getElem_map, List.getElem_range]
  simpa using h3

theorem side_cell {I : Input} (hI : InputOk I) {st : State} (hp : st.pressure.length = I.G.nc) {S : Solver} (hC : CellsAt I st S) {f c : Nat} (hc : c < I.G.nc) :
    ∃ w, side I st S.cellA (grav I) (faceDepth I f) f (c : Int) = .ok (st.pressure.getD c 0, w) ∧ ∀ p, w p = head I st c f p := by
  unfold side
  rw [if_pos (by omega), Int.toNat_natCast, rd_getD (d := 0) (by omega), bind_ok]
  by_cases hg : grav I = 0
  · rw [if_neg (by simpa using hg)]
    exact ⟨_, rfl, fun p => by unfold head; rw [hg]; ring⟩
  · rw [if_pos hg]
    have h1 := hI.sizes.ccent
    have h2 := hI.dim
    have h3 := row_le (k := I.geo.d) hc
    rw [rd_getD (d := 0) (by omega), bind_ok, sub_ok hc hC.ALen.ge, bind_ok, point_eq hC.ALen hc (hC.A c · hc)]
    exact ⟨_, rfl, fun p => rfl⟩

theorem side_out {I : Input} {st : State} (hp : st.facepressure.length = I.G.nf) {A : List Rat} {g z : Rat} {f : Nat} (hf : f < I.G.nf) {c : Int} (hc : c < 0) :
    side I st A g z f c = .ok (st.facepressure.getD f 0, fun _ => 0) := by
  unfold side
  rw [if_neg (by omega), rd_getD (d := 0) (by omega), bind_ok]

theorem vectorLess_iff (a b : Block) : ∀ n i, vectorLess a b i n = true ↔ ∃ p, i ≤ p ∧ p < i + n ∧ a p < b p ∧ ∀ q, i ≤ q → q < p → a q = b q := by
  intro n
  induction n with
  | zero => intro i; simp only [vectorLess]; constructor
            · intro h; cases h
            · rintro ⟨p, h1, h2, _⟩; omega
  | succ n ih =>
    intro i
    unfold vectorLess
    split
    · rename_i h
      exact ⟨fun _ => ⟨i, le_refl _, by omega, h, fun q h1 h2 => by omega⟩, fun _ => rfl⟩
    · rename_i h
      split
      · rename_i h'
        constructor
        · intro h; cases h
        · rintro ⟨p, h1, h2, h3, h4⟩
          rcases Nat.eq_or_lt_of_le h1 with rfl | hlt
          · exact absurd h3 h
          · exact absurd (h4 i (le_refl _) hlt) (ne_of_gt h')
      · rename_i h'
        have heq : a i = b i := le_antisymm (not_lt.1 h') (not_lt.1 h)
        rw [ih]
        constructor
        · rintro ⟨p, h1, h2, h3, h4⟩
          exact ⟨p, by omega, by omega, h3, fun q g1 g2 => by
            rcases Nat.eq_or_lt_of_le g1 with rfl | hlt
            · exact heq
            · exact h4 q hlt g2⟩
        · rintro ⟨p, h1, h2, h3, h4⟩
          rcases Nat.eq_or_lt_of_le h1 with rfl | hlt
          · exact absurd h3 h
          · exact ⟨p, hlt, by omega, h3, fun q g1 g2 => h4 q (by omega) g2⟩

/-- Properties of one face. -/
structure FaceAt (I : Input) (st : State) (A mob g : List Rat) (f : Nat) : Prop where
  inner : ∀ a b : Nat, I.G.Sides f a b → (∀ p, p < I.fluid.np → g.getD (f * I.fluid.np + p) 0 = head I st a f p - head I st b f p) ∧
    ∃ u, FirstPhaseRule I st f a b u ∧ (∀ p, p < I.fluid.np → mob.getD (f * I.fluid.np + p) 0 = mobilityAt I st u p) ∧
      ∀ j, j < I.fluid.np * I.fluid.np → A.getD (f * (I.fluid.np * I.fluid.np) + j) 0 = matrixAt I st u j
  outer : ∀ c : Nat, I.G.Sides f c (-1) ∨ I.G.Sides f (-1) c → ∀ p, p < I.fluid.np → mob.getD (f * I.fluid.np + p) 0 = mobilityAt I st c p

theorem faceStep_ok {I : Input} (hI : InputOk I) {st : State} (hp : st.pressure.length = I.G.nc) (hfp : st.facepressure.length = I.G.nf) {S : Solver} (hC : CellsAt I st S)
    {f : Nat} (hf : f < I.G.nf) {t : List Rat × List Rat × List Rat} (h1 : t.1.length = I.G.nf * (I.fluid.np * I.fluid.np)) (h2 : t.2.1.length = I.G.nf * I.fluid.np)
    (h3 : t.2.2.length = I.G.nf * I.fluid.np) :
    ∃ a m g, faceStep I st S (grav I) f t = .ok (putL t.1 (f * (I.fluid.np * I.fluid.np)) (I.fluid.np * I.fluid.np) a, putL t.2.1 (f * I.fluid.np) I.fluid.np m,
        putL t.2.2 (f * I.fluid.np) I.fluid.np g) ∧
      (∀ x y : Nat, I.G.Sides f x y → (∀ p, p < I.fluid.np → g p = head I st x f p - head I st y f p) ∧ ∃ u, FirstPhaseRule I st f x y u ∧ (∀ p, p < I.fluid.np → m p = mobilityAt I st u p) ∧
        ∀ j, j < I.fluid.np * I.fluid.np → a j = matrixAt I st u j) ∧
      (∀ c : Nat, I.G.Sides f c (-1) ∨ I.G.Sides f (-1) c → ∀ p, p < I.fluid.np → m p = mobilityAt I st c p) := by
  obtain ⟨x, y, hs⟩ := hI.valid.sides hf
  have d1 := hI.sizes.fcent
  have d2 := hI.dim
  have d3 := row_le (k := I.geo.d) hf
  have r1 := row_le (k := I.fluid.np) hf
  have r2 := row_le (k := I.fluid.np * I.fluid.np) hf
  unfold faceStep
  rw [rd_getD (d := 0) (by omega), bind_ok, rd_of_getElem? hs.1, bind_ok, rd_of_getElem? hs.2, bind_ok]
  have fin : ∀ (s1 s2 : Rat × Block) (u : Nat), side I st S.cellA (grav I) (faceDepth I f) f x = .ok s1 → side I st S.cellA (grav I) (faceDepth I f) f y = .ok s2 →
      upwind I.fluid.np x y (fun p => s1.1 + (s1.2 p - s2.2 p)) (fun _ => s2.1) = .ok u → u < I.G.nc →
      (do
        let s1 ← side I st S.cellA (grav I) (faceDepth I f) f x
        let s2 ← side I st S.cellA (grav I) (faceDepth I f) f y
        let g ← put t.2.2 (f * I.fluid.np) I.fluid.np (fun p => s1.2 p - s2.2 p)
        let u ← upwind I.fluid.np x y (fun p => s1.1 + (s1.2 p - s2.2 p)) (fun _ => s2.1)
        let m ← block S.cellMob (u * I.fluid.np) I.fluid.np
        let m' ← put t.2.1 (f * I.fluid.np) I.fluid.np m
        let a ← block S.cellA (u * (I.fluid.np * I.fluid.np)) (I.fluid.np * I.fluid.np)
        let a' ← put t.1 (f * (I.fluid.np * I.fluid.np)) (I.fluid.np * I.fluid.np) a
        (.ok (a', m', g) : M (List Rat × List Rat × List Rat))) =
      .ok (putL t.1 (f * (I.fluid.np * I.fluid.np)) (I.fluid.np * I.fluid.np) (fun j => S.cellA.getD (u * (I.fluid.np * I.fluid.np) + j) 0),
        putL t.2.1 (f * I.fluid.np) I.fluid.np (fun j => S.cellMob.getD (u * I.fluid.np + j) 0), putL t.2.2 (f * I.fluid.np) I.fluid.np (fun p => s1.2 p - s2.2 p)) := by
    intro s1 s2 u e1 e2 e3 hu
    rw [e1, bind_ok, e2, bind_ok, put_ok _ (by omega), bind_ok, e3, bind_ok, blk hu hC.mobLen.ge, bind_ok, put_ok _ (by omega), bind_ok, blk hu hC.ALen.ge, bind_ok, put_ok _ (by omega), bind_ok]
  obtain ⟨rx, ry⟩ := hI.valid.side_range hs
  have inner : ∀ (z w : Nat), x = z → y = w → ∃ a m g, (do
        let s1 ← side I st S.cellA (grav I) (faceDepth I f) f x
        let s2 ← side I st S.cellA (grav I) (faceDepth I f) f y
        let g ← put t.2.2 (f * I.fluid.np) I.fluid.np (fun p => s1.2 p - s2.2 p)
        let u ← upwind I.fluid.np x y (fun p => s1.1 + (s1.2 p - s2.2 p)) (fun _ => s2.1)
        let m ← block S.cellMob (u * I.fluid.np) I.fluid.np
        let m' ← put t.2.1 (f * I.fluid.np) I.fluid.np m
        let a ← block S.cellA (u * (I.fluid.np * I.fluid.np)) (I.fluid.np * I.fluid.np)
        let a' ← put t.1 (f * (I.fluid.np * I.fluid.np)) (I.fluid.np * I.fluid.np) a
        (.ok (a', m', g) : M (List Rat × List Rat × List Rat))) = .ok (putL t.1 (f * (I.fluid.np * I.fluid.np)) (I.fluid.np * I.fluid.np) a, putL t.2.1 (f * I.fluid.np) I.fluid.np m,
        putL t.2.2 (f * I.fluid.np) I.fluid.np g) ∧ (∀ p, p < I.fluid.np → g p = head I st z f p - head I st w f p) ∧ ∃ u, FirstPhaseRule I st f z w u ∧
          (∀ p, p < I.fluid.np → m p = mobilityAt I st u p) ∧ ∀ j, j < I.fluid.np * I.fluid.np → a j = matrixAt I st u j := by
    intro z w hz hw
    have hzn : z < I.G.nc := by omega
    have hwn : w < I.G.nc := by omega
    obtain ⟨w1, e1, k1⟩ := side_cell hI hp hC (f := f) hzn
    obtain ⟨w2, e2, k2⟩ := side_cell hI hp hC (f := f) hwn
    have hiff : vectorLess (fun p => st.pressure.getD z 0 + (w1 p - w2 p)) (fun _ => st.pressure.getD w 0) 0 I.fluid.np = true ↔
        ∃ p, p < I.fluid.np ∧ potential I st z f p < potential I st w f p ∧ ∀ q, q < p → potential I st z f q = potential I st w f q := by
      rw [vectorLess_iff]
      constructor
      · rintro ⟨p, _, g2, g3, g4⟩
        refine ⟨p, by omega, ?_, fun q hq => ?_⟩
        · unfold potential; rw [← k1, ← k2]; linarith
        · have := g4 q (by omega) hq
          unfold potential; rw [← k1, ← k2]; linarith
      · rintro ⟨p, g2, g3, g4⟩
        refine ⟨p, by omega, by omega, ?_, fun q _ hq => ?_⟩
        · unfold potential at g3; rw [← k1, ← k2] at g3; linarith
        · have := g4 q hq
          unfold potential at this; rw [← k1, ← k2] at this; linarith
    let u := if vectorLess (fun p => st.pressure.getD z 0 + (w1 p - w2 p)) (fun _ => st.pressure.getD w 0) 0 I.fluid.np then w else z
    have hu : u < I.G.nc := by dsimp only [u]; split <;> assumption
    refine ⟨_, _, _, fin (st.pressure.getD z 0, w1) (st.pressure.getD w 0, w2) u (by rw [hz]; exact e1) (by rw [hw]; exact e2) ?_ hu, fun p _ => by rw [← k1, ← k2], u, ⟨fun h => ?_, fun h => ?_⟩,
      fun p hp => hC.mob u p hu hp, fun j hj => hC.A u j hu hj⟩
    · unfold upwind
      rw [if_pos (by omega)]
      dsimp only [u]
      split
      · rw [hw]; exact index_ok w
      · rw [hz]; exact index_ok z
    · dsimp only [u]; rw [if_pos (hiff.2 h)]
    · dsimp only [u]; rw [if_neg (fun h' => h (hiff.1 h'))]
  rcases rx with hx | hx
  · rcases ry with hy | hy
    · rw [hx, hy] at hs; exact absurd hs (hI.sided f hf)
    · obtain ⟨w, rfl⟩ := Int.eq_ofNat_of_zero_le hy.1
      have hwn : w < I.G.nc := by omega
      obtain ⟨w2, e2, k2⟩ := side_cell hI hp hC (f := f) hwn
      refine ⟨_, _, _, fin (st.facepressure.getD f 0, fun _ => 0) (st.pressure.getD w 0, w2) w (side_out hfp hf (by omega)) e2 ?_ hwn, fun z v hzv => ?_, fun c hc p hp => ?_⟩
      · unfold upwind
        rw [if_neg (by omega), if_neg (by omega)]; exact index_ok w
      · have := hs.unique hzv; omega
      · have : c = w := by
          rcases hc with hc | hc
          · have := hs.unique hc; omega
          · have := hs.unique hc; omega
        rw [this]
        exact hC.mob w p hwn hp
  · obtain ⟨z, rfl⟩ := Int.eq_ofNat_of_zero_le hx.1
    have hzn : z < I.G.nc := by omega
    rcases ry with hy | hy
    · obtain ⟨w1, e1, k1⟩ := side_cell hI hp hC (f := f) hzn
      refine ⟨_, _, _, fin (st.pressure.getD z 0, w1) (st.facepressure.getD f 0, fun _ => 0) z e1 (side_out hfp hf (by omega)) ?_ hzn, fun z v hzv => ?_, fun c hc p hp => ?_⟩
      · unfold upwind
        rw [if_neg (by omega), if_pos (by omega)]; exact index_ok z
      · have := hs.unique hzv; omega
      · have : c = z := by
          rcases hc with hc | hc
          · have := hs.unique hc; omega
          · have := hs.unique hc; omega
        rw [this]
        exact hC.mob z p hzn hp
    · obtain ⟨w, rfl⟩ := Int.eq_ofNat_of_zero_le hy.1
      obtain ⟨a, m, g, e, h⟩ := inner z w rfl rfl
      refine ⟨a, m, g, e, fun z' w' h' => ?_, fun c hc => ?_⟩
      · obtain ⟨e1, e2⟩ := hs.unique h'
        obtain rfl : z' = z := by omega
        obtain rfl : w' = w := by omega
        exact h
      · rcases hc with hc | hc
        · have := hs.unique hc; omega
        · have := hs.unique hc; omega

theorem faceData_ok {I : Input} (hI : InputOk I) {st : State} (hp : st.pressure.length = I.G.nc) (hfp : st.facepressure.length = I.G.nf) {S : Solver} (hC : CellsAt I st S) :
    ∃ A mb g, faceData I st S = .ok { S with faceA := A, faceMob := mb, gravcap := g } ∧ A.length = I.G.nf * (I.fluid.np * I.fluid.np) ∧ mb.length = I.G.nf * I.fluid.np ∧
      g.length = I.G.nf * I.fluid.np ∧ ∀ f, f < I.G.nf → FaceAt I st A mb g f := by
  unfold faceData
  rw [down_ok hI, bind_ok]
  obtain ⟨t, e, h1, h2, h3, h4⟩ := loop_inv (n := I.G.nf) (f := fun f t => faceStep I st S (grav I) f t)
    (s := (vresize S.faceA (I.G.nf * (I.fluid.np * I.fluid.np)), vresize S.faceMob (I.G.nf * I.fluid.np), vresize S.gravcap (I.G.nf * I.fluid.np)))
    (fun n (t : List Rat × List Rat × List Rat) => t.1.length = I.G.nf * (I.fluid.np * I.fluid.np) ∧ t.2.1.length = I.G.nf * I.fluid.np ∧ t.2.2.length = I.G.nf * I.fluid.np ∧
      ∀ f, f < n → f < I.G.nf → FaceAt I st t.1 t.2.1 t.2.2 f) ⟨length_vresize _ _, length_vresize _ _, length_vresize _ _, fun f h => by omega⟩ (by
    rintro f t hf ⟨h1, h2, h3, h4⟩
    obtain ⟨a, m, g, e, g1, g2⟩ := faceStep_ok hI hp hfp hC hf h1 h2 h3
    refine ⟨_, e, by rw [length_putL, h1], by rw [length_putL, h2], by rw [length_putL, h3], fun f' hlt hf' => ?_⟩
    dsimp only
    by_cases hff : f' = f
    · subst hff
      refine ⟨fun x y hs => ?_, fun c hc p hp => ?_⟩
      · obtain ⟨k1, u, k2, k3, k4⟩ := g1 x y hs
        refine ⟨fun p hp => ?_, u, k2, fun p hp => ?_, fun j hj => ?_⟩
        · rw [getD_putL _ h3.ge hf hp, if_pos rfl, k1 p hp]
        · rw [getD_putL _ h2.ge hf hp, if_pos rfl, k3 p hp]
        · rw [getD_putL _ h1.ge hf hj, if_pos rfl, k4 j hj]
      · rw [getD_putL _ h2.ge hf hp, if_pos rfl, g2 c hc p hp]
    · have h5 := h4 f' (by omega) hf'
      refine ⟨fun x y hs => ?_, fun c hc p hp => ?_⟩
      · obtain ⟨k1, u, k2, k3, k4⟩ := h5.inner x y hs
        refine ⟨fun p hp => ?_, u, k2, fun p hp => ?_, fun j hj => ?_⟩
        · rw [getD_putL _ h3.ge hf' hp, if_neg hff, k1 p hp]
        · rw [getD_putL _ h2.ge hf' hp, if_neg hff, k3 p hp]
        · rw [getD_putL _ h1.ge hf' hj, if_neg hff, k4 j hj]
      · rw [getD_putL _ h2.ge hf' hp, if_neg hff, h5.outer c hc p hp])
  rw [e, bind_ok]
  exact ⟨_, _, _, rfl, h1, h2, h3, fun f hf => h4 f hf hf⟩

/-- Properties of one perforation. -/
structure PerfAt (I : Input) (W : Wells.W) (st : State) (wdp A mob : List Rat) (w k : Nat) : Prop where
  producer : W.type[w]? = some .producer → (∀ p, p < I.fluid.np → mob.getD (k * I.fluid.np + p) 0 = mobilityAt I st (perfCell W k) p) ∧
    ∀ j, j < I.fluid.np * I.fluid.np → A.getD (k * (I.fluid.np * I.fluid.np) + j) 0 = matrixAt I st (perfCell W k) j
  injector : W.type[w]? = some .injector → (∀ p, p < I.fluid.np → mob.getD (k * I.fluid.np + p) 0 =
      I.fluid.relperm (point W.compFrac w I.fluid.np) (perfCell W k) p / I.fluid.viscosity (st.bhp.getD w 0 + wdp.getD k 0) (point W.compFrac w I.fluid.np) (perfCell W k) p) ∧
    ∀ j, j < I.fluid.np * I.fluid.np → A.getD (k * (I.fluid.np * I.fluid.np) + j) 0 = I.fluid.matrix (st.bhp.getD w 0 + wdp.getD k 0) (point W.compFrac w I.fluid.np) (perfCell W k) j

theorem fit_cell {I : Input} {W : Wells.W} (hW : WellsFit I W) {k : Nat} (hk : k < numPerf W) : W.cells[k]? = some ((perfCell W k : Nat) : Int) ∧ perfCell W k < I.G.nc := by
  obtain ⟨c, h1, h2⟩ := hW.perfs.cell k hk
  have : perfCell W k = c := by unfold perfCell; rw [getD_of_getElem? h1, Int.toNat_natCast]
  rw [this]
  exact ⟨h1, h2⟩

theorem perfBlocks_ok {I : Input} (hI : InputOk I) {W : Wells.W} (hW : WellsFit I W) {st : State} (hb : st.bhp.length = W.nw) {S : Solver} (hC : CellsAt I st S) (hd : S.wdp.length = numPerf W)
    {w k : Nat} (hw : w < W.nw) (hk : k < numPerf W) {ty : Wells.WellType} (hty : W.type[w]? = some ty) :
    ∃ a m, perfBlocks I W st S w ty k = .ok (a, m) ∧
      (ty = .producer → (∀ p, p < I.fluid.np → m p = mobilityAt I st (perfCell W k) p) ∧ ∀ j, j < I.fluid.np * I.fluid.np → a j = matrixAt I st (perfCell W k) j) ∧
      (ty = .injector → (∀ p, p < I.fluid.np → m p =
        I.fluid.relperm (point W.compFrac w I.fluid.np) (perfCell W k) p / I.fluid.viscosity (st.bhp.getD w 0 + S.wdp.getD k 0) (point W.compFrac w I.fluid.np) (perfCell W k) p) ∧
        ∀ j, j < I.fluid.np * I.fluid.np → a j = I.fluid.matrix (st.bhp.getD w 0 + S.wdp.getD k 0) (point W.compFrac w I.fluid.np) (perfCell W k) j) := by
  obtain ⟨h1, h2⟩ := fit_cell hW hk
  unfold perfBlocks
  rw [rd_of_getElem? h1, bind_ok, index_ok, bind_ok]
  cases ty with
  | producer =>
    dsimp only
    rw [blk h2 hC.ALen.ge, bind_ok, blk h2 hC.mobLen.ge, bind_ok]
    exact ⟨_, _, rfl, fun _ => ⟨fun p hp => hC.mob _ p h2 hp, fun j hj => hC.A _ j h2 hj⟩, fun h => by cases h⟩
  | injector =>
    dsimp only
    have h3 := hW.one w hw hty
    rw [rd_getD (d := 0) (by omega), bind_ok, rd_getD (d := 0) (by omega), bind_ok, sub_ok hw hW.frac, bind_ok, decide_eq_true h3]
    rw [show check true = .ok () from rfl, bind_ok, divide_ok (fun p hp => hI.viscous _ _ _ _ hp), bind_ok]
    exact ⟨_, _, rfl, fun h => (by cases h), fun _ => ⟨fun p _ => rfl, fun j _ => rfl⟩⟩

theorem wellData_ok {I : Input} (hI : InputOk I) {W : Wells.W} (hW : WellsFit I W) {st : State} (hb : st.bhp.length = W.nw) {S : Solver} (hC : CellsAt I st S) (hd : S.wdp.length = numPerf W) :
    ∃ A mb, wellData I (some W) st S = .ok { S with perfA := A, perfMob := mb } ∧ A.length = numPerf W * (I.fluid.np * I.fluid.np) ∧ mb.length = numPerf W * I.fluid.np ∧
      ∀ w k, w < W.nw → W.connpos.getD w 0 ≤ k → k < W.connpos.getD (w + 1) 0 → PerfAt I W st S.wdp A mb w k := by
  unfold wellData
  dsimp only
  have hp := hW.perfs.pos
  have e0 : rd W.connpos W.nw = .ok (numPerf W) := rd_of_getElem? (hp.get (le_refl _))
  rw [e0, bind_ok]
  obtain ⟨t, e, h1, h2, h4⟩ := rowLoopPre_inv hp (pre := fun w => rd W.type w) (f := fun w ty j (t : List Rat × List Rat) => do
      let v ← perfBlocks I W st S w ty j
      let a ← put t.1 (j * (I.fluid.np * I.fluid.np)) (I.fluid.np * I.fluid.np) v.1
      let m ← put t.2 (j * I.fluid.np) I.fluid.np v.2
      .ok (a, m)) (s := (vresize S.perfA (numPerf W * (I.fluid.np * I.fluid.np)), vresize S.perfMob (numPerf W * I.fluid.np)))
    (fun w => W.type.getD w .injector) (fun w hw => rd_getD (by have := hW.type; omega))
    (fun _ i (t : List Rat × List Rat) => t.1.length = numPerf W * (I.fluid.np * I.fluid.np) ∧ t.2.length = numPerf W * I.fluid.np ∧
      ∀ w k, w < W.nw → W.connpos.getD w 0 ≤ k → k < W.connpos.getD (w + 1) 0 → k < i → PerfAt I W st S.wdp t.1 t.2 w k)
    ⟨length_vresize _ _, length_vresize _ _, fun w k _ _ _ h => absurd h (by omega)⟩
    (by
      rintro w k t hw g1 g2 ⟨h1, h2, h3⟩
      have hk : k < numPerf W := hp.lt_total hw g2
      have hty : W.type[w]? = some (W.type.getD w .injector) := by
        have := hW.type
        rw [List.getD_eq_getElem?_getD, List.getElem?_eq_getElem (by omega)]; rfl
      obtain ⟨a, m, e, k1, k2⟩ := perfBlocks_ok hI hW hb hC hd hw hk hty
      rw [e, bind_ok]
      dsimp only
      have r1 := row_le (k := I.fluid.np) hk
      have r2 := row_le (k := I.fluid.np * I.fluid.np) hk
      rw [put_ok _ (by omega), bind_ok, put_ok _ (by omega), bind_ok]
      refine ⟨_, rfl, by rw [length_putL, h1], by rw [length_putL, h2], fun w' k' hw' g1' g2' hlt => ?_⟩
      dsimp only
      have hk' : k' < numPerf W := hp.lt_total hw' g2'
      by_cases hkk : k' = k
      · subst hkk
        obtain rfl : w' = w := hp.row_unique hw' hw g1' g2' g1 g2
        refine ⟨fun ht => ?_, fun ht => ?_⟩
        · obtain ⟨m1, m2⟩ := k1 (Option.some.inj (hty.symm.trans ht))
          exact ⟨fun p hp => by rw [getD_putL _ h2.ge hk hp, if_pos rfl, m1 p hp], fun j hj => by rw [getD_putL _ h1.ge hk hj, if_pos rfl, m2 j hj]⟩
        · obtain ⟨m1, m2⟩ := k2 (Option.some.inj (hty.symm.trans ht))
          exact ⟨fun p hp => by rw [getD_putL _ h2.ge hk hp, if_pos rfl, m1 p hp], fun j hj => by rw [getD_putL _ h1.ge hk hj, if_pos rfl, m2 j hj]⟩
      · have h5 := h3 w' k' hw' g1' g2' (by omega)
        refine ⟨fun ht => ?_, fun ht => ?_⟩
        · obtain ⟨m1, m2⟩ := h5.producer ht
          exact ⟨fun p hp => by rw [getD_putL _ h2.ge hk' hp, if_neg hkk, m1 p hp], fun j hj => by rw [getD_putL _ h1.ge hk' hj, if_neg hkk, m2 j hj]⟩
        · obtain ⟨m1, m2⟩ := h5.injector ht
          exact ⟨fun p hp => by rw [getD_putL _ h2.ge hk' hp, if_neg hkk, m1 p hp], fun j hj => by rw [getD_putL _ h1.ge hk' hj, if_neg hkk, m2 j hj]⟩)
    (fun w t _ ht => ht)
  rw [e, bind_ok]
  exact ⟨_, _, rfl, h1, h2, fun w k hw g1 g2 => h4 w k hw g1 g2 (hp.lt_total hw g2)⟩

theorem perfOffset_ok {I : Input} (hI : InputOk I) {W : Wells.W} (hW : WellsFit I W) {st : State} (hp : st.pressure.length = I.G.nc) (hz : st.surfacevol.length = I.G.nc * I.fluid.np)
    (hs : st.saturation.length = I.G.nc * I.fluid.np) {w k : Nat} (hk : k < numPerf W) : perfOffset I W st (grav I) (W.depthRef.getD w 0) k = .ok (offset I W st w (perfCell W k)) := by
  obtain ⟨h1, h2⟩ := fit_cell hW hk
  have d1 := hI.sizes.ccent
  have d2 := hI.dim
  have d3 := row_le (k := I.geo.d) h2
  unfold perfOffset
  rw [rd_of_getElem? h1, bind_ok, index_ok, bind_ok, rd_getD (d := 0) (by omega), bind_ok, rd_getD (d := 0) (by omega), bind_ok, sub_ok h2 hz.ge, bind_ok, blk h2 hs.ge, bind_ok]
  dsimp only
  rw [sumN_eq]
  rfl

theorem wellPotentials_ok {I : Input} (hI : InputOk I) {W : Wells.W} (hW : WellsFit I W) {st : State} (hp : st.pressure.length = I.G.nc) (hz : st.surfacevol.length = I.G.nc * I.fluid.np)
    (hs : st.saturation.length = I.G.nc * I.fluid.np) (old : List Rat) :
    ∃ d, wellPotentials I (some W) st old = .ok d ∧ d.length = numPerf W ∧
      ∀ w k, w < W.nw → W.connpos.getD w 0 ≤ k → k < W.connpos.getD (w + 1) 0 → d.getD k 0 = offset I W st w (perfCell W k) := by
  unfold wellPotentials
  dsimp only
  have hpos := hW.perfs.pos
  have e0 : rd W.connpos W.nw = .ok (numPerf W) := rd_of_getElem? (hpos.get (le_refl _))
  rw [e0, bind_ok, down_ok hI, bind_ok]
  have hrep : ∀ n k, (List.replicate n (0 : Rat)).getD k 0 = 0 := by
    intro n k
    rw [List.getD_eq_getElem?_getD, List.getElem?_replicate]
    split <;> rfl
  by_cases hg : grav I = 0
  · rw [if_pos hg]
    refine ⟨_, rfl, by simp, fun w k _ _ _ => ?_⟩
    rw [hrep]
    unfold offset
    rw [hg]
    simp
  · rw [if_neg hg]
    obtain ⟨t, e, l, ht, _⟩ := rowLoopPre_inv hpos (pre := fun w => rd W.depthRef w) (f := fun _ ref j wdp => do
        let v ← perfOffset I W st (grav I) ref j
        addAt wdp j v) (s := List.replicate (numPerf W) 0) (fun w => W.depthRef.getD w 0) (fun w hw => rd_getD (by have := hW.depth; omega))
      (fun _ i t => t.length = numPerf W ∧ (∀ w k, w < W.nw → W.connpos.getD w 0 ≤ k → k < W.connpos.getD (w + 1) 0 → k < i → t.getD k 0 = offset I W st w (perfCell W k)) ∧
        ∀ k, i ≤ k → t.getD k 0 = 0) ⟨by simp, fun w k _ _ _ h => absurd h (by omega), fun k _ => hrep _ _⟩
      (by
        rintro w k t hw g1 g2 ⟨h1, h2, h3⟩
        have hk : k < numPerf W := hpos.lt_total hw g2
        rw [perfOffset_ok hI hW hp hz hs hk, bind_ok, addAt_ok (by omega)]
        refine ⟨_, rfl, by simp [h1], fun w' k' hw' g1' g2' hlt => ?_, fun k' hk' => ?_⟩
        · rw [getD_set_list (by omega)]
          by_cases hkk : k' = k
          · subst hkk
            obtain rfl : w' = w := hpos.row_unique hw' hw g1' g2' g1 g2
            rw [if_pos rfl, h3 _ (le_refl _), zero_add]
          · rw [if_neg hkk]; exact h2 w' k' hw' g1' g2' (by omega)
        · rw [getD_set_list (by omega), if_neg (by omega)]
          exact h3 k' (by omega))
      (fun w t _ ht => ht)
    exact ⟨t, e, l, fun w k hw g1 g2 => ht w k hw g1 g2 (hpos.lt_total hw g2)⟩

end Opm.CompressibleTpfa
