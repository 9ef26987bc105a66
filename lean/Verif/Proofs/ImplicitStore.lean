import Verif.Spec.ImplicitTransport
import Verif.Proofs.IfsFlux
import Verif.Props.Trans
import Verif.Props.Sources
import Mathlib.Tactic.Linarith
import Mathlib.Tactic.Ring
import Mathlib.Tactic.FieldSimp
import Mathlib.Tactic.Positivity
/-!
# Implicit transport: construction, and quantities of one iterate
-/

namespace Opm.ImplicitTransport
open Opm

theorem getD_set_int {l : List Int} {k j : Nat} {v : Int} (hk : k < l.length) : (l.set k v).getD j 0 = if j = k then v else l.getD j 0 := by
  by_cases h : j = k
  · subst h; simp [List.getD_eq_getElem?_getD, hk]
  · simp [List.getD_eq_getElem?_getD, h, Ne.symm h]

/-- `f2hf_` has, for each half-face, its position. -/
structure HalfOk (G : GridTopo) (h : List Int) : Prop where
  len : h.length = 2 * G.nf
  first : ∀ f c i : Nat, ∀ b, G.Sides f c b → G.HalfFace c f i → h.getD (2 * f) 0 = i
  second : ∀ f c i : Nat, ∀ a, G.Sides f a c → G.HalfFace c f i → h.getD (2 * f + 1) 0 = i

theorem halfFaces_ok {G : GridTopo} (hv : G.Valid) (h0 : G.cellFacepos[0]? = some 0) : ∃ h, halfFaces G = .ok h ∧ HalfOk G h := by
  have hp := hv.rowPos h0
  obtain ⟨h, e, hl, hP⟩ := rowLoop_inv hp (s := List.replicate (2 * G.nf) (-1 : Int)) (f := fun c i (h : List Int) => do
      let f ← rd G.cellFaces i
      let c1 ← rd G.faceCells (2 * f)
      wr h (2 * f + if c1 = (c : Int) then 0 else 1) (i : Int))
    (fun c p h => h.length = 2 * G.nf ∧ ∀ c' f i : Nat, G.HalfFace c' f i → (c' < c ∨ (c' = c ∧ i < p)) →
      (∀ b, G.Sides f c' b → h.getD (2 * f) 0 = i) ∧ ∀ a, G.Sides f a c' → h.getD (2 * f + 1) 0 = i)
    ⟨by simp, fun c' f i _ h => by omega⟩
    (by
      rintro c i h hc h1 h2 ⟨hl, ih⟩
      obtain ⟨f, hf, hlt⟩ := hv.face_at hc h2
      obtain ⟨a, b, hs⟩ := hv.sides hlt
      have hhf : G.HalfFace c f i := (Trans.halfFace_iff hv).2 ⟨hc, h1, h2, hf⟩
      have hab : a = (c : Int) ∨ b = (c : Int) := (hv.agree c f a b hs).1 (GridTopo.hasFace_of hv hc h1 h2 hf)
      have hk : (2 * f + if a = (c : Int) then 0 else 1) < h.length := by split <;> omega
      refine ⟨h.set (2 * f + if a = (c : Int) then 0 else 1) (i : Int), ?_, by simpa using hl, ?_⟩
      · rw [rd_of_getElem? hf, bind_ok, rd_of_getElem? hs.1, bind_ok, wr_ok hk]
      intro c' f' i' hh hcase
      have old : c' ≠ c ∨ f' ≠ f → (∀ b, G.Sides f' c' b → h.getD (2 * f') 0 = i') ∧ ∀ a, G.Sides f' a c' → h.getD (2 * f' + 1) 0 = i' := by
        intro hne
        refine ih c' f' i' hh ?_
        rcases hcase with h | ⟨rfl, h⟩
        · exact .inl h
        · refine .inr ⟨rfl, ?_⟩
          rcases Nat.lt_or_ge i' i with h' | h'
          · exact h'
          · obtain rfl : i' = i := by omega
            obtain ⟨_, _, _, h3⟩ := (Trans.halfFace_iff hv).1 hh
            rw [hf] at h3
            cases h3
            rcases hne with h | h <;> exact absurd rfl h
      constructor
      · intro b' hs'
        rw [getD_set_int hk]
        by_cases hff : f' = f
        · subst hff
          obtain ⟨rfl, rfl⟩ := hs.unique hs'
          by_cases hcc : (c' : Int) = c
          · have : c' = c := by omega
            subst this
            rw [if_pos rfl, if_pos (by omega)]
            exact_mod_cast Trans.halfFace_unique hv hhf hh
          · rw [if_neg (by rw [if_neg hcc]; omega)]
            exact (old (.inl (by omega))).1 _ hs'
        · rw [if_neg (by split <;> omega)]
          exact (old (.inr hff)).1 _ hs'
      · intro a' hs'
        rw [getD_set_int hk]
        by_cases hff : f' = f
        · subst hff
          obtain ⟨rfl, rfl⟩ := hs.unique hs'
          by_cases hcc : c' = c
          · subst hcc
            have hne : a ≠ (c' : Int) := by
              intro h
              exact hv.distinct _ _ _ hs (by omega) h
            rw [if_neg hne, if_pos rfl]
            exact_mod_cast Trans.halfFace_unique hv hhf hh
          · have : a = (c : Int) := by
              rcases hab with h | h
              · exact h
              · exact absurd (by omega) hcc
            rw [if_pos this, if_neg (by omega)]
            exact (old (.inl hcc)).2 _ hs'
        · rw [if_neg (by split <;> omega)]
          exact (old (.inr hff)).2 _ hs')
    (by
      rintro c h hc ⟨hl, ih⟩
      refine ⟨hl, fun c' f i hh hcase => ih c' f i hh ?_⟩
      rcases hcase with h | ⟨rfl, h⟩
      · rcases Nat.lt_or_ge c' c with h' | h'
        · exact .inl h'
        · obtain rfl : c' = c := by omega
          obtain ⟨_, _, h2, _⟩ := (Trans.halfFace_iff hv).1 hh
          exact .inr ⟨rfl, h2⟩
      · obtain ⟨hc', h1, _, _⟩ := (Trans.halfFace_iff hv).1 hh
        omega)
  refine ⟨h, e, hl, fun f c i b hs hh => ?_, fun f c i a hs hh => ?_⟩
  · exact (hP c f i hh (.inl (Trans.half_lt hv hh))).1 b hs
  · exact (hP c f i hh (.inl (Trans.half_lt hv hh))).2 a hs

theorem transmissibilities_ok {I : Input} (hI : InputOk I) {trans : List Rat} (ht : I.G.nf ≤ trans.length) :
    ∃ t, transmissibilities I.G I.htrans trans = .ok t ∧ t.length = trans.length ∧
      ∀ f, f < I.G.nf → 0 < t.getD f 0 ∧ I.G.IsTrans (fun _ i => I.htrans.getD i 0) f (t.getD f 0) := by
  have hp := hI.valid.rowPos hI.first
  have hget : ∀ c i, c < I.G.nc → i < I.G.cellFacepos.getD (c + 1) 0 → I.htrans[i]? = some (I.htrans.getD i 0) := by
    intro c i hc hi
    exact getElem?_getD (by have := hp.lt_total hc hi; have := hI.htrans; omega)
  have hw : ∀ c i, c < I.G.nc → I.G.cellFacepos.getD c 0 ≤ i → i < I.G.cellFacepos.getD (c + 1) 0 → 0 < I.htrans.getD i 0 := by
    intro c i hc _ hi
    exact hI.conducts _ (List.mem_of_getElem? (hget c i hc hi))
  obtain ⟨t, e, hl, hT⟩ := Trans.accumulate_ok hI.valid hI.first (w := fun _ i => I.htrans.getD i 0) (y := fun _ i => do
      let h ← rd I.htrans i
      check (decide (0 < h))
      fdiv 1 h) hw
    (fun c i hc h1 h2 => by
      rw [rd_of_getElem? (hget c i hc h2), bind_ok, check_ok (by simpa using hw c i hc h1 h2), bind_ok, fdiv_ok (hw c i hc h1 h2).ne']) hI.sided ht
    (body := fun _ i t => do
      let f ← rd I.G.cellFaces i
      let h ← rd I.htrans i
      check (decide (0 < h))
      let y ← fdiv 1 h
      addAt t f y)
    (fun c i t f hf => by
      rw [rd_of_getElem? hf, bind_ok]
      cases rd I.htrans i with
      | error e => rfl
      | ok h =>
        rw [bind_ok, bind_ok]
        cases check (decide (0 < h)) <;> rfl)
  refine ⟨t, ?_, hl, fun f hf => ?_⟩
  · unfold transmissibilities
    rw [rd_of_getElem? (hp.get (Nat.le_refl _)), bind_ok, check_ok (by simpa using hI.htrans), bind_ok, e]
  · obtain ⟨v, h1, h2, h3⟩ := hT f hf
    have : t.getD f 0 = v := by simp [List.getD_eq_getElem?_getD, h1]
    rw [this]
    exact ⟨h2, h3⟩

/-- Gravity part of half-face `i` of cell `c` and face `f`. -/
def halfGrav (I : Input) (g : List Rat) (c f : Nat) : Rat :=
  dotN I.geo.d (fun j => g.getD j 0) (fun j => I.geo.faceCentroids.getD (f * I.geo.d + j) 0 - I.geo.cellCentroids.getD (c * I.geo.d + j) 0)

theorem lt_block {n d i j : Nat} (hi : i < n) (hj : j < d) {l : Nat} (h : n * d ≤ l) : i * d + j < l := by
  have : (i + 1) * d ≤ n * d := Nat.mul_le_mul_right _ hi
  rw [Nat.add_mul] at this
  omega

theorem staticGravity_ok {I : Input} (hI : InputOk I) {g : List Rat} (hg : I.gravity = some g) {trans dg : List Rat} (ht : I.G.nf ≤ trans.length)
    (hd : I.G.cellFacepos.getD I.G.nc 0 ≤ dg.length) :
    ∃ d, staticGravity I.G I.geo g trans dg = .ok d ∧ d.length = dg.length ∧ ∀ c f i, I.G.HalfFace c f i → d.getD i 0 = trans.getD f 0 * halfGrav I g c f := by
  have hv := hI.valid
  have hp := hv.rowPos hI.first
  obtain ⟨s1, s2, s3⟩ := hI.gravity g hg
  obtain ⟨d, e, hl, hP⟩ := rowLoop_inv hp (s := dg) (f := fun c i dg => do
      let f ← rd I.G.cellFaces i
      let x ← loop I.geo.d (fun j acc => do
        let a ← rd g j
        let fc ← rd I.geo.faceCentroids (f * I.geo.d + j)
        let cc ← rd I.geo.cellCentroids (c * I.geo.d + j)
        .ok (acc + a * (fc - cc))) 0
      let t ← rd trans f
      wr dg i (t * x))
    (fun c p d => d.length = dg.length ∧ ∀ c' f i : Nat, I.G.HalfFace c' f i → (c' < c ∨ (c' = c ∧ i < p)) → d.getD i 0 = trans.getD f 0 * halfGrav I g c' f)
    ⟨rfl, fun c' f i _ h => by omega⟩
    (by
      rintro c i d hc h1 h2 ⟨hl, ih⟩
      obtain ⟨f, hf, hlt⟩ := hv.face_at hc h2
      have hi : i < d.length := by have := hp.lt_total hc h2; omega
      refine ⟨d.set i (trans.getD f 0 * halfGrav I g c f), ?_, by simpa using hl, ?_⟩
      · have := Trans.sum_loop (n := I.geo.d) (f := fun j acc => do
            let a ← rd g j
            let fc ← rd I.geo.faceCentroids (f * I.geo.d + j)
            let cc ← rd I.geo.cellCentroids (c * I.geo.d + j)
            .ok (acc + a * (fc - cc)))
          (fun j => g.getD j 0 * (I.geo.faceCentroids.getD (f * I.geo.d + j) 0 - I.geo.cellCentroids.getD (c * I.geo.d + j) 0))
          (fun j acc hj => by
            rw [rd_of_getElem? (getElem?_getD (by omega)), bind_ok, rd_of_getElem? (getElem?_getD (lt_block hlt hj s2)), bind_ok,
              rd_of_getElem? (getElem?_getD (lt_block hc hj s3)), bind_ok])
        rw [rd_of_getElem? hf, bind_ok, this, bind_ok, rd_of_getElem? (getElem?_getD (by omega)), bind_ok, wr_ok hi]
        rfl
      · intro c' f' i' hh hcase
        obtain ⟨g1, g2, g3, g4⟩ := (Trans.halfFace_iff hv).1 hh
        rw [IfsTpfa.getD_set hi]
        by_cases hii : i' = i
        · subst hii
          obtain rfl := hp.row_unique g1 hc g2 g3 h1 h2
          rw [hf] at g4
          cases g4
          rw [if_pos rfl]
        · rw [if_neg hii]
          exact ih c' f' i' hh (by omega))
    (by
      rintro c d hc ⟨hl, ih⟩
      refine ⟨hl, fun c' f i hh hcase => ih c' f i hh ?_⟩
      obtain ⟨g1, g2, g3, g4⟩ := (Trans.halfFace_iff hv).1 hh
      rcases hcase with h | ⟨rfl, h⟩
      · rcases Nat.lt_or_ge c' c with h' | h'
        · exact .inl h'
        · obtain rfl : c' = c := by omega
          exact .inr ⟨rfl, g3⟩
      · omega)
  exact ⟨d, e, hl, fun c f i hh => hP c f i hh (.inl (Trans.half_lt hv hh))⟩

/-- The part of the store that does not change, and the sizes. -/
structure StoreOk (I : Input) (S : Store) : Prop where
  drho : S.drho = if I.gravity.isSome then I.P.rho.1 - I.P.rho.2 else 0
  mob : S.mob.length = 2 * I.G.nc
  dmob : S.dmob.length = 2 * I.G.nc
  ds : S.ds.length = I.G.nc
  pc : S.pc.length = I.G.nc
  dpc : S.dpc.length = I.G.nc
  pv : S.porevol = I.porevol
  dgLen : I.G.cellFacepos.getD I.G.nc 0 ≤ S.dg.length
  transLen : I.G.nf ≤ S.trans.length
  trans : ∀ f, f < I.G.nf → 0 < S.trans.getD f 0 ∧ I.G.IsTrans (fun _ i => I.htrans.getD i 0) f (S.trans.getD f 0)
  dg : ∀ g, I.gravity = some g → ∀ c f i, I.G.HalfFace c f i → S.dg.getD i 0 = S.trans.getD f 0 * halfGrav I g c f

theorem gravityPart_ok {I : Input} (hI : InputOk I) {trans dg : List Rat} (ht : I.G.nf ≤ trans.length) (hd : I.G.cellFacepos.getD I.G.nc 0 ≤ dg.length) :
    ∃ d, gravityPart I trans dg = .ok d ∧ d.length = dg.length ∧ ∀ g, I.gravity = some g → ∀ c f i, I.G.HalfFace c f i → d.getD i 0 = trans.getD f 0 * halfGrav I g c f := by
  unfold gravityPart
  cases hg : I.gravity with
  | none => exact ⟨dg, rfl, rfl, fun g h => by cases h⟩
  | some g =>
    obtain ⟨d, e, hl, h⟩ := staticGravity_ok hI hg ht hd
    exact ⟨d, e, hl, fun g' hg' => by cases hg'; exact h⟩

theorem copy_ok {l : List Rat} {n : Nat} (h : l.length = n) : loop l.length (fun c pv => do
    let v ← rd l c
    wr pv c v) (List.replicate n 0) = .ok l := by
  obtain ⟨t, e, hl, hg, _⟩ := IfsTpfa.loop_write (n := l.length) (s := List.replicate n (0 : Rat)) (f := fun c pv => do
      let v ← rd l c
      wr pv c v) (fun c => l.getD c 0) (by simp [h]) (by
        intro i t hi ht
        rw [rd_of_getElem? (getElem?_getD hi), bind_ok])
  rw [e]
  congr 1
  apply List.ext_getElem
  · rw [hl]; simp [h]
  · intro i h1 h2
    have := hg i h2
    simpa [List.getD_eq_getElem?_getD, h1, h2] using this

/-- The members between calls. -/
structure Ready (I : Input) (S : Solver) : Prop where
  half : HalfOk I.G S.f2hf
  store : StoreOk I S.store
  src : ∃ ts, Sources.TRep 2 S.tsrc ts
  pv : S.pv0 = I.porevol.getD 0 0

theorem make_ok (J : Sources.Junk) {I : Input} (hI : InputOk I) : ∃ S, make J I = .ok S ∧ Ready I S := by
  have hp := hI.valid.rowPos hI.first
  obtain ⟨h, e1, h1⟩ := halfFaces_ok hI.valid hI.first
  obtain ⟨t, e2, l2, h2⟩ := transmissibilities_ok hI (trans := List.replicate (I.G.cellFacepos.getD I.G.nc 0) 0) (by simpa using hI.enough)
  rw [List.length_replicate] at l2
  obtain ⟨d, e3, l3, h3⟩ := gravityPart_ok hI (trans := t) (dg := List.replicate (I.G.cellFacepos.getD I.G.nc 0) 0) (by rw [l2]; exact hI.enough) (by simp)
  rw [List.length_replicate] at l3
  have hpv := hI.porevol
  have hne := hI.nonempty
  have e5 : newSources J = .ok ((⟨0, 0, 2, [], [], [], [], []⟩ : Sources.TSrc).expand J 2) := rfl
  unfold make
  rw [rd_of_getElem? (hp.get (Nat.le_refl _)), bind_ok, e1, bind_ok, copy_ok hpv, bind_ok, e2, bind_ok, e3, bind_ok, rd_of_getElem? (getElem?_getD (by omega)), bind_ok, e5, bind_ok]
  refine ⟨_, rfl, h1, ⟨rfl, by simp, by simp, by simp, by simp, by simp, rfl, by rw [l3], by rw [l2]; exact hI.enough, h2, h3⟩, ⟨[], ?_⟩, rfl⟩
  refine Sources.TRep.expand (np := 2) (ts := []) ?_ J 2 (by simp)
  constructor <;> simp

/-- The store holds the quantities of the saturation changes `x`. -/
structure At (I : Input) (st : State) (x : Nat → Rat) (S : Store) (c : Nat) : Prop where
  ds : S.ds.getD c 0 = x c
  mobW : S.mob.getD (2 * c) 0 = lamW I.P c (newSat I st x c)
  mobO : S.mob.getD (2 * c + 1) 0 = lamO I.P c (newSat I st x c)
  dmobW : S.dmob.getD (2 * c) 0 = (I.P.relperm c (newSat I st x c) (1 - newSat I st x c)).2.1 / I.P.mu.1
  dmobO : S.dmob.getD (2 * c + 1) 0 = -((I.P.relperm c (newSat I st x c) (1 - newSat I st x c)).2.2.2.2 / I.P.mu.2)
  pc : S.pc.getD c 0 = pcow I.P c (newSat I st x c)
  dpc : S.dpc.getD c 0 = (I.P.capPress c (newSat I st x c) (1 - newSat I st x c)).2.1

theorem closest_admissible {I : Input} (hI : InputOk I) {c : Nat} (hc : c < I.G.nc) (s : Rat) : Admissible I c (closest I c s) := by
  have := hI.range c hc
  unfold Admissible closest
  exact ⟨le_min this (le_max_left _ _), min_le_left _ _⟩

/-- The change of cell `c` is within the tolerance of the admissible range. -/
def InRange (I : Input) (st : State) (x : Nat → Rat) (c : Nat) : Prop :=
  low I c - 1 / 100000 ≤ st.saturation.getD (2 * c) 0 + x c ∧ st.saturation.getD (2 * c) 0 + x c ≤ high I c + 1 / 100000

theorem initCell_ok {I : Input} (hI : InputOk I) {st : State} (hst : st.saturation.length = 2 * I.G.nc) {x : List Rat} (hx : x.length = I.G.nc) {S : Store} (hS : StoreOk I S) {ok : Bool} {c : Nat}
    (hc : c < I.G.nc) :
    ∃ S' ok', initCell I st.saturation x c (S, ok) = .ok (S', ok') ∧ StoreOk I S' ∧ S'.trans = S.trans ∧ (ok' = true ↔ ok = true ∧ InRange I st (fun c => x.getD c 0) c) ∧
      At I st (fun c => x.getD c 0) S' c ∧ ∀ d, d ≠ c → At I st (fun c => x.getD c 0) S d → At I st (fun c => x.getD c 0) S' d := by
  obtain ⟨r1, r2⟩ := hI.ranges
  obtain ⟨v1, v2⟩ := hI.viscosity
  have ha := closest_admissible hI hc (st.saturation.getD (2 * c) 0 + x.getD c 0)
  obtain ⟨p1, p2⟩ := hI.capillary c _ hc ha
  have p21 : (I.P.capPress c (closest I c (st.saturation.getD (2 * c) 0 + x.getD c 0)) (1 - closest I c (st.saturation.getD (2 * c) 0 + x.getD c 0))).2.2.1 = 0 := by rw [p2]
  have p22 : (I.P.capPress c (closest I c (st.saturation.getD (2 * c) 0 + x.getD c 0)) (1 - closest I c (st.saturation.getD (2 * c) 0 + x.getD c 0))).2.2.2.1 = 0 := by rw [p2]
  have p23 : (I.P.capPress c (closest I c (st.saturation.getD (2 * c) 0 + x.getD c 0)) (1 - closest I c (st.saturation.getD (2 * c) 0 + x.getD c 0))).2.2.2.2 = 0 := by rw [p2]
  have l1 := hS.mob
  have l2 := hS.dmob
  have l3 := hS.ds
  have l4 := hS.pc
  have l5 := hS.dpc
  unfold initCell
  dsimp only
  rw [rd_of_getElem? (getElem?_getD (a := x) (by omega)), bind_ok, wr_ok (by omega), bind_ok, rd_of_getElem? (getElem?_getD (a := st.saturation) (by omega)), bind_ok,
    rd_of_getElem? (getElem?_getD (a := I.P.smin) (by omega)), bind_ok, rd_of_getElem? (getElem?_getD (a := I.P.smax) (by omega)), bind_ok]
  have hcl : clamp (I.P.smin.getD (2 * c) 0) (I.P.smax.getD (2 * c) 0) (st.saturation.getD (2 * c) 0 + x.getD c 0) = closest I c (st.saturation.getD (2 * c) 0 + x.getD c 0) := rfl
  rw [hcl]
  unfold mobility capillary
  dsimp only
  rw [fdiv_ok v1, bind_ok, fdiv_ok v2, bind_ok, fdiv_ok v1, bind_ok, fdiv_ok v2, bind_ok, bind_ok, check_ok (by simpa using p1), bind_ok, check_ok (by simpa using p21), bind_ok,
    check_ok (by simpa using p22), bind_ok, check_ok (by simpa using p23), bind_ok, bind_ok, wr_ok (by omega), bind_ok, wr_ok (by simp; omega), bind_ok, wr_ok (by omega), bind_ok,
    wr_ok (by simp; omega), bind_ok, wr_ok (by omega), bind_ok, wr_ok (by omega), bind_ok]
  refine ⟨_, _, rfl, ⟨hS.drho, by simpa using l1, by simpa using l2, by simpa using l3, by simpa using l4, by simpa using l5, hS.pv, hS.dgLen, hS.transLen, hS.trans, hS.dg⟩, rfl, ?_, ?_, ?_⟩
  · rw [Bool.and_eq_true, Bool.not_eq_true', decide_eq_false_iff_not, not_or, not_lt, not_lt]
    rfl
  · refine ⟨?_, ?_, ?_, ?_, ?_, ?_, ?_⟩
    · dsimp only; rw [IfsTpfa.getD_set (by omega), if_pos rfl]
    · dsimp only; rw [IfsTpfa.getD_set (by simp; omega), if_neg (by omega), IfsTpfa.getD_set (by omega), if_pos rfl]; rfl
    · dsimp only; rw [IfsTpfa.getD_set (by simp; omega), if_pos rfl]; rfl
    · dsimp only; rw [IfsTpfa.getD_set (by simp; omega), if_neg (by omega), IfsTpfa.getD_set (by omega), if_pos rfl]; rfl
    · dsimp only; rw [IfsTpfa.getD_set (by simp; omega), if_pos rfl]; rfl
    · dsimp only; rw [IfsTpfa.getD_set (by omega), if_pos rfl]; rfl
    · dsimp only; rw [IfsTpfa.getD_set (by omega), if_pos rfl]; rfl
  · intro d hd h
    refine ⟨?_, ?_, ?_, ?_, ?_, ?_, ?_⟩
    · dsimp only; rw [IfsTpfa.getD_set (by omega), if_neg hd]; exact h.ds
    · dsimp only; rw [IfsTpfa.getD_set (by simp; omega), if_neg (by omega), IfsTpfa.getD_set (by omega), if_neg (by omega)]; exact h.mobW
    · dsimp only; rw [IfsTpfa.getD_set (by simp; omega), if_neg (by omega), IfsTpfa.getD_set (by omega), if_neg (by omega)]; exact h.mobO
    · dsimp only; rw [IfsTpfa.getD_set (by simp; omega), if_neg (by omega), IfsTpfa.getD_set (by omega), if_neg (by omega)]; exact h.dmobW
    · dsimp only; rw [IfsTpfa.getD_set (by simp; omega), if_neg (by omega), IfsTpfa.getD_set (by omega), if_neg (by omega)]; exact h.dmobO
    · dsimp only; rw [IfsTpfa.getD_set (by omega), if_neg hd]; exact h.pc
    · dsimp only; rw [IfsTpfa.getD_set (by omega), if_neg hd]; exact h.dpc

theorem initIteration_ok {I : Input} (hI : InputOk I) {st : State} (hst : st.saturation.length = 2 * I.G.nc) {x : List Rat} (hx : x.length = I.G.nc) {S : Store} (hS : StoreOk I S) :
    ∃ S' ok, initIteration I st.saturation x S = .ok (S', ok) ∧ StoreOk I S' ∧ (ok = true ↔ Near I st (fun c => x.getD c 0)) ∧ ∀ c, c < I.G.nc → At I st (fun c => x.getD c 0) S' c := by
  obtain ⟨⟨S', ok⟩, e, h1, h2, h3⟩ := loop_inv (n := I.G.nc) (f := initCell I st.saturation x) (s := (S, true))
    (fun k (r : Store × Bool) => StoreOk I r.1 ∧ (r.2 = true ↔ ∀ c, c < k → InRange I st (fun c => x.getD c 0) c) ∧ ∀ c, c < k → At I st (fun c => x.getD c 0) r.1 c)
    ⟨hS, by simp, by simp⟩
    (by
      rintro c ⟨S, ok⟩ hc ⟨h1, h2, h3⟩
      obtain ⟨S', ok', e, g1, _, g2, g3, g4⟩ := initCell_ok hI hst hx h1 (ok := ok) hc
      refine ⟨_, e, g1, ?_, fun d hd => ?_⟩
      · dsimp only at h2 ⊢
        rw [g2, h2]
        constructor
        · rintro ⟨h, h'⟩ d hd
          rcases Nat.lt_or_ge d c with hlt | hge
          · exact h d hlt
          · obtain rfl : d = c := by omega
            exact h'
        · intro h
          exact ⟨fun d hd => h d (by omega), h c (by omega)⟩
      · rcases Nat.lt_or_ge d c with hlt | hge
        · exact g4 d (by omega) (h3 d hlt)
        · obtain rfl : d = c := by omega
          exact g3)
  exact ⟨S', ok, e, h1, h2, h3⟩

end Opm.ImplicitTransport
