import Verif.Proofs.GravitySegregation
/-!
# Gravity segregation: a column
-/

namespace Opm.GravitySegregation
open Opm Opm.TwophaseReorder

/-- The two cells are the sides of the face. -/
def Common (g : GridTopo) (c d f : Nat) : Prop := g.Sides f (c : Int) (d : Int) ∨ g.Sides f (d : Int) (c : Int)

theorem between_common {g : GridTopo} {q : List Rat} {c d f : Nat} (h1 : g.OneFace c d) (hf : f < g.nf) (h : Common g c d f) :
    g.between q c d = if g.faceCells[2 * f]? = some (c : Int) ∧ g.faceCells[2 * f + 1]? = some (d : Int) then q.getD f 0 else -q.getD f 0 := by
  unfold GridTopo.between
  rw [Finset.sum_eq_single f]
  · split
    · rfl
    · rename_i hn
      rcases h with h | h
      · exact absurd h hn
      · exact if_pos h
  · intro f' _ hne
    exact (if_neg (fun h' => hne (h1 f' f (.inl h') h))).trans (if_neg (fun h' => hne (h1 f' f (.inr h') h)))
  · intro hn
    exact absurd (Finset.mem_range.2 hf) hn

theorem between_none {g : GridTopo} {q : List Rat} {c d : Nat} (h : ∀ f, ¬Common g c d f) : g.between q c d = 0 := by
  unfold GridTopo.between
  refine Finset.sum_eq_zero fun f _ => ?_
  exact (if_neg (fun h' => h f (.inl h'))).trans (if_neg (fun h' => h f (.inr h')))

theorem columnFlux_ok {E : Env} (h : EnvOk E) {cells : List Nat} (hc : ColOk E cells)
    (h1 : ∀ p, p + 1 < cells.length → E.g.OneFace (cells.getD p 0) (cells.getD (p + 1) 0)) :
    ∃ gf, columnFlux E cells = .ok gf ∧ FluxOk (E.g.between E.gravflux) cells gf := by
  have hv := h.valid
  obtain ⟨gf, e, hl, hP⟩ := loop_inv (n := cells.length - 1) (s := List.replicate (cells.length - 1) (0 : Rat))
    (f := fun ci cf => do
      let cell ← rd cells ci
      let next ← rd cells (ci + 1)
      let a ← rd E.g.cellFacepos cell
      let b ← rd E.g.cellFacepos (cell + 1)
      forRange a b (columnFace E cell next ci) cf)
    (fun (k : Nat) (cf : List Rat) => cf.length = cells.length - 1 ∧ ∀ p, p < cells.length - 1 →
      cf[p]? = some (if p < k then E.g.between E.gravflux (cells.getD p 0) (cells.getD (p + 1) 0) else 0))
    ⟨by simp, fun p hp => by simp [hp]⟩
    (fun ci cf hci ⟨hl, hP⟩ => by
      have hp0 : ci < cells.length := by omega
      have hp1 : ci + 1 < cells.length := by omega
      have hc0 := hc.lt hp0
      generalize hcell : cells.getD ci 0 = cell at hc0
      generalize hnext : cells.getD (ci + 1) 0 = next
      have hone := h1 ci hp1
      rw [hcell, hnext] at hone
      have hmono : E.g.cellFacepos.getD cell 0 ≤ E.g.cellFacepos.getD (cell + 1) 0 := Graph.ia_mono hv.csr (i := cell) (j := cell + 1) (by omega) hc0
      rw [rd_of_getElem? (ColOk.get hp0), bind_ok, rd_of_getElem? (ColOk.get hp1), bind_ok, hcell, hnext, rd_of_getElem? (Graph.ia_get hv.csr (by omega)), bind_ok,
        rd_of_getElem? (Graph.ia_get hv.csr (i := cell + 1) hc0), bind_ok]
      obtain ⟨cf', e', l', o', v'⟩ := forRange_inv (f := columnFace E cell next ci) (s := cf) hmono
        (fun (j : Nat) (t : List Rat) => t.length = cells.length - 1 ∧ (∀ p, p ≠ ci → t[p]? = cf[p]?) ∧
          (t[ci]? = some (E.g.between E.gravflux cell next) ∨
            (t[ci]? = some 0 ∧ ∀ j' f, E.g.cellFacepos.getD cell 0 ≤ j' → j' < j → E.g.cellFaces[j']? = some f → ¬Common E.g cell next f)))
        ⟨hl, fun _ _ => rfl, .inr ⟨by rw [hP ci hci, if_neg (by omega)], fun j' f hj1 hj2 => by omega⟩⟩
        (fun j t hj1 hj2 ⟨tl, tot, tv⟩ => by
          obtain ⟨f, hf, hlt⟩ := hv.face_at hc0 hj2
          obtain ⟨a, b, hs⟩ := hv.sides hlt
          have hside := (hv.agree cell f a b hs).1 (GridTopo.hasFace_of hv hc0 hj1 hj2 hf)
          unfold columnFace
          rw [rd_of_getElem? hf, bind_ok, rd_of_getElem? hs.1, bind_ok, rd_of_getElem? hs.2, bind_ok]
          by_cases hcom : a = (next : Int) ∨ b = (next : Int)
          · rw [if_pos hcom, rd_of_getElem? (getElem?_getD (by rw [h.lenGrav]; exact hlt)), bind_ok, wr_ok (by omega)]
            refine ⟨_, rfl, by simp [tl], fun p hp => ?_, .inl ?_⟩
            · rw [List.getElem?_set_ne (Ne.symm hp)]
              exact tot p hp
            · rw [List.getElem?_set_self (by omega)]
              have hne : (next : Int) ≠ cell := by
                intro hne
                have : ci + 1 = ci := hc.inj hp1 hp0 (by rw [hcell, hnext]; exact_mod_cast hne)
                omega
              have hC : Common E.g cell next f := by
                rcases hside with rfl | rfl
                · rcases hcom with h' | rfl
                  · exact absurd h'.symm hne
                  · exact .inl hs
                · rcases hcom with rfl | h'
                  · exact .inr hs
                  · exact absurd h'.symm hne
              rw [between_common hone hlt hC]
              congr 1
              by_cases ha : a = (cell : Int)
              · rw [if_pos ha, if_pos]
                rcases hC with h' | h'
                · exact h'
                · have := (hs.unique h').1
                  rw [ha] at this
                  exact absurd this.symm hne
              · rw [if_neg ha, if_neg]
                intro h'
                exact ha (hs.unique h').1
          · rw [if_neg hcom]
            refine ⟨_, rfl, tl, tot, ?_⟩
            rcases tv with tv | ⟨tv, hno⟩
            · exact .inl tv
            · refine .inr ⟨tv, fun j' f' hj1' hj2' hf' hC => ?_⟩
              by_cases hj : j' = j
              · subst hj
                rw [hf] at hf'
                cases hf'
                rcases hC with h' | h'
                · exact hcom (.inr (hs.unique h').2)
                · exact hcom (.inl (hs.unique h').1)
              · exact hno j' f' hj1' (by omega) hf' hC)
      refine ⟨cf', e', l', fun p hp => ?_⟩
      by_cases hpc : p = ci
      · subst hpc
        rw [if_pos (by omega), hcell, hnext]
        rcases v' with v' | ⟨v', hno⟩
        · exact v'
        · rw [v', between_none]
          intro f hC
          have hh : E.g.HasFace cell f := by
            rcases hC with h' | h'
            · exact (hv.agree cell f _ _ h').2 (.inl rfl)
            · exact (hv.agree cell f _ _ h').2 (.inr rfl)
          obtain ⟨a, b, i, ha, hb, hi1, hi2, hif⟩ := hh
          have ga := Graph.ia_get hv.csr (i := cell) (by omega)
          have gb := Graph.ia_get hv.csr (i := cell + 1) hc0
          rw [ha] at ga; rw [hb] at gb
          cases ga; cases gb
          exact hno i f hi1 hi2 hif hC
      · rw [o' p hpc, hP p hp]
        congr 1
        by_cases hlt : p < ci
        · rw [if_pos hlt, if_pos (by omega)]
        · rw [if_neg hlt, if_neg (by omega)])
  refine ⟨gf, e, fun p hp => ?_⟩
  rw [hP p (by omega), if_pos (by omega)]

theorem initSats_ok {E : Env} {cells : List Nat} (hc : ColOk E cells) {s : State} (hs : Fits E s) :
    ∃ s0, initSats cells s = .ok s0 ∧ s0.length = cells.length ∧ ∀ p, p < cells.length → s0.getD p 0 = s.sat.getD (cells.getD p 0) 0 := by
  obtain ⟨s0, e, hl, hP⟩ := loop_inv (n := cells.length) (s := List.replicate cells.length (0 : Rat))
    (f := fun i s0 => do
      let c ← rd cells i
      let x ← rd s.sat c
      wr s0 i x)
    (fun (k : Nat) (t : List Rat) => t.length = cells.length ∧ ∀ p, p < k → t.getD p 0 = s.sat.getD (cells.getD p 0) 0)
    ⟨by simp, fun p hp => by omega⟩
    (fun i t hi ⟨tl, tP⟩ => by
      rw [rd_of_getElem? (ColOk.get hi), bind_ok, rd_of_getElem? (getElem?_getD (by rw [hs.sat]; exact hc.lt hi)), bind_ok, wr_ok (by omega)]
      refine ⟨_, rfl, by simp [tl], fun p hp => ?_⟩
      by_cases hpi : p = i
      · subst hpi
        rw [List.getD_eq_getElem?_getD, List.getElem?_set_self (by omega), Option.getD_some]
      · rw [List.getD_eq_getElem?_getD, List.getElem?_set_ne (Ne.symm hpi), ← List.getD_eq_getElem?_getD]
        exact tP p (by omega))
  exact ⟨s0, e, hl, hP⟩

/-- How often position `q` is visited in the first `k` steps of a sweep. -/
def visits (n q k : Nat) : Nat := (if q < k then 1 else 0) + (if n - 1 - q < k then 1 else 0)

theorem visits_le (n q k : Nat) : visits n q k ≤ 2 := by
  unfold visits
  split <;> split <;> omega

theorem visits_mono (n q k : Nat) : visits n q k ≤ visits n q (k + 1) := by
  unfold visits
  split <;> split <;> split <;> split <;> omega

theorem visits_more {n q k : Nat} (hq : q < n) (hk : k < n) (h : q = k ∨ q = n - k - 1) : visits n q k + 1 ≤ visits n q (k + 1) := by
  unfold visits
  split <;> split <;> split <;> split <;> omega

/-- The cells of the column, and what became of the others. -/
structure ColState (E : Env) (cells : List Nat) (init s : State) : Prop where
  fits : Fits E s
  good : ∀ c ∈ cells, Good E s c
  rest : ∀ d, d ∉ cells → SameAt init s d

/-- The equation at position `p` is solved, with saturations of the neighbours that differ from the present ones by at most the given amounts. -/
def SolvedWithin (E : Env) (G : Nat → Nat → Rat) (cells : List Nat) (s0 : List Rat) (s : State) (d : Nat → Rat) (p : Nat) : Prop :=
  ∃ y : Nat → Rat, (∀ q, q < cells.length → q ≠ p → (lo E (cells.getD q 0) ≤ y (cells.getD q 0) ∧ y (cells.getD q 0) ≤ hi E (cells.getD q 0)) ∧ |y (cells.getD q 0) - s.sat.getD (cells.getD q 0) 0| ≤ d q) ∧
    Solved E G cells p (s0.getD p 0) y (s.sat.getD (cells.getD p 0) 0)

theorem step_ok {E : Env} (h : EnvOk E) {G : Nat → Nat → Rat} {cells : List Nat} {gravflux s0 : List Rat} (hc : ColOk E cells) (hG : FluxOk G cells gravflux)
    (hs0 : s0.length = cells.length) (hr : ∀ p, p < cells.length → lo E (cells.getD p 0) ≤ s0.getD p 0 ∧ s0.getD p 0 ≤ hi E (cells.getD p 0))
    {init : State} {k : Nat} (hk : k < cells.length) {t : State × Rat} (ht : ColState E cells init t.1) (hm : 0 ≤ t.2)
    (hsol : ∀ p, p < cells.length → (p < k ∨ cells.length - 1 - p < k) → SolvedWithin E G cells s0 t.1 (fun q => visits cells.length q k * t.2) p) :
    ∃ t', step E cells gravflux s0 k t = .ok t' ∧ ColState E cells init t'.1 ∧ 0 ≤ t'.2 ∧
      ∀ p, p < cells.length → (p < k + 1 ∨ cells.length - 1 - p < k + 1) → SolvedWithin E G cells s0 t'.1 (fun q => visits cells.length q (k + 1) * t'.2) p := by
  have hk2 : cells.length - k - 1 < cells.length := by omega
  have ma := List.mem_of_getElem? (ColOk.get hk)
  have mb := List.mem_of_getElem? (ColOk.get hk2)
  obtain ⟨s1, e1, f1, o1, g1, q1⟩ := visit_ok h hc hG hs0 ht.fits hk (fun c hm _ => ht.good c hm) (hr k hk).1 (hr k hk).2
  have good1 : ∀ c ∈ cells, Good E s1 c := fun c hcm => by
    by_cases hca : c = cells.getD k 0
    · rw [hca]; exact g1
    · exact (o1 c hca).good (ht.good c hcm)
  obtain ⟨s2, e2, f2, o2, g2, q2⟩ := visit_ok h hc hG hs0 f1 hk2 (fun c hm _ => good1 c hm) (hr _ hk2).1 (hr _ hk2).2
  have good2 : ∀ c ∈ cells, Good E s2 c := fun c hcm => by
    by_cases hca : c = cells.getD (cells.length - k - 1) 0
    · rw [hca]; exact g2
    · exact (o2 c hca).good (good1 c hcm)
  unfold step
  rw [rd_of_getElem? (ColOk.get hk), bind_ok, rd_of_getElem? (ColOk.get hk2), bind_ok, rd_of_getElem? (getElem?_getD (by rw [ht.fits.sat]; exact hc.lt hk)), bind_ok,
    rd_of_getElem? (getElem?_getD (by rw [ht.fits.sat]; exact hc.lt hk2)), bind_ok, e1, bind_ok, e2, bind_ok,
    rd_of_getElem? (getElem?_getD (by rw [f2.sat]; exact hc.lt hk)), bind_ok, rd_of_getElem? (getElem?_getD (by rw [f2.sat]; exact hc.lt hk2)), bind_ok]
  rw [← abs_eq_max_neg, ← abs_eq_max_neg]
  generalize hM : max t.2 (max |s2.sat.getD (cells.getD k 0) 0 - t.1.sat.getD (cells.getD k 0) 0|
    |s2.sat.getD (cells.getD (cells.length - k - 1) 0) 0 - t.1.sat.getD (cells.getD (cells.length - k - 1) 0) 0|) = M
  have m0 : t.2 ≤ M := by rw [← hM]; exact le_max_left _ _
  have mA : |s2.sat.getD (cells.getD k 0) 0 - t.1.sat.getD (cells.getD k 0) 0| ≤ M := by rw [← hM]; exact le_trans (le_max_left _ _) (le_max_right _ _)
  have mB : |s2.sat.getD (cells.getD (cells.length - k - 1) 0) 0 - t.1.sat.getD (cells.getD (cells.length - k - 1) 0) 0| ≤ M := by
    rw [← hM]; exact le_trans (le_max_right _ _) (le_max_right _ _)
  have hM0 : 0 ≤ M := le_trans hm m0
  have chg : ∀ q, q < cells.length → (q = k ∨ q = cells.length - k - 1) → |t.1.sat.getD (cells.getD q 0) 0 - s2.sat.getD (cells.getD q 0) 0| ≤ M := by
    rintro q hq (rfl | rfl)
    · rw [abs_sub_comm]; exact mA
    · rw [abs_sub_comm]; exact mB
  have same : ∀ q, q < cells.length → ¬(q = k ∨ q = cells.length - k - 1) → s2.sat.getD (cells.getD q 0) 0 = t.1.sat.getD (cells.getD q 0) 0 := by
    intro q hq hn
    rw [(o2 _ (fun e => hn (.inr (hc.inj hq hk2 e)))).sat, (o1 _ (fun e => hn (.inl (hc.inj hq hk e)))).sat]
  have inR : ∀ {u : State}, (∀ c ∈ cells, Good E u c) → ∀ q, q < cells.length →
      lo E (cells.getD q 0) ≤ u.sat.getD (cells.getD q 0) 0 ∧ u.sat.getD (cells.getD q 0) 0 ≤ hi E (cells.getD q 0) := fun hu q hq =>
    ⟨(hu _ (List.mem_of_getElem? (ColOk.get hq))).lower, (hu _ (List.mem_of_getElem? (ColOk.get hq))).upper⟩
  have hnn : ∀ q j : Nat, (0 : Rat) ≤ (visits cells.length q j : Rat) := fun q j => Nat.cast_nonneg _
  refine ⟨_, rfl, ⟨f2, good2, fun d hd => ?_⟩, hM0, fun p hp hv => ?_⟩
  · exact (ht.rest d hd).trans ((o1 d (fun e => hd (e ▸ ma))).trans (o2 d (fun e => hd (e ▸ mb))))
  · by_cases hpb : p = cells.length - k - 1
    · subst hpb
      refine ⟨fun c => s1.sat.getD c 0, fun q hq hne => ⟨inR good1 q hq, ?_⟩, q2⟩
      show |s1.sat.getD _ 0 - s2.sat.getD _ 0| ≤ _
      rw [(o2 _ (fun e => hne (hc.inj hq hk2 e))).sat, sub_self, abs_zero]
      exact mul_nonneg (hnn _ _) hM0
    · by_cases hpa : p = k
      · subst hpa
        have hs : s2.sat.getD (cells.getD p 0) 0 = s1.sat.getD (cells.getD p 0) 0 := (o2 _ (fun e => hpb (hc.inj hp hk2 e))).sat
        refine ⟨fun c => t.1.sat.getD c 0, fun q hq hne => ⟨inR ht.good q hq, ?_⟩, by rw [hs]; exact q1⟩
        show |t.1.sat.getD _ 0 - s2.sat.getD _ 0| ≤ _
        by_cases hqb : q = cells.length - p - 1
        · have h1 := chg q hq (.inr hqb)
          have h2 : (1 : Rat) ≤ (visits cells.length q (p + 1) : Rat) := by
            have := visits_more hq hk (.inr hqb)
            exact_mod_cast (by omega : 1 ≤ visits cells.length q (p + 1))
          refine le_trans h1 ?_
          show M ≤ visits cells.length q (p + 1) * M
          nlinarith
        · rw [same q hq (fun hx => hx.elim hne hqb), sub_self, abs_zero]
          exact mul_nonneg (hnn _ _) hM0
      · obtain ⟨y, hy, hsy⟩ := hsol p hp (by omega)
        have hs := same p hp (fun hx => hx.elim hpa hpb)
        refine ⟨y, fun q hq hne => ⟨(hy q hq hne).1, ?_⟩, by rw [hs]; exact hsy⟩
        have hyq := (hy q hq hne).2
        show _ ≤ (visits cells.length q (k + 1) : Rat) * M
        have hmono : (visits cells.length q k : Rat) ≤ visits cells.length q (k + 1) := by exact_mod_cast visits_mono _ _ _
        have hle : (visits cells.length q k : Rat) * t.2 ≤ visits cells.length q k * M := mul_le_mul_of_nonneg_left m0 (hnn _ _)
        by_cases hx : q = k ∨ q = cells.length - k - 1
        · have h1 := chg q hq hx
          have h2 : (visits cells.length q k : Rat) + 1 ≤ visits cells.length q (k + 1) := by exact_mod_cast visits_more hq hk hx
          have h3 : |y (cells.getD q 0) - s2.sat.getD (cells.getD q 0) 0| ≤ |y (cells.getD q 0) - t.1.sat.getD (cells.getD q 0) 0| + |t.1.sat.getD (cells.getD q 0) 0 - s2.sat.getD (cells.getD q 0) 0| :=
            abs_sub_le _ _ _
          have h4 : ((visits cells.length q k : Rat) + 1) * M ≤ visits cells.length q (k + 1) * M := mul_le_mul_of_nonneg_right h2 hM0
          show |y (cells.getD q 0) - s2.sat.getD (cells.getD q 0) 0| ≤ _
          linarith
        · show |y (cells.getD q 0) - s2.sat.getD (cells.getD q 0) 0| ≤ _
          rw [same q hq hx]
          exact le_trans hyq (le_trans hle (mul_le_mul_of_nonneg_right hmono hM0))

theorem sweeps_ok {E : Env} (h : EnvOk E) {G : Nat → Nat → Rat} {cells : List Nat} {gravflux s0 : List Rat} (hc : ColOk E cells) (hG : FluxOk G cells gravflux)
    (hs0 : s0.length = cells.length) (hr : ∀ p, p < cells.length → lo E (cells.getD p 0) ≤ s0.getD p 0 ∧ s0.getD p 0 ≤ hi E (cells.getD p 0)) {init : State} :
    ∀ (fuel : Nat) (s : State), ColState E cells init s →
      (∃ s', sweeps E cells gravflux s0 fuel s = .ok s' ∧ ColState E cells init s' ∧
        ∀ p, p < cells.length → SolvedWithin E G cells s0 s' (fun _ => 2 * E.tol) p) ∨ sweeps E cells gravflux s0 fuel s = .error .thrown
  | 0, s, _ => .inr rfl
  | fuel + 1, s, hs => by
    obtain ⟨t, e, h1, h2, h3⟩ := loop_inv (n := cells.length) (f := step E cells gravflux s0) (s := (s, 0))
      (fun (k : Nat) (t : State × Rat) => ColState E cells init t.1 ∧ 0 ≤ t.2 ∧
        ∀ p, p < cells.length → (p < k ∨ cells.length - 1 - p < k) → SolvedWithin E G cells s0 t.1 (fun q => visits cells.length q k * t.2) p)
      ⟨hs, le_refl _, fun p _ hp => by omega⟩
      (fun k t hk ⟨h1, h2, h3⟩ => step_ok h hc hG hs0 hr hk h1 h2 h3)
    unfold sweeps
    rw [e, bind_ok]
    by_cases ht : t.2 > E.tol
    · rw [if_pos ht]
      exact sweeps_ok h hc hG hs0 hr fuel t.1 h1
    · rw [if_neg ht]
      refine .inl ⟨_, rfl, h1, fun p hp => ?_⟩
      obtain ⟨y, hy, hsol⟩ := h3 p hp (.inl hp)
      refine ⟨y, fun q hq hne => ⟨(hy q hq hne).1, le_trans (hy q hq hne).2 ?_⟩, hsol⟩
      have hv : (visits cells.length q cells.length : Rat) ≤ 2 := by exact_mod_cast visits_le _ _ _
      have := not_lt.1 ht
      show (visits cells.length q cells.length : Rat) * t.2 ≤ 2 * E.tol
      nlinarith

theorem solveColumn_ok {E : Env} (h : EnvOk E) {cells : List Nat} (hc : ColOk E cells) (hne : cells ≠ [])
    (h1 : ∀ p, p + 1 < cells.length → E.g.OneFace (cells.getD p 0) (cells.getD (p + 1) 0)) {s : State} (hs : Fits E s) (hg : ∀ c ∈ cells, Good E s c) :
    (∃ s', solveColumn E s cells = .ok s' ∧ ColState E cells s s' ∧ ∃ s0 : List Rat, (∀ p, p < cells.length → s0.getD p 0 = s.sat.getD (cells.getD p 0) 0) ∧
      ∀ p, p < cells.length → SolvedWithin E (E.g.between E.gravflux) cells s0 s' (fun _ => 2 * E.tol) p) ∨ solveColumn E s cells = .error .thrown := by
  obtain ⟨gf, e1, hG⟩ := columnFlux_ok h hc h1
  obtain ⟨s0, e2, l0, v0⟩ := initSats_ok hc hs
  unfold solveColumn
  rw [if_neg hne, e1, bind_ok, e2, bind_ok]
  rcases sweeps_ok h hc hG l0 (fun p hp => by
    rw [v0 p hp]
    have := hg _ (List.mem_of_getElem? (ColOk.get hp))
    exact ⟨this.lower, this.upper⟩) (init := s) (max E.maxit 1).toNat s ⟨hs, hg, fun d _ => ⟨rfl, rfl, rfl⟩⟩ with ⟨s', e, c', q⟩ | e
  · exact .inl ⟨s', e, c', s0, v0, q⟩
  · exact .inr e

end Opm.GravitySegregation
