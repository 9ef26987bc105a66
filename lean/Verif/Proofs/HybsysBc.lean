import Verif.Proofs.HybsysCell
/-!
# Hybrid systems: boundary conditions of a cell
-/

namespace Opm.Hybsys
open Opm Opm.MiscUtil Opm.SparseSys
open Opm.IfsTpfa (getD_set)

/-- The step at which the cycle starting after `d` comes to `p`. -/
def kk (n d p : Nat) : Nat := if d < p then p - d - 1 else p + n - d - 1

theorem kk_cyc {n d k : Nat} (hd : d < n) (hk : k < n - 1) : (d + 1 + k) % n < n ∧ (d + 1 + k) % n ≠ d ∧ kk n d ((d + 1 + k) % n) = k := by
  by_cases h : d + 1 + k < n
  · rw [Nat.mod_eq_of_lt h]
    refine ⟨h, by omega, ?_⟩
    unfold kk
    rw [if_pos (by omega)]
    omega
  · have e : (d + 1 + k) % n = d + 1 + k - n := by
      rw [Nat.mod_eq_sub_mod (by omega), Nat.mod_eq_of_lt (by omega)]
    rw [e]
    refine ⟨by omega, by omega, ?_⟩
    unfold kk
    rw [if_neg (by omega)]
    omega

theorem kk_lt {n d p : Nat} (hd : d < n) (hp : p < n) : kk n d p < n - 1 ↔ p ≠ d := by
  unfold kk
  split <;> omega

theorem kk_inj {n d p p' : Nat} (hd : d < n) (hp : p < n) (hp' : p' < n) (h : kk n d p = kk n d p') : p = p' := by
  unfold kk at h
  split at h <;> split at h <;> omega

/-- Matrix entries and right-hand side after the unknowns in `T` have been given the values `val`. -/
structure Elim (n : Nat) (g : Nat → Nat → Rat) (r0 val : Nat → Rat) (T : Finset Nat) (S r : List Rat) : Prop where
  mat : Mat n S (fun a b => if a ≠ b ∧ (a ∈ T ∨ b ∈ T) then 0 else g a b)
  len : n ≤ r.length
  rhs : ∀ p, p < n → r.getD p 0 = if p ∈ T then g p p * val p else r0 p - ∑ q ∈ Finset.range n, if q ∈ T then g p q * val q else 0

theorem elim_step {n : Nat} {g : Nat → Nat → Rat} {r0 val : Nat → Rat} {T : Finset Nat} {S r : List Rat} (h : Elim n g r0 val T S r) {d : Nat} (hd : d < n) (hT : d ∉ T) :
    ∃ S' r', (do
      let u ← loop (n - 1) (fun k (u : List Rat × List Rat) => do
        let p := (d + 1 + k) % n
        let x ← rd u.1 (p + d * n)
        let y ← rd u.2 p
        let r ← wr u.2 p (y - x * val d)
        let S ← wr u.1 (p + d * n) 0
        let S ← wr S (d + p * n) 0
        .ok (S, r)) (S, r)
      let x ← rd u.1 (d * (n + 1))
      let r ← wr u.2 d (x * val d)
      (.ok (u.1, r) : M (List Rat × List Rat))) = .ok (S', r') ∧ S'.length = S.length ∧ r'.length = r.length ∧ Elim n g r0 val (insert d T) S' r' := by
  obtain ⟨⟨S1, r1⟩, e, h1, h2, h3, h4⟩ := loop_inv (n := n - 1) (s := (S, r)) (f := fun k (u : List Rat × List Rat) => do
        let p := (d + 1 + k) % n
        let x ← rd u.1 (p + d * n)
        let y ← rd u.2 p
        let r ← wr u.2 p (y - x * val d)
        let S ← wr u.1 (p + d * n) 0
        let S ← wr S (d + p * n) 0
        .ok (S, r))
    (fun m (u : List Rat × List Rat) => u.1.length = S.length ∧ u.2.length = r.length ∧
      Mat n u.1 (fun a b => if a ≠ b ∧ (a ∈ T ∨ b ∈ T ∨ (b = d ∧ kk n d a < m) ∨ (a = d ∧ kk n d b < m)) then 0 else g a b) ∧
      ∀ p, p < n → u.2.getD p 0 = if p ∈ T then g p p * val p else r0 p - (∑ q ∈ Finset.range n, if q ∈ T then g p q * val q else 0) -
        if p ≠ d ∧ kk n d p < m then g p d * val d else 0)
    ⟨rfl, rfl, by simpa using h.mat, fun p hp => by simpa using h.rhs p hp⟩ (by
    rintro k ⟨S, r⟩ hk ⟨h1, h2, h3, h4⟩
    obtain ⟨c1, c2, c3⟩ := kk_cyc hd hk
    simp only at h1 h2 h3 h4
    generalize hpe : (d + 1 + k) % n = p at c1 c2 c3 ⊢
    simp only
    have hlen : n ≤ r.length := by have := h.len; omega
    rw [mat_rd h3 c1 hd, bind_ok, rdD (by omega), bind_ok, wr_ok (by omega), bind_ok]
    obtain ⟨S1, e1, l1, m1⟩ := mat_wr
      (g' := fun a b => if a ≠ b ∧ (a ∈ T ∨ b ∈ T ∨ (b = d ∧ kk n d a < k + 1) ∨ (a = d ∧ kk n d b < k)) then 0 else g a b) h3 c1 hd 0
      (if_pos ⟨c2, Or.inr (Or.inr (Or.inl ⟨rfl, by omega⟩))⟩) (fun a b ha hb hne => by
        have : (b = d ∧ kk n d a < k + 1) ↔ (b = d ∧ kk n d a < k) := by
          constructor
          · rintro ⟨rfl, q⟩
            refine ⟨rfl, ?_⟩
            have : kk n b a ≠ k := fun q' => hne ⟨kk_inj hd ha c1 (by omega), rfl⟩
            omega
          · rintro ⟨rfl, q⟩
            exact ⟨rfl, by omega⟩
        simp only [this])
    obtain ⟨S2, e2, l2, m2⟩ := mat_wr
      (g' := fun a b => if a ≠ b ∧ (a ∈ T ∨ b ∈ T ∨ (b = d ∧ kk n d a < k + 1) ∨ (a = d ∧ kk n d b < k + 1)) then 0 else g a b) m1 hd c1 0
      (if_pos ⟨Ne.symm c2, Or.inr (Or.inr (Or.inr ⟨rfl, by omega⟩))⟩) (fun a b ha hb hne => by
        have : (a = d ∧ kk n d b < k + 1) ↔ (a = d ∧ kk n d b < k) := by
          constructor
          · rintro ⟨rfl, q⟩
            refine ⟨rfl, ?_⟩
            have : kk n a b ≠ k := fun q' => hne ⟨rfl, kk_inj hd hb c1 (by omega)⟩
            omega
          · rintro ⟨rfl, q⟩
            exact ⟨rfl, by omega⟩
        simp only [this])
    refine ⟨(S2, _), by rw [e1, bind_ok, e2, bind_ok], by simp only; omega, by simpa using h2, m2, fun a ha => ?_⟩
    simp only
    rw [getD_set (by omega)]
    by_cases hap : a = p
    · subst hap
      rw [if_pos rfl, h4 a ha]
      by_cases haT : a ∈ T
      · rw [if_pos haT, if_pos haT, if_pos ⟨c2, Or.inl haT⟩, zero_mul, sub_zero]
      · have c4 : ¬(a ≠ d ∧ (a ∈ T ∨ d ∈ T ∨ (True ∧ kk n d a < k) ∨ (a = d ∧ kk n d d < k))) := by
          rintro ⟨_, q | q | ⟨_, q⟩ | ⟨q, _⟩⟩
          · exact haT q
          · exact hT q
          · omega
          · exact c2 q
        rw [if_neg haT, if_neg haT, if_neg c4, if_neg (by omega), if_pos ⟨c2, by omega⟩]
        ring
    · rw [if_neg hap, h4 a ha]
      have : (a ≠ d ∧ kk n d a < k + 1) ↔ (a ≠ d ∧ kk n d a < k) := by
        constructor
        · rintro ⟨q1, q2⟩
          refine ⟨q1, ?_⟩
          have : kk n d a ≠ k := fun q' => hap (kk_inj hd ha c1 (by omega))
          omega
        · rintro ⟨q1, q2⟩
          exact ⟨q1, by omega⟩
      simp only [this])
  simp only at h1 h2 h3 h4
  have hdd := mat_rd h3 hd hd
  rw [if_neg (by simp)] at hdd
  refine ⟨S1, r1.set d (g d d * val d), ?_, h1, by simpa using h2, ?_, by have := h.len; simp; omega, fun p hp => ?_⟩
  · rw [e, bind_ok, show d * (n + 1) = d + d * n by ring, hdd, bind_ok, wr_ok (by have := h.len; simp only; omega), bind_ok]
  · refine ⟨h3.1, fun a b ha hb => ?_⟩
    rw [h3.2 a b ha hb]
    have : (a ≠ b ∧ (a ∈ T ∨ b ∈ T ∨ (b = d ∧ kk n d a < n - 1) ∨ (a = d ∧ kk n d b < n - 1))) ↔ (a ≠ b ∧ (a ∈ insert d T ∨ b ∈ insert d T)) := by
      rw [kk_lt hd ha, kk_lt hd hb, Finset.mem_insert, Finset.mem_insert]
      constructor
      · rintro ⟨q, q1 | q1 | ⟨q1, _⟩ | ⟨q1, _⟩⟩
        · exact ⟨q, Or.inl (Or.inr q1)⟩
        · exact ⟨q, Or.inr (Or.inr q1)⟩
        · exact ⟨q, Or.inr (Or.inl q1)⟩
        · exact ⟨q, Or.inl (Or.inl q1)⟩
      · rintro ⟨q, (q1 | q1) | (q1 | q1)⟩
        · exact ⟨q, Or.inr (Or.inr (Or.inr ⟨q1, by rw [← q1]; exact Ne.symm q⟩))⟩
        · exact ⟨q, Or.inl q1⟩
        · exact ⟨q, Or.inr (Or.inr (Or.inl ⟨q1, by rw [← q1]; exact q⟩))⟩
        · exact ⟨q, Or.inr (Or.inl q1)⟩
    simp only [this]
  · rw [getD_set (by have := h.len; omega)]
    by_cases hpd : p = d
    · subst hpd
      rw [if_pos rfl, if_pos (Finset.mem_insert_self _ _)]
    · rw [if_neg hpd, h4 p hp]
      by_cases hpT : p ∈ T
      · rw [if_pos hpT, if_pos (Finset.mem_insert_of_mem hpT)]
      · rw [if_neg hpT, if_pos (show p ≠ d ∧ kk n d p < n - 1 from ⟨hpd, (kk_lt hd hp).2 hpd⟩), if_neg (fun q => by rcases Finset.mem_insert.1 q with q | q; exacts [hpd q, hpT q])]
        have : ∀ q ∈ Finset.range n, (if q ∈ insert d T then g p q * val q else 0) = (if q ∈ T then g p q * val q else 0) + if q = d then g p d * val d else 0 := by
          intro q _
          by_cases hqd : q = d
          · subst hqd; simp [hT]
          · simp [hqd]
        rw [Finset.sum_congr rfl this, Finset.sum_add_distrib, Finset.sum_ite_eq' (Finset.range n) d, if_pos (Finset.mem_range.2 hd)]
        ring

theorem eliminate_ok {n : Nat} {g : Nat → Nat → Rat} {r0 val : Nat → Rat} : ∀ {ds : List Nat} {T : Finset Nat} {S r : List Rat}, Elim n g r0 val T S r →
    ds.Nodup → (∀ d ∈ ds, d < n ∧ d ∉ T) →
    ∃ S' r', eliminate n (ds.map (fun d => (d, val d))) S r = .ok (S', r') ∧ S'.length = S.length ∧ r'.length = r.length ∧ Elim n g r0 val (T ∪ ds.toFinset) S' r'
  | [], T, S, r, h, _, _ => ⟨S, r, rfl, rfl, rfl, by simpa using h⟩
  | d :: ds, T, S, r, h, hn, hd => by
    rw [List.nodup_cons] at hn
    obtain ⟨S1, r1, e1, l1, l2, h1⟩ := elim_step h (hd d (by simp)).1 (hd d (by simp)).2
    obtain ⟨S2, r2, e2, l3, l4, h2⟩ := eliminate_ok h1 hn.2 (fun x hx => ⟨(hd x (by simp [hx])).1, by
      rw [Finset.mem_insert]
      rintro (rfl | q)
      · exact hn.1 hx
      · exact (hd x (by simp [hx])).2 q⟩)
    refine ⟨S2, r2, ?_, by omega, by omega, ?_⟩
    · unfold eliminate at e2 ⊢
      rw [List.map_cons, List.foldlM_cons]
      rw [e1, bind_ok]
      exact e2
    · have : T ∪ (d :: ds).toFinset = insert d T ∪ ds.toFinset := by
        ext x
        simp only [Finset.mem_union, List.mem_toFinset, List.mem_cons, Finset.mem_insert]
        tauto
      rw [this]
      exact h2

/-- The condition on face `f`. -/
def condAt (bcond : List Int) (ty : List FlowBc.BcType) (value : List Rat) (f : Nat) : Option (FlowBc.BcType × Rat) :=
  if bcond.getD f (-1) = -1 then none else some (ty.getD (bcond.getD f (-1)).toNat .noflow, value.getD (bcond.getD f (-1)).toNat 0)

/-- The prescribed pressure, if any. -/
def pressOf : Option (FlowBc.BcType × Rat) → Option Rat
  | some (.pressure, v) => some v
  | _ => none

/-- The prescribed flux, or none. -/
def fluxOf : Option (FlowBc.BcType × Rat) → Rat
  | some (.fluxTotvol, v) => v
  | _ => 0

/-- The numbers refer to conditions. -/
def BcArr (nf : Nat) (bcond : List Int) (ty : List FlowBc.BcType) (value : List Rat) : Prop :=
  bcond.length = nf ∧ ∀ f, f < nf → bcond.getD f (-1) = -1 ∨ ∃ j : Nat, bcond.getD f (-1) = (j : Int) ∧ j < ty.length ∧ j < value.length

theorem imposeBc_ok {n nf : Nat} {conn : List Nat} {p1 : Nat} {bcond : List Int} {ty : List FlowBc.BcType} {value : List Rat} {s : Sys} {g : Nat → Nat → Rat}
    (hb : BcArr nf bcond ty value) (hc : ∀ i, i < n → conn[p1 + i]? = some (conn.getD (p1 + i) 0) ∧ conn.getD (p1 + i) 0 < nf) (hS : Mat n s.S g) (hr : n ≤ s.r.length) :
    ∃ S' r', imposeBc n conn p1 bcond ty value s = .ok { s with S := S', r := r' } ∧ S'.length = s.S.length ∧ r'.length = s.r.length ∧ ∃ g', Mat n S' g' ∧
      ∀ (x : Nat → Rat) (p : Nat), p < n → r'.getD p 0 - ∑ q ∈ Finset.range n, g' p q * x q =
        match pressOf (condAt bcond ty value (conn.getD (p1 + p) 0)) with
        | some v => g p p * (v - x p)
        | none => s.r.getD p 0 - fluxOf (condAt bcond ty value (conn.getD (p1 + p) 0)) -
            ∑ q ∈ Finset.range n, g p q * (pressOf (condAt bcond ty value (conn.getD (p1 + q) 0))).getD (x q) := by
  let co : Nat → Option (FlowBc.BcType × Rat) := fun i => condAt bcond ty value (conn.getD (p1 + i) 0)
  let val : Nat → Rat := fun i => (pressOf (co i)).getD 0
  let isP : Nat → Bool := fun i => (pressOf (co i)).isSome
  obtain ⟨u, e, h1, h2, h3⟩ := loop_inv (n := n) (s := (([] : List (Nat × Rat)), s.r)) (f := bcStep conn p1 bcond ty value)
    (fun m (u : List (Nat × Rat) × List Rat) => u.1 = ((List.range m).filter isP).map (fun d => (d, val d)) ∧ u.2.length = s.r.length ∧
      ∀ p, p < n → u.2.getD p 0 = s.r.getD p 0 - if p < m then fluxOf (co p) else 0)
    ⟨rfl, rfl, fun p _ => by simp⟩ (by
    rintro i ⟨D, r⟩ hi ⟨h1, h2, h3⟩
    simp only at h1 h2 h3
    obtain ⟨f1, f2⟩ := hc i hi
    have f3 : bcond[conn.getD (p1 + i) 0]? = some (bcond.getD (conn.getD (p1 + i) 0) (-1)) := by
      have : conn.getD (p1 + i) 0 < bcond.length := by rw [hb.1]; exact f2
      generalize conn.getD (p1 + i) 0 = m at this
      simp [this]
    unfold bcStep
    simp only [rd_of_getElem? f1, bind_ok, rd_of_getElem? f3]
    have hfil : ∀ b : Bool, isP i = b → (List.range (i + 1)).filter isP = (List.range i).filter isP ++ if b then [i] else [] := by
      intro b hb
      rw [List.range_succ, List.filter_append]
      subst hb
      cases hP : isP i <;> simp [hP]
    have hsum : ∀ p, p < n → p ≠ i → (if p < i + 1 then fluxOf (co p) else 0) = if p < i then fluxOf (co p) else 0 := by
      intro p _ hpi
      have : (p < i + 1) ↔ p < i := by omega
      simp only [this]
    have hkeep : fluxOf (co i) = 0 → ∀ p, p < n → r.getD p 0 = s.r.getD p 0 - if p < i + 1 then fluxOf (co p) else 0 := by
      intro h0 p hp
      rw [h3 p hp]
      by_cases hpi : p = i
      · subst hpi; rw [if_neg (by omega), if_pos (by omega), h0]
      · rw [hsum p hp hpi]
    rcases hb.2 _ f2 with hm | ⟨j, hj, hj1, hj2⟩
    · have hco : co i = none := by
        show condAt _ _ _ _ = none
        unfold condAt
        rw [if_pos hm]
      rw [hm, if_neg (by decide)]
      have hP : isP i = false := by
        show (pressOf (co i)).isSome = false
        rw [hco]; rfl
      refine ⟨(D, r), rfl, ?_, h2, hkeep (by rw [hco]; rfl)⟩
      rw [hfil false hP, h1]
      simp
    · have hco : co i = some (ty.getD j .noflow, value.getD j 0) := by
        show condAt _ _ _ _ = _
        unfold condAt
        rw [hj, if_neg (by omega), Int.toNat_natCast]
      have t1 : ty[j]? = some (ty.getD j .noflow) := by
        rw [List.getD_eq_getElem?_getD, List.getElem?_eq_getElem hj1]
        rfl
      rw [hj, if_pos (by omega), rdI_natCast, rd_of_getElem? t1, bind_ok]
      cases ht : ty.getD j .noflow with
      | noflow =>
        rw [ht] at hco
        have hP : isP i = false := by
          show (pressOf (co i)).isSome = false
          rw [hco]; rfl
        refine ⟨(D, r), rfl, ?_, h2, hkeep (by rw [hco]; rfl)⟩
        rw [hfil false hP, h1]
        simp
      | pressure =>
        rw [ht] at hco
        have hP : isP i = true := by
          show (pressOf (co i)).isSome = true
          rw [hco]; rfl
        have hv : val i = value.getD j 0 := by
          show (pressOf (co i)).getD 0 = _
          rw [hco]; rfl
        refine ⟨(D ++ [(i, value.getD j 0)], r), by simp only [rdI_natCast]; rw [rdD hj2, bind_ok], ?_, h2, hkeep (by rw [hco]; rfl)⟩
        rw [hfil true hP, h1]
        simp [hv]
      | fluxTotvol =>
        rw [ht] at hco
        have hP : isP i = false := by
          show (pressOf (co i)).isSome = false
          rw [hco]; rfl
        refine ⟨(D, r.set i (r.getD i 0 - value.getD j 0)), by simp only [rdI_natCast]; rw [rdD hj2, bind_ok, rdD (by omega), bind_ok, wr_ok (by omega), bind_ok], ?_, by simpa using h2, fun p hp => ?_⟩
        · rw [hfil false hP, h1]
          simp
        · simp only
          rw [getD_set (by omega)]
          by_cases hpi : p = i
          · subst hpi
            rw [if_pos rfl, h3 p hp, if_neg (by omega), if_pos (by omega), hco]
            simp [fluxOf]
          · rw [if_neg hpi, h3 p hp, hsum p hp hpi])
  obtain ⟨D, r⟩ := u
  simp only at h1 h2 h3
  have h3' : ∀ p, p < n → r.getD p 0 = s.r.getD p 0 - fluxOf (co p) := fun p hp => by rw [h3 p hp, if_pos hp]
  have key : ∃ S' r', imposeBc n conn p1 bcond ty value s = .ok { s with S := S', r := r' } ∧ S'.length = s.S.length ∧ r'.length = s.r.length ∧
      Elim n g (fun p => s.r.getD p 0 - fluxOf (co p)) val ((List.range n).filter isP).toFinset S' r' := by
    have hE : Elim n g (fun p => s.r.getD p 0 - fluxOf (co p)) val ∅ s.S r :=
      ⟨by simpa using hS, by omega, fun p hp => by simpa using h3' p hp⟩
    obtain ⟨S', r', e1, l1, l2, h4⟩ := eliminate_ok (ds := (List.range n).filter isP) hE (List.nodup_range.filter _) (fun d hd => by
      rw [List.mem_filter, List.mem_range] at hd
      exact ⟨hd.1, by simp⟩)
    unfold imposeBc
    rw [e, bind_ok]
    simp only
    by_cases hD : 0 < D.length
    · rw [if_pos hD, h1, e1, bind_ok]
      exact ⟨S', r', rfl, l1, by omega, by simpa using h4⟩
    · rw [if_neg hD]
      have : (List.range n).filter isP = [] := by
        have : D = [] := List.eq_nil_of_length_eq_zero (by omega)
        rw [this] at h1
        exact (List.map_eq_nil_iff.1 h1.symm)
      rw [this]
      exact ⟨s.S, r, rfl, rfl, h2, by simpa using hE⟩
  obtain ⟨S', r', e1, l1, l2, h4⟩ := key
  refine ⟨S', r', e1, l1, l2, _, h4.mat, fun x p hp => ?_⟩
  have hmem : ∀ q, q < n → (q ∈ ((List.range n).filter isP).toFinset ↔ (pressOf (co q)).isSome) := by
    intro q hq
    simp [hq, isP]
  rw [h4.rhs p hp]
  show _ = match pressOf (co p) with | some v => _ | none => s.r.getD p 0 - fluxOf (co p) - ∑ q ∈ Finset.range n, g p q * (pressOf (co q)).getD (x q)
  cases hpp : pressOf (co p) with
  | some v =>
    have hm : p ∈ ((List.range n).filter isP).toFinset := (hmem p hp).2 (by rw [hpp]; rfl)
    have hv : val p = v := by
      show (pressOf (co p)).getD 0 = v
      rw [hpp]; rfl
    rw [if_pos hm, hv, Finset.sum_eq_single p]
    · simp only [ne_eq, not_true_eq_false, false_and, if_false]
      ring
    · intro q _ hq
      rw [if_pos ⟨Ne.symm hq, Or.inl hm⟩, zero_mul]
    · intro hq
      exact absurd (Finset.mem_range.2 hp) hq
  | none =>
    have hm : ¬p ∈ ((List.range n).filter isP).toFinset := by
      rw [hmem p hp, hpp]
      simp
    rw [if_neg hm, sub_sub, ← Finset.sum_add_distrib]
    congr 1
    refine Finset.sum_congr rfl (fun q hq => ?_)
    have hq' := Finset.mem_range.1 hq
    cases hqq : pressOf (co q) with
    | some v =>
      have hmq : q ∈ ((List.range n).filter isP).toFinset := (hmem q hq').2 (by rw [hqq]; rfl)
      have hv : val q = v := by
        show (pressOf (co q)).getD 0 = v
        rw [hqq]; rfl
      have hne : p ≠ q := by
        rintro rfl
        exact hm hmq
      rw [if_pos hmq, if_pos ⟨hne, Or.inr hmq⟩, hv, zero_mul, add_zero]
      rfl
    | none =>
      have hmq : ¬q ∈ ((List.range n).filter isP).toFinset := by
        rw [hmem q hq', hqq]
        simp
      rw [if_neg hmq, if_neg (by rintro ⟨_, q1 | q1⟩; exacts [hm q1, hmq q1]), zero_add]
      rfl

end Opm.Hybsys
