import Verif.Proofs.HorizontalFaces
/-!
# Sign of the depths, and the change of order of the arrays
-/

namespace Opm.Cpg
open Opm UniquePoints

section
variable {inp : Input}

/-- A loop that looks for an element with a property. -/
theorem loop_flag {n : Nat} {body : Nat → Bool → M Bool} (p : Nat → Prop) (h : ∀ k, k < n → ∀ e, ∃ e', body k e = .ok e' ∧ (e' = true ↔ e = true ∨ p k)) (e : Bool) :
    ∃ e', loop n body e = .ok e' ∧ (e' = true ↔ e = true ∨ ∃ k, k < n ∧ p k) := by
  induction n with
  | zero => exact ⟨e, rfl, ⟨Or.inl, by rintro (h | ⟨k, hk, _⟩); · exact h
                                       · omega⟩⟩
  | succ n ih =>
    obtain ⟨e1, h1, i1⟩ := ih (fun k hk => h k (by omega))
    obtain ⟨e2, h2, i2⟩ := h n (by omega) e1
    refine ⟨e2, by rw [loop_succ, h1, bind_ok, h2], ?_⟩
    rw [i2, i1]
    constructor
    · rintro ((hp | ⟨k, hk, hp⟩) | hp)
      · exact Or.inl hp
      · exact Or.inr ⟨k, by omega, hp⟩
      · exact Or.inr ⟨n, by omega, hp⟩
    · rintro (hp | ⟨k, hk, hp⟩)
      · exact Or.inl (Or.inl hp)
      · rcases Nat.lt_or_ge k n with hl | hl
        · exact Or.inl (Or.inr ⟨k, hl, hp⟩)
        · obtain rfl : k = n := by omega
          exact Or.inr hp

theorem bothActive_ok (h : ∀ a, inp.actnum = some a → a.length = inp.nx * inp.ny * inp.nz) {i j k i' j' k' : Nat} (hi : i < inp.nx) (hj : j < inp.ny) (hk : k < inp.nz) (hi' : i' < inp.nx) (hj' : j' < inp.ny) (hk' : k' < inp.nz) :
    bothActive inp.actnum (cartesian inp.nx inp.ny i j k) (cartesian inp.nx inp.ny i' j' k') = .ok true ∧ inp.Active i j k ∧ inp.Active i' j' k' ∨
    bothActive inp.actnum (cartesian inp.nx inp.ny i j k) (cartesian inp.nx inp.ny i' j' k') = .ok false ∧ ¬ (inp.Active i j k ∧ inp.Active i' j' k') := by
  unfold bothActive Input.Active
  cases e : inp.actnum with
  | none => left; exact ⟨rfl, trivial, trivial⟩
  | some a =>
    have hl := h a e
    have c1 := cartesian_lt hi hj hk
    have c2 := cartesian_lt hi' hj' hk'
    have g1 : a[cartesian inp.nx inp.ny i j k]? = some (a.getD (cartesian inp.nx inp.ny i j k) 0) := by
      rw [List.getD_eq_getElem?_getD, List.getElem?_eq_getElem (by omega)]; rfl
    have g2 : a[cartesian inp.nx inp.ny i' j' k']? = some (a.getD (cartesian inp.nx inp.ny i' j' k') 0) := by
      rw [List.getD_eq_getElem?_getD, List.getElem?_eq_getElem (by omega)]; rfl
    simp only
    rw [rd_of_getElem? g1, bind_ok]
    by_cases hx : a.getD (cartesian inp.nx inp.ny i j k) 0 = 0
    · rw [if_neg (by simpa using hx)]
      right; exact ⟨rfl, fun hh => hh.1 hx⟩
    · rw [if_pos hx, rd_of_getElem? g2, bind_ok]
      by_cases hy : a.getD (cartesian inp.nx inp.ny i' j' k') 0 = 0
      · right; exact ⟨by rw [decide_eq_false (by simpa using hy)], fun hh => hh.2 hy⟩
      · left; exact ⟨by rw [decide_eq_true hy], hx, hy⟩

theorem rd_z (h : inp.Ok) {I J K : Nat} (hI : I < 2 * inp.nx) (hJ : J < 2 * inp.ny) (hK : K < 2 * inp.nz) :
    rd inp.zcorn (I + 2 * inp.nx * (J + 2 * inp.ny * K)) = .ok (inp.z I J K) := by
  have := idx3_lt hI hJ hK
  rw [← h.zcorn] at this
  rw [rd_of_getElem? (List.getElem?_eq_getElem this)]
  unfold Input.z
  rw [List.getD_eq_getElem?_getD, List.getElem?_eq_getElem this]
  rfl

/-- The three loops detect whether the depths are in order. -/
theorem zcornError_ok (h : inp.Ok) (sign : Int) : ∃ e, zcornError inp.nx inp.ny inp.nz inp.actnum inp.zcorn sign = .ok e ∧ (e = true ↔ ¬ inp.Downward sign) := by
  have key : ∃ e, zcornError inp.nx inp.ny inp.nz inp.actnum inp.zcorn sign = .ok e ∧ (e = true ↔ false = true ∨ ∃ J, J < 2 * inp.ny ∧ ∃ I, I < 2 * inp.nx ∧
      ∃ K, K < 2 * inp.nz - 1 ∧ ((inp.Active (I / 2) (J / 2) (K / 2) ∧ inp.Active (I / 2) (J / 2) ((K + 1) / 2)) ∧ (sign : Rat) * inp.z I J (K + 1) < sign * inp.z I J K)) := by
      unfold zcornError
      apply loop_flag (fun J => ∃ I, I < 2 * inp.nx ∧ ∃ K, K < 2 * inp.nz - 1 ∧
        ((inp.Active (I / 2) (J / 2) (K / 2) ∧ inp.Active (I / 2) (J / 2) ((K + 1) / 2)) ∧ (sign : Rat) * inp.z I J (K + 1) < sign * inp.z I J K))
      intro J hJ e
      apply loop_flag (fun I => ∃ K, K < 2 * inp.nz - 1 ∧ ((inp.Active (I / 2) (J / 2) (K / 2) ∧ inp.Active (I / 2) (J / 2) ((K + 1) / 2)) ∧
        (sign : Rat) * inp.z I J (K + 1) < sign * inp.z I J K))
      intro I hI e
      apply loop_flag (fun K => (inp.Active (I / 2) (J / 2) (K / 2) ∧ inp.Active (I / 2) (J / 2) ((K + 1) / 2)) ∧ (sign : Rat) * inp.z I J (K + 1) < sign * inp.z I J K)
      intro K hK e
      cases e with
      | true => exact ⟨true, rfl, by simp⟩
      | false =>
        have hact := bothActive_ok h.actnum (i := I / 2) (j := J / 2) (k := K / 2) (i' := I / 2) (j' := J / 2) (k' := (K + 1) / 2) (by omega) (by omega) (by omega) (by omega) (by omega) (by omega)
        have c1 := cartesian_lt (show I / 2 < inp.nx by omega) (show J / 2 < inp.ny by omega) (show K / 2 < inp.nz by omega)
        have c2 := cartesian_lt (show I / 2 < inp.nx by omega) (show J / 2 < inp.ny by omega) (show (K + 1) / 2 < inp.nz by omega)
        unfold cartesian at hact c1 c2
        rw [if_neg (by simp), rd_z h hI hJ (by omega), bind_ok, rd_z h hI hJ (by omega), bind_ok]
        simp only
        rw [check_ok (decide_eq_true c1), bind_ok, check_ok (decide_eq_true c2), bind_ok]
        rcases hact with ⟨e1, h1⟩ | ⟨e1, h1⟩
        · rw [e1, bind_ok, Bool.true_and]
          refine ⟨_, rfl, ?_⟩
          rw [decide_eq_true_eq]
          exact ⟨fun hh => Or.inr ⟨h1, hh⟩, fun hh => hh.elim (fun x => absurd x (by decide)) (fun x => x.2)⟩
        · rw [e1, bind_ok, Bool.false_and]
          exact ⟨_, rfl, ⟨fun x => absurd x (by decide), fun hh => hh.elim (fun x => absurd x (by decide)) (fun x => absurd x.1 h1)⟩⟩
  obtain ⟨e, he, hi⟩ := key
  refine ⟨e, he, ?_⟩
  rw [hi]
  unfold Input.Downward
  constructor
  · rintro (h0 | ⟨J, hJ, I, hI, K, hK, ⟨h1, h2⟩, h3⟩) hd
    · cases h0
    · exact absurd (hd I J K hI hJ (by omega) h1 h2) (not_le.2 h3)
  · intro hd
    right
    by_contra hc
    apply hd
    intro I J K hI hJ hK h1 h2
    by_contra hlt
    exact hc ⟨J, hJ, I, hI, K, by omega, ⟨h1, h2⟩, not_le.1 hlt⟩

/-- `get_zcorn_sign`. -/
theorem zcornSign_ok (h : inp.Ok) : ∃ s e, zcornSign inp.nx inp.ny inp.nz inp.actnum inp.zcorn = .ok (s, e) ∧
    (inp.Downward 1 → s = 1 ∧ e = false) ∧ (¬ inp.Downward 1 → inp.Downward (-1) → s = -1 ∧ e = false) ∧ (¬ inp.Downward 1 → ¬ inp.Downward (-1) → s = -3 ∧ e = true) := by
  obtain ⟨e1, h1, i1⟩ := zcornError_ok h 1
  obtain ⟨e2, h2, i2⟩ := zcornError_ok h (-1)
  unfold zcornSign
  rw [whileFuel]
  simp only
  rw [if_pos (by decide), h1]
  simp only [bind_ok]
  by_cases hd1 : inp.Downward 1
  · have : e1 = false := by
      cases e1 with
      | false => rfl
      | true => exact absurd hd1 (i1.1 rfl)
    subst this
    simp only [bind_ok, if_false, Bool.false_eq_true]
    exact ⟨1, false, rfl, fun _ => ⟨rfl, rfl⟩, fun hn => absurd hd1 hn, fun hn => absurd hd1 hn⟩
  · have : e1 = true := i1.2 hd1
    subst this
    simp only [bind_ok, if_true]
    rw [whileFuel]
    simp only
    rw [if_pos (by decide), show (1 : Int) - 2 = -1 by rfl, h2]
    simp only [bind_ok]
    by_cases hd2 : inp.Downward (-1)
    · have : e2 = false := by
        cases e2 with
        | false => rfl
        | true => exact absurd hd2 (i2.1 rfl)
      subst this
      simp only [bind_ok, if_false, Bool.false_eq_true]
      exact ⟨-1, false, rfl, fun hn => absurd hn hd1, fun _ _ => ⟨rfl, rfl⟩, fun _ hn => absurd hd2 hn⟩
    · have : e2 = true := i2.2 hd2
      subst this
      simp only [bind_ok, if_true]
      rw [whileFuel]
      simp only
      rw [if_neg (by decide)]
      simp only [bind_ok, if_false, Bool.false_eq_true]
      exact ⟨-3, true, rfl, fun hn => absurd hn hd1, fun _ hn => absurd hn hd2, fun _ _ => ⟨rfl, rfl⟩⟩

/-- Values of a table with the vertical index running fastest. -/
theorem permuteZcorn_ok (h : inp.Ok) (sign : Int) {out : List Rat} (hl : out.length = 2 * inp.nx * (2 * inp.ny) * (2 * inp.nz)) :
    ∃ r, permuteZcorn inp.nx inp.ny inp.nz inp.zcorn sign out = .ok r ∧ r.length = 2 * inp.nx * (2 * inp.ny) * (2 * inp.nz) ∧
      ∀ I J K, I < 2 * inp.nx → J < 2 * inp.ny → K < 2 * inp.nz → r[2 * inp.nz * (I + 2 * inp.nx * J) + K]? = some (sign * inp.z I J K) := by
  have hcap : 2 * inp.nz * (2 * inp.nx) * (2 * inp.ny) = 2 * inp.nx * (2 * inp.ny) * (2 * inp.nz) := by ring
  obtain ⟨s, e, hr⟩ := loop3_emit (fun (p : Cur Rat) l => p.Rep out.length l) out.length (a := 2 * inp.nz) (b := 2 * inp.nx) (c := 2 * inp.ny)
    (body := fun k i j (p : Cur Rat) => do
      let v ← rd inp.zcorn (i + 2 * inp.nx * (j + 2 * inp.ny * k))
      p.put (sign * v)) (fun k i j => (sign : Rat) * inp.z i j k) (by
      intro k i j hk hi hj p l hp hc
      rw [rd_z h hi hj hk, bind_ok]
      exact Cur.put_rep _ hp (by omega)) (s := ⟨out, 0⟩) (l := []) Cur.rep_start (by rw [List.length_nil, hl]; omega)
  rw [List.nil_append] at hr
  have hfull := Cur.rep_full hr (by rw [length_tab3]; omega)
  refine ⟨s.buf, ?_, ?_, ?_⟩
  · unfold permuteZcorn
    rw [e, bind_ok]
  · rw [hfull, length_tab3, hcap]
  · intro I J K hI hJ hK
    rw [hfull, Nat.add_comm, Nat.mul_comm (2 * inp.nz)]
    have := getElem?_tab3 (fun k i j => (sign : Rat) * inp.z i j k) hK hI hJ
    rw [← this]
    congr 1
    ring

theorem permuteActnum_ok (h : inp.Ok) {out : List Int} (hl : out.length = inp.nx * inp.ny * inp.nz) :
    ∃ r, permuteActnum inp.nx inp.ny inp.nz inp.actnum out = .ok r ∧ r.length = inp.nx * inp.ny * inp.nz ∧
      ∀ i j k, i < inp.nx → j < inp.ny → k < inp.nz → ∃ v, r[inp.nz * (i + inp.nx * j) + k]? = some v ∧ (v ≠ 0 ↔ inp.Active i j k) ∧
        ∀ a, inp.actnum = some a → a[cartesian inp.nx inp.ny i j k]? = some v := by
  unfold permuteActnum
  cases e : inp.actnum with
  | none =>
    simp only
    obtain ⟨r, e', h1, h2⟩ := loop_inv (n := inp.nx * inp.ny * inp.nz) (s := out) (f := fun i (o : List Int) => wr o i 1)
      (fun i (o : List Int) => o.length = inp.nx * inp.ny * inp.nz ∧ ∀ t, t < i → o[t]? = some 1) ⟨hl, by intro t ht; omega⟩ (by
        rintro i o hi ⟨h1, h2⟩
        rw [wr_ok (by omega)]
        refine ⟨_, rfl, by rw [List.length_set]; exact h1, ?_⟩
        intro t ht
        rw [getElem?_set_if (by omega)]
        split
        · rfl
        · exact h2 t (by omega))
    refine ⟨r, e', h1, ?_⟩
    intro i j k hi hj hk
    refine ⟨1, h2 _ ?_, ?_, by intro a ha; cases ha⟩
    · have := idx3_lt hk hi hj
      rw [Nat.add_comm]
      calc k + inp.nz * (i + inp.nx * j) < inp.nz * inp.nx * inp.ny := this
        _ = inp.nx * inp.ny * inp.nz := by ring
    · unfold Input.Active; rw [e]; simp
  | some a =>
    have hla := h.actnum a e
    have hcap : inp.nz * inp.nx * inp.ny = inp.nx * inp.ny * inp.nz := by ring
    have hget : ∀ {i j k : Nat}, i < inp.nx → j < inp.ny → k < inp.nz → a[i + inp.nx * (j + inp.ny * k)]? = some (a.getD (i + inp.nx * (j + inp.ny * k)) 0) := by
      intro i j k hi hj hk
      have := idx3_lt hi hj hk
      rw [← hla] at this
      rw [List.getD_eq_getElem?_getD, List.getElem?_eq_getElem this]
      rfl
    obtain ⟨s, e', hr⟩ := loop3_emit (fun (p : Cur Int) l => p.Rep out.length l) out.length (a := inp.nz) (b := inp.nx) (c := inp.ny)
      (body := fun k i j (p : Cur Int) => do
        let v ← rd a (i + inp.nx * (j + inp.ny * k))
        p.put v) (fun k i j => a.getD (i + inp.nx * (j + inp.ny * k)) 0) (by
        intro k i j hk hi hj p l hp hc
        rw [rd_of_getElem? (hget hi hj hk), bind_ok]
        exact Cur.put_rep _ hp (by omega)) (s := ⟨out, 0⟩) (l := []) Cur.rep_start (by rw [List.length_nil, hl]; omega)
    rw [List.nil_append] at hr
    have hfull := Cur.rep_full hr (by rw [length_tab3]; omega)
    simp only
    refine ⟨s.buf, ?_, ?_, ?_⟩
    · rw [e', bind_ok]
    · rw [hfull, length_tab3, hcap]
    · intro i j k hi hj hk
      refine ⟨a.getD (i + inp.nx * (j + inp.ny * k)) 0, ?_, ?_, ?_⟩
      · rw [hfull, Nat.add_comm]
        exact getElem?_tab3 (fun k i j => a.getD (i + inp.nx * (j + inp.ny * k)) 0) hk hi hj
      · unfold Input.Active; rw [e]; rfl
      · intro a' ha'
        cases ha'
        exact hget hi hj hk

end

end Opm.Cpg
