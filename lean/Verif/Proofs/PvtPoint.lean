import Verif.Proofs.Pvt
/-! # Proofs about fluid properties: a batch is a sequence of points -/

namespace Opm.Pvt
open Opm Opm.Interp

variable {f : Fluid} {cfg : Config} {z : List Rat} {p : Rat}

theorem each_one (g : Nat → M Rat) : (each 1 g [0] >>= fun out => rd out 0) = g 0 := by
  unfold each
  rw [loop_succ, loop_zero, bind_ok]
  cases g 0 with
  | error _ => rfl
  | ok v => rfl

theorem each2_one (g : Nat → M (Rat × Rat)) : (each2 1 g ([0], [0]) >>= fun out => rd out.1 0 >>= fun a => rd out.2 0 >>= fun b => Except.ok (a, b)) = g 0 := by
  unfold each2
  rw [loop_succ, loop_zero, bind_ok]
  cases g 0 with
  | error _ => rfl
  | ok v => rfl

theorem oneB_eq : oneB f cfg z p = f.b1 cfg (volOf cfg z 0) p := by
  unfold oneB
  rw [b_each (by simp)]
  exact each_one _

theorem oneMu_eq : oneMu f cfg z p = f.mu1 cfg (volOf cfg z 0) p := by
  unfold oneMu
  rw [mu_each (by simp)]
  exact each_one _

theorem oneR_eq : oneR f cfg z p = f.r1 cfg (volOf cfg z 0) p := by
  unfold oneR
  rw [r_each (by simp)]
  exact each_one _

theorem oneDR_eq : oneDR f cfg z p = f.dr1 cfg (volOf cfg z 0) p := by
  unfold oneDR
  rw [dr_each (by simp) (by simp) (by simp)]
  exact each2_one _

theorem oneDB_eq_ok {r : Rat × Rat} : oneDB f cfg z p = .ok r ↔ f.db1 cfg (volOf cfg z 0) p = .ok r := by
  unfold oneDB
  have hb := db_each (f := f) (cfg := cfg) (n := 1) (p := [p]) (z := z) (a := [0]) (b := [0]) (by simp) (by simp) (by simp)
  have h1 := each2_one (fun i => f.db1 cfg (volOf cfg z i) ([p].getD i 0))
  constructor
  · intro h
    obtain ⟨out, e, h⟩ := bind_eq_ok.1 h
    rw [hb] at e
    rw [e, bind_ok, h] at h1
    exact h1.symm
  · intro h
    have h2 := h1.trans h
    obtain ⟨out, e, h3⟩ := bind_eq_ok.1 h2
    rw [← hb] at e
    rw [e, bind_ok]
    exact h3

theorem volume_point {n i : Nat} (hz : z.length = n * cfg.numPhases) (hi : i < n) {ph : Nat} (hr : ∀ k, cfg.phasePos[ph]? = some k → k < cfg.numPhases) :
    volume cfg (volOf cfg z i) ph = volume cfg (volOf cfg (point cfg z i) 0) ph := by
  unfold volume rd
  cases h : cfg.phasePos[ph]? with
  | none => rfl
  | some k =>
    have hk := hr k h
    have hb : cfg.numPhases * i + k < z.length := by rw [hz]; nlinarith
    dsimp only
    rw [bind_ok, bind_ok]
    unfold volOf
    have : (point cfg z i)[cfg.numPhases * 0 + k]? = z[cfg.numPhases * i + k]? := by
      unfold point
      rw [Nat.mul_zero, Nat.zero_add, List.getElem?_take_of_lt hk, List.getElem?_drop]
    unfold rd
    rw [this]

theorem pt_b {n i : Nat} (hz : z.length = n * cfg.numPhases) (hi : i < n) (hr : f.Reads cfg) : f.b1 cfg (volOf cfg z i) p = oneB f cfg (point cfg z i) p := by
  rw [oneB_eq]
  unfold Fluid.b1
  cases f with
  | dead d => rfl
  | const c => rfl
  | oil t =>
    have e1 := volume_point hz hi (ph := Liquid) (fun k => hr Liquid k (Or.inl rfl))
    have e2 := volume_point hz hi (ph := Vapour) (fun k => hr Vapour k (Or.inr rfl))
    simp only [Live.oilB, Live.oil, oilMaxR, e1, e2]
  | gas t =>
    have e1 := volume_point hz hi (ph := Liquid) (fun k => hr Liquid k (Or.inl rfl))
    have e2 := volume_point hz hi (ph := Vapour) (fun k => hr Vapour k (Or.inr rfl))
    simp only [Live.gasB, Live.gas, e1, e2]

theorem pt_mu {n i : Nat} (hz : z.length = n * cfg.numPhases) (hi : i < n) (hr : f.Reads cfg) : f.mu1 cfg (volOf cfg z i) p = oneMu f cfg (point cfg z i) p := by
  rw [oneMu_eq]
  unfold Fluid.mu1
  cases f with
  | dead d => rfl
  | const c => rfl
  | oil t =>
    have e1 := volume_point hz hi (ph := Liquid) (fun k => hr Liquid k (Or.inl rfl))
    have e2 := volume_point hz hi (ph := Vapour) (fun k => hr Vapour k (Or.inr rfl))
    simp only [Live.oil, oilMaxR, e1, e2]
  | gas t =>
    have e1 := volume_point hz hi (ph := Liquid) (fun k => hr Liquid k (Or.inl rfl))
    have e2 := volume_point hz hi (ph := Vapour) (fun k => hr Vapour k (Or.inr rfl))
    simp only [Live.gas, e1, e2]

theorem pt_r {n i : Nat} (hz : z.length = n * cfg.numPhases) (hi : i < n) (hr : f.Reads cfg) : f.r1 cfg (volOf cfg z i) p = oneR f cfg (point cfg z i) p := by
  rw [oneR_eq]
  unfold Fluid.r1
  cases f with
  | dead d => rfl
  | const c => rfl
  | oil t =>
    have e1 := volume_point hz hi (ph := Liquid) (fun k => hr Liquid k (Or.inl rfl))
    have e2 := volume_point hz hi (ph := Vapour) (fun k => hr Vapour k (Or.inr rfl))
    simp only [Live.oilR, e1, e2]
  | gas t =>
    have e1 := volume_point hz hi (ph := Liquid) (fun k => hr Liquid k (Or.inl rfl))
    have e2 := volume_point hz hi (ph := Vapour) (fun k => hr Vapour k (Or.inr rfl))
    simp only [Live.gasR, e1, e2]

theorem pt_dr {n i : Nat} (hz : z.length = n * cfg.numPhases) (hi : i < n) (hr : f.Reads cfg) : f.dr1 cfg (volOf cfg z i) p = oneDR f cfg (point cfg z i) p := by
  rw [oneDR_eq]
  unfold Fluid.dr1
  cases f with
  | dead d => rfl
  | const c => rfl
  | oil t =>
    have e1 := volume_point hz hi (ph := Liquid) (fun k => hr Liquid k (Or.inl rfl))
    have e2 := volume_point hz hi (ph := Vapour) (fun k => hr Vapour k (Or.inr rfl))
    simp only [Live.oilRDeriv, e1, e2]
  | gas t =>
    have e1 := volume_point hz hi (ph := Liquid) (fun k => hr Liquid k (Or.inl rfl))
    have e2 := volume_point hz hi (ph := Vapour) (fun k => hr Vapour k (Or.inr rfl))
    simp only [Live.gasRDeriv, e1, e2]

theorem pt_db {n i : Nat} (hz : z.length = n * cfg.numPhases) (hi : i < n) (hr : f.Reads cfg) (r : Rat × Rat) :
    f.db1 cfg (volOf cfg z i) p = .ok r ↔ oneDB f cfg (point cfg z i) p = .ok r := by
  rw [oneDB_eq_ok]
  unfold Fluid.db1
  cases f with
  | dead d => rfl
  | const c => rfl
  | oil t =>
    have e1 := volume_point hz hi (ph := Liquid) (fun k => hr Liquid k (Or.inl rfl))
    have e2 := volume_point hz hi (ph := Vapour) (fun k => hr Vapour k (Or.inr rfl))
    simp only [Live.oilBDeriv, Live.oilB, Live.oil, oilMaxR, e1, e2]
  | gas t =>
    have e1 := volume_point hz hi (ph := Liquid) (fun k => hr Liquid k (Or.inl rfl))
    have e2 := volume_point hz hi (ph := Vapour) (fun k => hr Vapour k (Or.inr rfl))
    simp only [Live.gasBDeriv, Live.gas, e1, e2]

/-- A loop over points succeeds exactly if all points do. -/
theorem each_iff {n : Nat} {g : Nat → M Rat} {out out' : List Rat} (ho : out.length = n) :
    each n g out = .ok out' ↔ out'.length = n ∧ ∀ i, i < n → ∃ v, g i = .ok v ∧ out'[i]? = some v := by
  constructor
  · intro h
    obtain ⟨_, v, hv, rfl⟩ := each_eq_ok h
    refine ⟨by simp [ho], fun i hi => ⟨v i, hv i hi, ?_⟩⟩
    rw [List.getElem?_append_left (by simpa using hi)]
    simp [hi]
  · rintro ⟨hl, h⟩
    rw [each_ok (fun i => out'.getD i 0) (by omega) (fun i hi => by obtain ⟨v, e, hv⟩ := h i hi; rw [e, List.getD_eq_getElem?_getD, hv]; rfl)]
    congr 1
    rw [List.drop_eq_nil_of_le (by omega), List.append_nil]
    apply List.ext_getElem?
    intro i
    by_cases hi : i < n
    · simp [hi, List.getD_eq_getElem?_getD, List.getElem?_eq_getElem (show i < out'.length by omega)]
    · rw [List.getElem?_eq_none (by simp; omega), List.getElem?_eq_none (by omega)]

theorem each2_iff {n : Nat} {g : Nat → M (Rat × Rat)} {a b a' b' : List Rat} (ha : a.length = n) (hb : b.length = n) :
    each2 n g (a, b) = .ok (a', b') ↔ a'.length = n ∧ b'.length = n ∧ ∀ i, i < n → ∃ v w, g i = .ok (v, w) ∧ a'[i]? = some v ∧ b'[i]? = some w := by
  constructor
  · intro h
    obtain ⟨_, _, v, hv, e⟩ := each2_eq_ok h
    cases e
    refine ⟨by simp [ha], by simp [hb], fun i hi => ⟨(v i).1, (v i).2, hv i hi, ?_, ?_⟩⟩
    · rw [List.getElem?_append_left (by simpa using hi)]
      simp [hi]
    · rw [List.getElem?_append_left (by simpa using hi)]
      simp [hi]
  · rintro ⟨hl, hl2, h⟩
    rw [each2_ok (fun i => (a'.getD i 0, b'.getD i 0)) (by omega) (by omega) (fun i hi => by
      obtain ⟨v, w, e, hv, hw⟩ := h i hi; rw [e, List.getD_eq_getElem?_getD, hv, List.getD_eq_getElem?_getD, hw]; rfl)]
    congr 1
    rw [List.drop_eq_nil_of_le (by omega), List.append_nil, List.drop_eq_nil_of_le (by omega), List.append_nil]
    congr 1 <;>
    · apply List.ext_getElem?
      intro i
      by_cases hi : i < n
      · simp [hi, List.getD_eq_getElem?_getD, List.getElem?_eq_getElem (show i < a'.length by omega), List.getElem?_eq_getElem (show i < b'.length by omega)]
      · rw [List.getElem?_eq_none (by simp; omega), List.getElem?_eq_none (by omega)]

end Opm.Pvt
