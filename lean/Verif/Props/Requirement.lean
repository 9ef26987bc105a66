import Verif.Model.Requirement
/-!
# Property theorems for parameter requirements (C33)
-/

namespace Opm.Param

/-! ### Specification -/

/-- What a requirement on a number demands. -/
def NumReq.Holds : NumReq → Rat → Prop
  | .none, _ => True
  | .probability, x => 0 ≤ x ∧ x ≤ 1
  | .positive, x => 0 < x
  | .negative, x => x < 0
  | .nonPositive, x => x ≤ 0
  | .nonNegative, x => 0 ≤ x
  | .nonZero, x => x ≠ 0
  | .and r s, x => r.Holds x ∧ s.Holds x

/-- What a requirement on a string demands. -/
def StrReq.Holds : StrReq → Name → Prop
  | .none, _ => True
  | .nonEmpty, x => x ≠ []
  | .memberOf el, x => x ∈ el
  | .and r s, x => r.Holds x ∧ s.Holds x

/-- The requirement can be constructed (no empty `MemberOf`) and does not use `NonEmpty`. -/
def StrReq.Usable : StrReq → Prop
  | .none => True
  | .nonEmpty => False
  | .memberOf el => el ≠ []
  | .and r s => r.Usable ∧ s.Usable

theorem andMsg_nil (a b : Name) : andMsg a b = [] ↔ a = [] ∧ b = [] := by
  unfold andMsg
  by_cases ha : a = []
  · simp [ha]
  · by_cases hb : b = []
    · simp [ha, hb]
    · simp [ha, hb]

/-- **C33.**  A requirement on a number reports no error exactly for the values it is meant to accept. -/
theorem number_requirement_exact (shw : Rat → Name) (r : NumReq) (x : Rat) : r.run shw x = [] ↔ r.Holds x := by
  induction r with
  | none => simp [NumReq.run, NumReq.Holds]
  | and r s ihr ihs => rw [NumReq.run, NumReq.Holds, andMsg_nil, ihr, ihs]
  | probability =>
    unfold NumReq.run NumReq.Holds
    split
    · rename_i h
      simp only [List.append_eq_nil_iff]
      constructor
      · rintro ⟨⟨h, _⟩, _⟩; exact absurd h (by decide)
      · rintro ⟨h1, h2⟩; rcases h with h | h
        · exact absurd h (not_lt.2 h1)
        · exact absurd h (not_lt.2 h2)
    · rename_i h
      rw [not_or, not_lt, gt_iff_lt, not_lt] at h
      simpa using h
  | positive =>
    unfold NumReq.run NumReq.Holds
    split
    · rename_i h; simpa using h
    · rename_i h; simpa using h
  | negative =>
    unfold NumReq.run NumReq.Holds
    split
    · rename_i h; simpa using h
    · rename_i h; simpa using h
  | nonPositive =>
    unfold NumReq.run NumReq.Holds
    split
    · rename_i h; simpa using h
    · rename_i h; simpa using h
  | nonNegative =>
    unfold NumReq.run NumReq.Holds
    split
    · rename_i h; simpa using h
    · rename_i h; simpa using h
  | nonZero =>
    unfold NumReq.run NumReq.Holds
    split
    · rename_i h; simpa using h
    · rename_i h; simpa using h

/-- **C33 (partial).**  The same for strings, except for requirements that use `NonEmpty`. -/
theorem string_requirement_exact_partial (r : StrReq) (hr : r.Usable) (x : Name) : r.run x = [] ↔ r.Holds x := by
  induction r with
  | none => simp [StrReq.run, StrReq.Holds]
  | nonEmpty => exact hr.elim
  | and r s ihr ihs => rw [StrReq.run, StrReq.Holds, andMsg_nil, ihr hr.1, ihs hr.2]
  | memberOf el =>
    unfold StrReq.run StrReq.Holds
    split
    · rename_i h; simpa using h
    · rename_i h
      refine ⟨fun hm => absurd hm ?_, fun hm => absurd hm h⟩
      unfold memberMsg
      unfold StrReq.Usable at hr
      match el, hr with
      | [e], _ => simp
      | _ :: _ :: _, _ => simp

/-- **C33, negative part.**  `NonEmpty` accepts exactly the empty string. -/
theorem nonEmpty_is_inverted (x : Name) : StrReq.nonEmpty.run x = [] ↔ x = [] := by
  unfold StrReq.run
  by_cases h : x = [] <;> simp [h]

/-- **C33.**  `get` with a requirement returns only values that meet it. -/
theorem get_meets_requirement {α : Type} (conv : Item → P α) (req : α → Name) (it : Item) (v : α)
    (h : translate conv (fun x => req x == []) it = .ok v) : conv it = .ok v ∧ req v = [] := by
  unfold translate at h
  cases hc : conv it with
  | error e => rw [hc] at h; cases h
  | ok w =>
    rw [hc] at h
    change (if (req w == []) = true then Except.ok w else Except.error Fail.requirement) = Except.ok v at h
    split at h
    · cases h
      rename_i hb
      exact ⟨rfl, by simpa using hb⟩
    · cases h

example : NumReq.run (fun _ => "x".toList) (.and .positive .probability) (1/2) = [] := by decide +kernel
example : NumReq.run (fun _ => "2".toList) (.and .positive .probability) 2 = "The value '2' is not in the interval [0, 1].".toList := by decide +kernel
example : (StrReq.memberOf ["a".toList, "b".toList, "c".toList]).run "d".toList = "The string 'd' is not among 'a', 'b' and 'c'.".toList := by decide
example : (StrReq.and (.memberOf ["a".toList]) .none).Usable := ⟨List.cons_ne_nil _ _, trivial⟩

end Opm.Param
