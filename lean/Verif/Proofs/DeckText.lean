import Verif.Spec.DeckText
import Mathlib.Tactic.Ring
import Mathlib.Tactic.FieldSimp
import Mathlib.Algebra.Order.Floor.Ring
import Mathlib.Data.Rat.Floor
/-!
# Reading numbers
-/

namespace Opm.Deck
open Opm Istream

theorem digitChar_cases (d : Fin 10) : digitChar d ∈ ['0', '1', '2', '3', '4', '5', '6', '7', '8', '9'] ∧ (digitChar d).toNat - 48 = d.val := by
  revert d
  decide

theorem isDig_digitChar (d : Fin 10) : isDig (digitChar d) = true := by
  unfold isDig
  exact decide_eq_true (digitChar_cases d).1

/-- The next character is not a digit. -/
def NoDig (r : List Char) : Prop := ∀ c, r.head? = some c → isDig c = false

theorem space_not_dig {c : Char} (h : isSpace c = true) : isDig c = false ∧ c ≠ '.' ∧ c ≠ 'e' ∧ c ≠ 'E' ∧ c ≠ '*' ∧ c ≠ '/' ∧ c ≠ '-' ∧ c ≠ '+' := by
  unfold isSpace at h
  simp only [decide_eq_true_eq] at h
  rcases h with rfl | rfl | rfl | rfl | rfl | rfl <;> decide

theorem Stop.plain {r : List Char} (h : Stop r) {c : Char} (hc : r.head? = some c) : isDig c = false ∧ c ≠ '.' ∧ c ≠ 'e' ∧ c ≠ 'E' := by
  rcases h c hc with h | rfl | rfl | rfl
  · exact ⟨(space_not_dig h).1, (space_not_dig h).2.1, (space_not_dig h).2.2.1, (space_not_dig h).2.2.2.1⟩
  all_goals decide

theorem Stop.noDig {r : List Char} (h : Stop r) : NoDig r := fun _ hc => (h.plain hc).1

theorem takeWhile_digits (ds : Digits) {r : List Char} (h : NoDig r) : (ds.text ++ r).takeWhile isDig = ds.text ∧ (ds.text ++ r).dropWhile isDig = r := by
  induction ds with
  | nil =>
    cases r with
    | nil => exact ⟨rfl, rfl⟩
    | cons c r =>
      have := h c rfl
      simp [Digits.text, this]
  | cons d ds ih =>
    simp only [Digits.text, List.map_cons, List.cons_append, List.takeWhile_cons, List.dropWhile_cons, isDig_digitChar, if_true]
    exact ⟨by rw [show List.takeWhile isDig (List.map digitChar ds ++ r) = List.map digitChar ds from ih.1], ih.2⟩

theorem ofDigits_text (ds : Digits) : ofDigits ds.text = ds.val := by
  unfold ofDigits Digits.text Digits.val
  rw [List.foldl_map]
  congr 1
  funext a d
  rw [(digitChar_cases d).2]

theorem foldl_digits (ds : Digits) (a : Nat) : ds.foldl (fun a d => 10 * a + d.val) a = a * 10 ^ ds.length + ds.val := by
  induction ds generalizing a with
  | nil => simp [Digits.val]
  | cons d ds ih =>
    unfold Digits.val
    rw [List.foldl_cons, List.foldl_cons, ih, ih (10 * 0 + d.val), List.length_cons]
    ring

theorem val_append (a b : Digits) : Digits.val (a ++ b) = a.val * 10 ^ b.length + b.val := by
  unfold Digits.val
  rw [List.foldl_append, foldl_digits]
  rfl

theorem text_append (a b : Digits) : Digits.text (a ++ b) = a.text ++ b.text := by
  unfold Digits.text
  rw [List.map_append]

theorem text_nil {ds : Digits} : ds.text = [] ↔ ds = [] := by
  unfold Digits.text
  exact List.map_eq_nil_iff

theorem digit_not_sign (d : Fin 10) : digitChar d ≠ '-' ∧ digitChar d ≠ '+' ∧ digitChar d ≠ '.' ∧ digitChar d ≠ 'e' ∧ digitChar d ≠ 'E' ∧ isSpace (digitChar d) = false ∧ digitChar d ≠ '/' := by
  revert d
  decide

/-- The next character is not a sign. -/
def NoSign (r : List Char) : Prop := ∀ c, r.head? = some c → c ≠ '-' ∧ c ≠ '+'

theorem scanSign_text (g : Sign) {r : List Char} (h : NoSign r) : scanSign (g.text ++ r) = (decide (g = .minus), r) := by
  cases g with
  | plus => simp [Sign.text, scanSign]
  | minus => simp [Sign.text, scanSign]
  | none =>
    cases r with
    | nil => simp [Sign.text, scanSign]
    | cons c r =>
      obtain ⟨h1, h2⟩ := h c rfl
      simp only [Sign.text, List.nil_append]
      unfold scanSign
      split
      · rename_i e
        cases e
        exact absurd rfl h1
      · rename_i e
        cases e
        exact absurd rfl h2
      · simp

theorem digits_noSign {ds : Digits} (h : ds ≠ []) (r : List Char) : NoSign (ds.text ++ r) := by
  cases ds with
  | nil => exact absurd rfl h
  | cons d ds =>
    intro c hc
    simp only [Digits.text, List.map_cons, List.cons_append, List.head?_cons, Option.some.injEq] at hc
    subst hc
    exact ⟨(digit_not_sign d).1, (digit_not_sign d).2.1⟩

/-- Integers. -/
theorem scanInt_text {l : IntLit} (h : l.Ok) {r : List Char} (hr : NoDig r) : scanInt (l.text ++ r) = (some l.val, r) := by
  have e : scanSign (l.text ++ r) = (decide (l.sign = .minus), l.digits.text ++ r) := by
    unfold IntLit.text
    rw [List.append_assoc]
    exact scanSign_text _ (digits_noSign h.digits r)
  obtain ⟨t1, t2⟩ := takeWhile_digits l.digits hr
  unfold scanInt
  simp only [e, t1, t2, ofDigits_text]
  have ev : signed (decide (l.sign = .minus)) l.digits.val = l.val := by
    unfold signed IntLit.val
    cases l.sign <;> simp
  rw [ev, if_pos ⟨fun hn => h.digits (text_nil.1 hn), h.range⟩]

/-- Signed digits, of any size. -/
theorem scan_exponent {l : IntLit} (h : l.digits ≠ []) {r : List Char} (hr : NoDig r) :
    (scanSign (l.text ++ r)).1 = decide (l.sign = .minus) ∧ (scanSign (l.text ++ r)).2.takeWhile isDig = l.digits.text ∧ (scanSign (l.text ++ r)).2.dropWhile isDig = r := by
  have e : scanSign (l.text ++ r) = (decide (l.sign = .minus), l.digits.text ++ r) := by
    unfold IntLit.text
    rw [List.append_assoc]
    exact scanSign_text _ (digits_noSign h r)
  rw [e]
  exact ⟨rfl, takeWhile_digits l.digits hr⟩

theorem signed_val (l : IntLit) : signed (decide (l.sign = .minus)) l.digits.val = l.val := by
  unfold signed IntLit.val
  cases l.sign <;> simp

theorem real_value (g : Sign) (a b : Digits) (e : Int) :
    realValue (decide (g = .minus)) a.text b.text e = g.app (((a.val : Rat) + (b.val : Rat) / (10 : Rat) ^ b.length) * (10 : Rat) ^ e) := by
  unfold realValue
  rw [← text_append, ofDigits_text, val_append, show b.text.length = b.length by simp [Digits.text]]
  have h10 : (10 : Rat) ≠ 0 := by norm_num
  have key : ((a.val * 10 ^ b.length + b.val : Nat) : Rat) * (10 : Rat) ^ (e - (b.length : Int)) = ((a.val : Rat) + (b.val : Rat) / (10 : Rat) ^ b.length) * (10 : Rat) ^ e := by
    rw [zpow_sub₀ h10, zpow_natCast]
    push_cast
    field_simp
  cases g
  · simpa [signed, Sign.app] using key
  · simpa [signed, Sign.app] using key
  · simp only [signed, Sign.app, decide_true, if_true]
    rw [← key]
    push_cast
    ring

def expScan : Option (Bool × IntLit) → Option (Bool × List Char)
  | none => none
  | some (_, e) => some (decide (e.sign = .minus), e.digits.text)

/-- Decimal numbers. -/
theorem scanReal_text {l : RealLit} (h : l.Ok) {r : List Char} (hr : Stop r) : scanReal (l.text ++ r) = (some l.val, r) := by
  obtain ⟨g, a, f, e⟩ := l
  -- what follows the mantissa
  have tail : ∀ (found : Bool), found = true → scanExp found (expText e ++ r) =
      (expScan e, r) := by
    rintro found rfl
    cases e with
    | none =>
      cases r with
      | nil => rfl
      | cons c r =>
        have := hr.plain (c := c) rfl
        simp [scanExp, expText, expScan, this]
    | some x =>
      obtain ⟨big, e⟩ := x
      obtain ⟨k1, k2, k3⟩ := scan_exponent (h.exp big e rfl) hr.noDig
      cases big <;> simp [scanExp, expText, expScan, k1, k2, k3]
  have noDig : NoDig (expText e ++ r) := by
    cases e with
    | none => exact hr.noDig
    | some x =>
      obtain ⟨big, e⟩ := x
      intro c hc
      cases big <;> simp [expText] at hc <;> subst hc <;> decide
  have noDot : ∀ c, (expText e ++ r).head? = some c → c ≠ '.' := by
    intro c hc
    cases e with
    | none => exact (hr.plain hc).2.1
    | some x =>
      obtain ⟨big, e⟩ := x
      cases big <;> simp [expText] at hc <;> subst hc <;> decide
  have frac : scanFrac (fracText f ++ (expText e ++ r)) =
      (Digits.text (f.getD []), expText e ++ r) := by
    cases f with
    | none =>
      simp only [fracText, List.nil_append, Option.getD_none]
      unfold scanFrac
      split
      · rename_i q hq
        exact absurd rfl (noDot '.' (by rw [hq]; rfl))
      · rfl
    | some f =>
      simp only [fracText, List.cons_append, scanFrac, Option.getD_some]
      rw [(takeWhile_digits f noDig).1, (takeWhile_digits f noDig).2]
  have noDig2 : NoDig (fracText f ++ (expText e ++ r)) := by
    cases f with
    | none => exact noDig
    | some f =>
      intro c hc
      simp [fracText] at hc
      subst hc
      decide
  have hd : a ++ f.getD [] ≠ [] := h.digits
  have noSign : NoSign (Digits.text a ++ (fracText f ++ (expText e ++ r))) := by
    by_cases ha : a = []
    · subst ha
      cases f with
      | none => exact absurd rfl hd
      | some f =>
        intro c hc
        simp [Digits.text, fracText] at hc
        subst hc
        decide
    · exact digits_noSign ha _
  have es : scanSign (RealLit.text ⟨g, a, f, e⟩ ++ r) = (decide (g = .minus), Digits.text a ++ (fracText f ++ (expText e ++ r))) := by
    rw [← scanSign_text g noSign]
    simp only [RealLit.text, List.append_assoc]
  obtain ⟨t1, t2⟩ := takeWhile_digits a noDig2
  have ne : ¬(Digits.text a ++ Digits.text (f.getD []) = []) := by
    rw [← text_append, text_nil]
    exact hd
  unfold scanReal
  simp only [es, t1, t2, frac]
  rw [if_neg ne, tail _ (decide_eq_true ne)]
  cases e with
  | none =>
    simp only [expScan, real_value]
    rfl
  | some x =>
    obtain ⟨big, e⟩ := x
    have hne : e.digits.text ≠ [] := fun hn => h.exp big e rfl (text_nil.1 hn)
    simp only [expScan, if_neg hne, ofDigits_text, signed_val, real_value]
    rfl

/-! ### What a number reader does -/

/-- The reader accepts the literals, stops where it should and does not accept slashes and comments. -/
structure Reads {T : Type} (N : Num T) (L : Lit T → Prop) (ofNat : Nat → T) : Prop where
  scan : ∀ l, L l → ∀ r, Stop r → N.scan (l.text ++ r) = (some l.val, r)
  head : ∀ l, L l → ∃ c t, l.text = c :: t ∧ isSpace c = false
  slash : ∀ r, N.scan ('/' :: r) = (none, '/' :: r)
  comment : ∀ r, N.scan ('-' :: '-' :: r) = (none, '-' :: r)
  count : ∀ n, n ≤ 2147483647 → N.toInt (ofNat n) = .ok n
  shrink : ∀ s v, (N.scan s).1 = some v → (N.scan s).2.length < s.length
  le : ∀ s, (N.scan s).2.length ≤ s.length

theorem text_head (g : Sign) (r : List Char) (h : ∃ c t, r = c :: t ∧ isSpace c = false) : ∃ c t, g.text ++ r = c :: t ∧ isSpace c = false := by
  cases g with
  | none => exact h
  | plus => exact ⟨'+', r, rfl, by decide⟩
  | minus => exact ⟨'-', r, rfl, by decide⟩

theorem digits_head {ds : Digits} (h : ds ≠ []) (r : List Char) : ∃ c t, ds.text ++ r = c :: t ∧ isSpace c = false := by
  cases ds with
  | nil => exact absurd rfl h
  | cons d ds => exact ⟨digitChar d, Digits.text ds ++ r, rfl, (digit_not_sign d).2.2.2.2.2.1⟩

theorem scanSign_le (s : List Char) : (scanSign s).2.length ≤ s.length := by
  unfold scanSign
  split <;> simp

theorem dropWhile_length {p : Char → Bool} (s : List Char) : (s.dropWhile p).length + (s.takeWhile p).length = s.length := by
  have := congrArg List.length (List.takeWhile_append_dropWhile (p := p) (l := s))
  rw [List.length_append] at this
  omega

theorem int_reads : Reads intNum IsInt (fun n => (n : Int)) := by
  refine ⟨?_, ?_, ?_, ?_, fun _ _ => rfl, ?_, ?_⟩
  · rintro _ ⟨i, hi, rfl⟩ r hr
    exact scanInt_text hi hr.noDig
  · rintro _ ⟨i, hi, rfl⟩
    have := text_head i.sign (i.digits.text ++ []) (digits_head hi.digits [])
    rw [List.append_nil] at this
    exact this
  · intro r
    rfl
  · intro r
    rfl
  · intro s v h
    have h1 := scanSign_le s
    have h2 := dropWhile_length (p := isDig) (scanSign s).2
    simp only [intNum, scanInt] at h ⊢
    split at h
    · rename_i hc
      have : 0 < ((scanSign s).2.takeWhile isDig).length := List.length_pos_of_ne_nil hc.1
      omega
    · cases h
  · intro s
    have h1 := scanSign_le s
    have h2 := dropWhile_length (p := isDig) (scanSign s).2
    simp only [intNum, scanInt]
    omega

theorem scanFrac_length (s : List Char) : (scanFrac s).2.length + (scanFrac s).1.length ≤ s.length := by
  unfold scanFrac
  split
  · rename_i r
    have := dropWhile_length (p := isDig) r
    simp
    omega
  · simp

theorem scanExp_length (b : Bool) (s : List Char) : (scanExp b s).2.length ≤ s.length := by
  unfold scanExp
  split
  · rename_i c r
    split
    · have h1 := scanSign_le r
      have h2 := dropWhile_length (p := isDig) (scanSign r).2
      simp
      omega
    · simp
  · simp

theorem truncate_nat (n : Nat) (h : n ≤ 2147483647) : truncate (n : Rat) = .ok n := by
  unfold truncate
  have h0 : (0 : Rat) ≤ n := by positivity
  have hf : (n : Rat).floor = (n : Int) := by
    exact_mod_cast Rat.floor_intCast (n : Int)
  simp only [if_pos h0, hf]
  rw [if_pos]
  unfold InInt
  omega

theorem real_reads : Reads realNum IsReal (fun n => (n : Rat)) := by
  refine ⟨?_, ?_, ?_, ?_, truncate_nat, ?_, ?_⟩
  · rintro _ ⟨i, hi, rfl⟩ r hr
    exact scanReal_text hi hr
  · rintro _ ⟨i, hi, rfl⟩
    obtain ⟨g, a, f, e⟩ := i
    simp only [RealLit.lit, RealLit.text, List.append_assoc]
    apply text_head
    by_cases ha : a = []
    · subst ha
      cases f with
      | none => exact absurd rfl hi.digits
      | some f => exact ⟨'.', _, rfl, by decide⟩
    · exact digits_head ha _
  · intro r
    rfl
  · intro r
    rfl
  · intro s v h
    have h1 := scanSign_le s
    have h2 := dropWhile_length (p := isDig) (scanSign s).2
    have h3 := scanFrac_length ((scanSign s).2.dropWhile isDig)
    have h4 := scanExp_length (decide ((scanSign s).2.takeWhile isDig ++ (scanFrac ((scanSign s).2.dropWhile isDig)).1 ≠ [])) (scanFrac ((scanSign s).2.dropWhile isDig)).2
    simp only [realNum, scanReal] at h ⊢
    split at h
    · cases h
    · rename_i hc
      have := List.length_pos_of_ne_nil hc
      rw [List.length_append] at this
      omega
  · intro s
    have h1 := scanSign_le s
    have h2 := dropWhile_length (p := isDig) (scanSign s).2
    have h3 := scanFrac_length ((scanSign s).2.dropWhile isDig)
    have h4 := scanExp_length (decide ((scanSign s).2.takeWhile isDig ++ (scanFrac ((scanSign s).2.dropWhile isDig)).1 ≠ [])) (scanFrac ((scanSign s).2.dropWhile isDig)).2
    simp only [realNum, scanReal]
    omega

end Opm.Deck
