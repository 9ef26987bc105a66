import Verif.Proofs.DeckText
import Verif.Model.DeckReader
/-!
# Reading records
-/

namespace Opm.Deck
open Opm Istream

/-! ### Passes of a loop -/

/-- Every pass that goes on reads something. -/
def Shrinks {α : Type} (step : α → S → M (Pass (α × S))) : Prop :=
  ∀ x s y t, s.fail = false → step x s = .ok (.more (y, t)) → t.rest.length < s.rest.length

theorem passes_fuel {α : Type} {step : α → S → M (Pass (α × S))} (h : Shrinks step) : ∀ (n m : Nat) x s, s.rest.length < n → s.rest.length < m →
    passes step n x s = passes step m x s
  | 0, _, _, _, hn, _ => absurd hn (Nat.not_lt_zero _)
  | _ + 1, 0, _, _, _, hm => absurd hm (Nat.not_lt_zero _)
  | n + 1, m + 1, x, s, hn, hm => by
    unfold passes
    split
    · rfl
    · rename_i hf
      cases e : step x s with
      | error er => rfl
      | ok p =>
        simp only [bind_ok]
        cases p with
        | more y =>
          obtain ⟨y, t⟩ := y
          have := h x s y t (by simpa using hf) e
          exact passes_fuel h n m y t (by omega) (by omega)
        | last y => rfl

/-- The loop with enough passes. -/
def run {α : Type} (step : α → S → M (Pass (α × S))) (x : α) (s : S) : M (α × S) := passes step (s.rest.length + 2) x s

theorem run_more {α : Type} {step : α → S → M (Pass (α × S))} (h : Shrinks step) {x y : α} {s t : S} (hf : s.fail = false) (e : step x s = .ok (.more (y, t))) :
    run step x s = run step y t := by
  have hl := h x s y t hf e
  unfold run
  conv => lhs; unfold passes
  rw [if_neg (by simp [hf]), e]
  simp only [bind_ok]
  exact passes_fuel h _ _ _ _ (by omega) (by omega)

theorem run_last {α : Type} {step : α → S → M (Pass (α × S))} {x y : α} {s t : S} (hf : s.fail = false) (e : step x s = .ok (.last (y, t))) (ht : t.fail = false) :
    run step x s = .ok (y, t) := by
  unfold run passes
  rw [if_neg (by simp [hf]), e]
  simp [ht]

theorem run_error {α : Type} {step : α → S → M (Pass (α × S))} {x : α} {s : S} (hf : s.fail = false) {er : Err} (e : step x s = .error er) :
    run step x s = .error er := by
  unfold run passes
  rw [if_neg (by simp [hf]), e]
  rfl

/-- The passes do not run out. -/
theorem run_ends {α : Type} {step : α → S → M (Pass (α × S))} (h : Shrinks step) (hs : ∀ x s, step x s ≠ .error .timeout) : ∀ (n : Nat) x s, s.rest.length < n →
    passes step n x s ≠ .error .timeout
  | 0, _, _, hn => absurd hn (Nat.not_lt_zero _)
  | n + 1, x, s, hn => by
    unfold passes
    split
    · simp
    · rename_i hf
      cases e : step x s with
      | error er =>
        have := hs x s
        rw [e] at this
        simpa using this
      | ok p =>
        simp only [bind_ok]
        cases p with
        | more y =>
          obtain ⟨y, t⟩ := y
          have := h x s y t (by simpa using hf) e
          exact run_ends h hs n y t (by omega)
        | last y =>
          obtain ⟨y, t⟩ := y
          simp only
          split <;> simp

/-! ### Streams -/

theorem after_length {d : Char} : ∀ {s r : List Char}, after d s = some r → r.length < s.length
  | [], _, h => by simp [after] at h
  | c :: s, r, h => by
    unfold after at h
    split at h
    · cases h
      simp
    · have := after_length h
      simp
      omega

theorem after_append {d : Char} : ∀ (a r : List Char), d ∉ a → after d (a ++ d :: r) = some r
  | [], r, _ => by simp [after]
  | c :: a, r, h => by
    simp only [List.mem_cons, not_or] at h
    rw [List.cons_append]
    unfold after
    rw [if_neg (fun e => h.1 e.symm)]
    exact after_append a r h.2

theorem ignoreTo_length (d : Char) (s : S) : (ignoreTo d s).rest.length ≤ s.rest.length := by
  unfold ignoreTo sentry
  by_cases hg : s.good = true
  · simp only [hg, if_true]
    split
    · simp
    · rename_i r hr
      exact Nat.le_of_lt (after_length hr)
  · simp [hg]

theorem ignoreLine_comment (t r : List Char) (h : '\n' ∉ t) : ignoreLine ⟨t ++ '\n' :: r, false, false⟩ = ⟨r, false, false⟩ := by
  simp [ignoreLine, ignoreTo, sentry, S.good, after_append t r h]

theorem ignoreWsLoop_length : ∀ (n : Nat) (s : S), (ignoreWsLoop n s).rest.length ≤ s.rest.length
  | 0, s => le_refl _
  | n + 1, s => by
    unfold ignoreWsLoop Istream.get sentry
    by_cases hg : s.good = true
    · simp only [hg, if_true]
      cases hr : s.rest with
      | nil => simp
      | cons c r =>
        simp only
        split
        · refine (ignoreWsLoop_length n _).trans ?_
          simp
        · unfold putback sentry
          split
          · rename_i h
            have : s.rest = c :: r := hr
            split at h
            · simp at h
            · cases h
              simp
          · rename_i h
            split at h
            · cases h
              simp
            · simp at h
    · simp [hg]

theorem getChar_length {c : Char} {s t : S} (h : getChar s = (some c, t)) : t.rest.length < s.rest.length := by
  unfold getChar sentry at h
  by_cases hg : s.good = true
  · simp only [hg, if_true, Bool.false_eq_true, if_false] at h
    have hd := dropWhile_length (p := isSpace) s.rest
    cases hr : s.rest.dropWhile isSpace with
    | nil => simp [hr] at h
    | cons d r =>
      simp only [hr] at h
      cases h
      rw [hr] at hd
      simp at hd ⊢
      omega
  · simp [hg] at h

section
variable {T : Type} {N : Num T} {L : Lit T → Prop} {ofNat : Nat → T}

theorem extract_length (h : Reads N L ofNat) {s t : S} {v : Option T} (e : extract N s = (v, t)) :
    t.rest.length ≤ s.rest.length ∧ (v ≠ none → t.rest.length < s.rest.length) := by
  unfold extract sentry at e
  by_cases hg : s.good = true
  · simp only [hg, if_true, Bool.false_eq_true, if_false] at e
    have hd := dropWhile_length (p := isSpace) s.rest
    cases hr : s.rest.dropWhile isSpace with
    | nil =>
      simp only [hr] at e
      cases e
      simp
    | cons d r =>
      simp only [hr] at e
      have h1 := h.le (d :: r)
      have h2 := h.shrink (d :: r)
      rw [hr] at hd
      cases e
      simp only
      refine ⟨by omega, fun hv => ?_⟩
      obtain ⟨w, hw⟩ := Option.ne_none_iff_exists'.1 hv
      have := h2 w hw
      omega
  · simp only [hg, Bool.false_eq_true, if_false] at e
    cases e
    simp

theorem peek_rest (s : S) : (peek s).2.rest = s.rest := by
  unfold peek sentry
  by_cases hg : s.good = true
  · simp only [hg, if_true]
    cases hr : s.rest <;> simp [hr]
  · simp [hg]

theorem ignoreOne_length (s : S) : (ignoreOne s).rest.length ≤ s.rest.length := by
  unfold ignoreOne sentry
  by_cases hg : s.good = true
  · simp only [hg, if_true]
    cases s.rest <;> simp
  · simp [hg]

theorem vectorStep_shrinks (h : Reads N L ofNat) : Shrinks (vectorStep N) := by
  intro x s y t _ e
  unfold vectorStep at e
  cases he : extract N s with
  | mk v s1 =>
    obtain ⟨l1, l2⟩ := extract_length h he
    rw [he] at e
    cases v with
    | none =>
      simp only at e
      unfold vectorEnd at e
      cases hc : getChar (ignoreWhitespace (clearFail s1)) with
      | mk c s2 =>
        rw [hc] at e
        cases c with
        | none => cases e
        | some c =>
          have g1 := getChar_length hc
          have g2 := ignoreWsLoop_length ((clearFail s1).rest.length + 1) (clearFail s1)
          have g3 := ignoreTo_length '\n' s2
          simp only at e
          split at e
          · cases e
          · split at e
            · cases e
              unfold ignoreWhitespace at g1
              simp only [clearFail, ignoreLine] at *
              omega
            · cases e
    | some v =>
      have l3 := l2 (by simp)
      simp only at e
      split at e
      · unfold vectorRepeat at e
        rw [bind_eq_ok] at e
        obtain ⟨n, -, e⟩ := e
        cases hx : extract N (ignoreOne (peek s1).2) with
        | mk w s2 =>
          rw [hx] at e
          have m1 := (extract_length h hx).1
          have m2 := ignoreOne_length (peek s1).2
          rw [peek_rest] at m2
          cases w with
          | none => cases e
          | some w =>
            simp only at e
            split at e
            · cases e
            · cases e
              omega
      · cases e
        rw [peek_rest]
        exact l3

/-! ### Items -/

theorem extract_lit (h : Reads N L ofNat) {l : Lit T} (hl : L l) {r : List Char} (hr : Stop r) :
    extract N ⟨l.text ++ r, false, false⟩ = (some l.val, ⟨r, r.isEmpty, false⟩) := by
  obtain ⟨c, t, e, hc⟩ := h.head l hl
  have hd : (l.text ++ r).dropWhile isSpace = l.text ++ r := by
    rw [e, List.cons_append, List.dropWhile_cons, if_neg (by simp [hc])]
  unfold extract sentry
  simp only [S.good, Bool.not_false, Bool.and_self, if_true, Bool.false_eq_true, if_false, hd]
  have hne : l.text ++ r = c :: (t ++ r) := by rw [e]; rfl
  simp only [hne]
  rw [← hne, h.scan l hl r hr]
  rfl

theorem extract_blank {c : Char} (hc : isSpace c = true) (r : List Char) : extract N ⟨c :: r, false, false⟩ = extract N ⟨r, false, false⟩ := by
  unfold extract sentry
  simp [S.good, hc]

theorem extract_slash (h : Reads N L ofNat) (r : List Char) : extract N ⟨'/' :: r, false, false⟩ = (none, ⟨'/' :: r, false, true⟩) := by
  have : isSpace '/' = false := by decide
  unfold extract sentry
  simp [S.good, this, h.slash]

theorem extract_comment (h : Reads N L ofNat) (r : List Char) : extract N ⟨'-' :: '-' :: r, false, false⟩ = (none, ⟨'-' :: r, false, true⟩) := by
  have : isSpace '-' = false := by decide
  unfold extract sentry
  simp [S.good, this, h.comment]

theorem ignoreWs_stop {c : Char} (hc : isSpace c = false) (r : List Char) : ignoreWhitespace ⟨c :: r, false, false⟩ = ⟨c :: r, false, false⟩ := by
  simp [ignoreWhitespace, ignoreWsLoop, Istream.get, sentry, S.good, hc, putback]

theorem getChar_stop {c : Char} (hc : isSpace c = false) (r : List Char) : getChar ⟨c :: r, false, false⟩ = (some c, ⟨r, false, false⟩) := by
  simp [getChar, sentry, S.good, hc]

theorem vector_comment (h : Reads N L ofNat) (x : List T) (t r : List Char) (ht : '\n' ∉ t) :
    vectorStep N x ⟨'-' :: '-' :: t ++ '\n' :: r, false, false⟩ = .ok (.more (x, ⟨r, false, false⟩)) := by
  have e : isSpace '-' = false := by decide
  unfold vectorStep
  rw [List.cons_append, List.cons_append, extract_comment h]
  simp only [vectorEnd, clearFail, ignoreWs_stop e, getChar_stop e]
  rw [if_neg (by decide)]
  simp [ignoreLine_comment t r ht]

theorem vector_slash (h : Reads N L ofNat) (x : List T) (t r : List Char) (ht : '\n' ∉ t) :
    vectorStep N x ⟨'/' :: t ++ '\n' :: r, false, false⟩ = .ok (.last (x, ⟨r, false, false⟩)) := by
  have e : isSpace '/' = false := by decide
  unfold vectorStep
  rw [List.cons_append, extract_slash h]
  simp only [vectorEnd, clearFail, ignoreWs_stop e, getChar_stop e]
  simp [ignoreLine_comment t r ht]

theorem vector_blank (x : List T) {c : Char} (hc : isSpace c = true) (r : List Char) :
    vectorStep N x ⟨c :: r, false, false⟩ = vectorStep N x ⟨r, false, false⟩ := by
  unfold vectorStep
  rw [extract_blank hc]

/-- The loop does not see a blank. -/
theorem run_blank {α : Type} {step : α → S → M (Pass (α × S))} (h : Shrinks step) {x : α} {c : Char} {r : List Char}
    (e : step x ⟨c :: r, false, false⟩ = step x ⟨r, false, false⟩) : run step x ⟨c :: r, false, false⟩ = run step x ⟨r, false, false⟩ := by
  cases hs : step x ⟨r, false, false⟩ with
  | error er => rw [run_error rfl hs, run_error rfl (e.trans hs)]
  | ok p =>
    cases p with
    | more y => rw [run_more h rfl hs, run_more h rfl (e.trans hs)]
    | last y =>
      unfold run passes
      rw [e, hs]
      rfl

/-- Gaps are skipped. -/
theorem vector_gaps (h : Reads N L ofNat) (x : List T) (r : List Char) : ∀ gs : List Gap, (∀ g ∈ gs, g.Ok) →
    run (vectorStep N) x ⟨gaps gs ++ r, false, false⟩ = run (vectorStep N) x ⟨r, false, false⟩
  | [], _ => rfl
  | g :: gs, hg => by
    have ih := vector_gaps h x r gs (fun g hg' => hg g (by simp [hg']))
    have h1 := hg g (by simp)
    rw [← ih]
    cases g with
    | blank c => exact run_blank (vectorStep_shrinks h) (vector_blank x h1 _)
    | comment t =>
      have e : gaps (Gap.comment t :: gs) ++ r = '-' :: '-' :: t ++ '\n' :: (gaps gs ++ r) := by
        simp [gaps, Gap.text]
      rw [e]
      exact run_more (vectorStep_shrinks h) rfl (vector_comment h x t _ h1)

/-- What a value leaves behind. -/
theorem stop_star (r : List Char) : Stop ('*' :: r) := by
  intro c hc
  simp at hc
  subst hc
  exact .inr (.inr (.inl rfl))

theorem peek_plain {r : List Char} (h : r ≠ []) : peek ⟨r, false, false⟩ = (r.head?, ⟨r, false, false⟩) := by
  cases r with
  | nil => exact absurd rfl h
  | cons c r => simp [peek, sentry, S.good]

theorem isEmpty_ne {r : List Char} (h : r ≠ []) : r.isEmpty = false := by
  cases r with
  | nil => exact absurd rfl h
  | cons c r => rfl

theorem vector_one (h : Reads N L ofNat) (x : List T) {l : Lit T} (hl : L l) {r : List Char} (hr : Stop r) (hn : r ≠ []) (h1 : r.head? ≠ some '*') :
    vectorStep N x ⟨l.text ++ r, false, false⟩ = .ok (.more (x ++ [l.val], ⟨r, false, false⟩)) := by
  unfold vectorStep
  rw [extract_lit h hl hr]
  simp only [isEmpty_ne hn, peek_plain hn, h1, if_false]

theorem vector_rep (h : Reads N L ofNat) (x : List T) {c l : Lit T} {n : Nat} (hc : L c) (hv : c.val = ofNat n) (hn : n ≤ 2147483647) (hl : L l)
    {r : List Char} (hr : Stop r) (hne : r ≠ []) :
    vectorStep N x ⟨c.text ++ '*' :: (l.text ++ r), false, false⟩ = .ok (.more (x ++ List.replicate n l.val, ⟨r, false, false⟩)) := by
  unfold vectorStep
  rw [extract_lit h hc (stop_star _)]
  simp only [List.isEmpty_cons, peek_plain (List.cons_ne_nil _ _), List.head?_cons, if_true]
  unfold vectorRepeat
  rw [hv, h.count n hn, bind_ok]
  have : ignoreOne ⟨'*' :: (l.text ++ r), false, false⟩ = ⟨l.text ++ r, false, false⟩ := by simp [ignoreOne, sentry, S.good]
  rw [this, extract_lit h hl hr]
  simp [isEmpty_ne hne]

/-- The values of a record without defaults. -/
def plainVals (its : List (List Gap × Item T)) : List T := (its.flatMap (fun x => x.2.vals)).filterMap id

theorem gaps_follow {gs : List Gap} (hg : ∀ g ∈ gs, g.Ok) {r : List Char} (h : gs ≠ [] ∨ Follows r) : Follows (gaps gs ++ r) := by
  cases gs with
  | nil =>
    rcases h with h | h
    · exact absurd rfl h
    · exact h
  | cons g gs =>
    have h1 := hg g (by simp)
    cases g with
    | blank c =>
      refine ⟨?_, by simp [gaps, Gap.text], ?_⟩
      · intro d hd
        simp [gaps, Gap.text] at hd
        subst hd
        exact .inl h1
      · simp only [gaps, Gap.text, List.flatMap_cons, List.cons_append, List.nil_append, List.head?_cons]
        intro e
        cases e
        exact (space_not_dig h1).2.2.2.2.1 rfl
    | comment t =>
      refine ⟨?_, by simp [gaps, Gap.text], by simp [gaps, Gap.text]⟩
      intro d hd
      simp [gaps, Gap.text] at hd
      subst hd
      exact .inr (.inl rfl)

theorem slash_follows (r : List Char) : Follows ('/' :: r) := by
  refine ⟨?_, by simp, by simp⟩
  intro c hc
  simp at hc
  subst hc
  exact .inr (.inr (.inr rfl))

/-- The items of a record. -/
theorem vector_items (h : Reads N L ofNat) {r : List Char} (hr : Follows r) : ∀ (its : List (List Gap × Item T)) (x : List T),
    (∀ y ∈ its, y.2.Ok L ofNat ∧ (∀ n c, y.2 ≠ .dflt n c) ∧ ∀ g ∈ y.1, g.Ok) → (∀ y ∈ its.tail, y.1 ≠ []) →
    run (vectorStep N) x ⟨itemsText its ++ r, false, false⟩ = run (vectorStep N) (x ++ plainVals its) ⟨r, false, false⟩
  | [], x, _, _ => by simp [itemsText, plainVals]
  | (gs, it) :: its, x, hi, ha => by
    obtain ⟨h1, h2, h3⟩ := hi (gs, it) (by simp)
    have hnext : Follows (itemsText its ++ r) := by
      cases its with
      | nil => exact hr
      | cons y its =>
        have := ha y (by simp)
        have e : itemsText (y :: its) ++ r = gaps y.1 ++ (y.2.text ++ (itemsText its ++ r)) := by simp [itemsText]
        rw [e]
        exact gaps_follow (hi y (by simp)).2.2 (.inl this)
    have ih := fun x' => vector_items h hr its x' (fun y hy => hi y (by simp [hy])) (fun y hy => ha y (by
      cases its with
      | nil => simp at hy
      | cons z its => simp at hy ⊢; exact .inr hy))
    have e : itemsText ((gs, it) :: its) ++ r = gaps gs ++ (it.text ++ (itemsText its ++ r)) := by simp [itemsText]
    rw [e, vector_gaps h x _ gs h3]
    cases it with
    | one v =>
      have e2 : Item.text (.one v) ++ (itemsText its ++ r) = v.text ++ (itemsText its ++ r) := rfl
      rw [e2, run_more (vectorStep_shrinks h) rfl (vector_one h x (show L v from h1) hnext.stop hnext.some hnext.star), ih]
      simp [plainVals, Item.vals]
    | rep n c v =>
      obtain ⟨k1, k2, k3, k4⟩ := h1
      have e2 : Item.text (.rep n c v) ++ (itemsText its ++ r) = c.text ++ '*' :: (v.text ++ (itemsText its ++ r)) := by simp [Item.text]
      rw [e2, run_more (vectorStep_shrinks h) rfl (vector_rep h x k1 k2 k3 k4 hnext.stop hnext.some), ih]
      have e3 : plainVals ((gs, Item.rep n c v) :: its) = List.replicate n v.val ++ plainVals its := by
        simp [plainVals, Item.vals, List.filterMap_append]
      rw [e3, List.append_assoc]
    | dflt n c => exact absurd rfl (h2 n c)

end

end Opm.Deck
