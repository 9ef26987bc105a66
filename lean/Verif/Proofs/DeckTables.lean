import Verif.Model.DeckTables
import Verif.Spec.DeckTables
import Verif.Props.DeckReader
/-!
# Reading tables
-/

namespace Opm.Deck
open Opm Istream

/-! ### Blanks and comments between records -/

theorem ignoreWsLoop_fuel : ∀ (n m : Nat) (s : S), s.rest.length < n → s.rest.length < m → ignoreWsLoop n s = ignoreWsLoop m s
  | 0, _, _, h, _ => absurd h (Nat.not_lt_zero _)
  | _ + 1, 0, _, _, h => absurd h (Nat.not_lt_zero _)
  | n + 1, m + 1, s, hn, hm => by
    unfold ignoreWsLoop
    cases e : Istream.get s with
    | mk c t =>
      cases c with
      | none => rfl
      | some c =>
        simp only
        split
        · have : t.rest.length < s.rest.length := by
            unfold Istream.get sentry at e
            by_cases hg : s.good = true
            · simp only [hg, if_true] at e
              cases hr : s.rest with
              | nil => simp [hr] at e
              | cons d r =>
                simp only [hr] at e
                cases e
                simp
            · simp [hg] at e
          exact ignoreWsLoop_fuel n m t (by omega) (by omega)
        · rfl

theorem ignoreWs_blank {c : Char} (hc : isSpace c = true) (r : List Char) : ignoreWhitespace ⟨c :: r, false, false⟩ = ignoreWhitespace ⟨r, false, false⟩ := by
  unfold ignoreWhitespace
  conv => lhs; unfold ignoreWsLoop
  simp only [Istream.get, sentry, S.good, Bool.not_false, Bool.and_self, if_true, hc]
  exact ignoreWsLoop_fuel _ _ _ (by simp) (by simp)

theorem get_char {c : Char} (hc : isSpace c = false) (r : List Char) : Istream.get (ignoreWhitespace ⟨c :: r, false, false⟩) = (some c, ⟨r, false, false⟩) := by
  rw [ignoreWs_stop hc]
  simp [Istream.get, sentry, S.good]

theorem get_end : Istream.get (ignoreWhitespace ⟨[], false, false⟩) = (none, ⟨[], true, true⟩) := by decide

theorem putback_plain (c : Char) (r : List Char) : putback c ⟨r, false, false⟩ = ⟨c :: r, false, false⟩ := by
  simp [putback, sentry, S.good]

theorem get_length {s t : S} {c : Char} (e : Istream.get (ignoreWhitespace s) = (some c, t)) : t.rest.length < s.rest.length ∧ t.good = true := by
  have h := ignoreWsLoop_length (s.rest.length + 1) s
  have : ignoreWsLoop (s.rest.length + 1) s = ignoreWhitespace s := rfl
  rw [this] at h
  generalize ignoreWhitespace s = u at e h
  unfold Istream.get sentry at e
  by_cases hg : u.good = true
  · simp only [hg, if_true] at e
    cases hr : u.rest with
    | nil => simp [hr] at e
    | cons d r =>
      simp only [hr] at e
      cases e
      refine ⟨?_, hg⟩
      rw [hr] at h
      simp at h ⊢
      omega
  · simp [hg] at e

theorem ignoreLine_putback {c : Char} {t : S} (ht : t.good = true) : (ignoreLine (putback c t)).rest.length < t.rest.length + 1 := by
  have hp : putback c t = ⟨c :: t.rest, false, false⟩ := by
    obtain ⟨r, a, b⟩ := t
    cases a <;> cases b <;> simp [S.good] at ht
    exact putback_plain c r
  rw [hp]
  simp only [ignoreLine, ignoreTo, sentry, S.good, Bool.not_false, Bool.and_self, if_true]
  cases e : after '\n' (c :: t.rest) with
  | none => simp
  | some r => simpa using after_length e

theorem nextAction_fuel : ∀ (n m : Nat) (s : S), s.rest.length < n → s.rest.length < m → nextActionLoop n s = nextActionLoop m s
  | 0, _, _, h, _ => absurd h (Nat.not_lt_zero _)
  | _ + 1, 0, _, _, h => absurd h (Nat.not_lt_zero _)
  | n + 1, m + 1, s, hn, hm => by
    unfold nextActionLoop
    split
    · rfl
    · cases e : Istream.get (ignoreWhitespace s) with
      | mk c t =>
        cases c with
        | none => rfl
        | some c =>
          simp only
          cases ha : actionOf c with
          | some a => rfl
          | none =>
            obtain ⟨h1, h2⟩ := get_length e
            have := ignoreLine_putback (c := c) h2
            exact nextAction_fuel n m _ (by omega) (by omega)

theorem nextAction_blank {c : Char} (hc : isSpace c = true) (r : List Char) : nextAction ⟨c :: r, false, false⟩ = nextAction ⟨r, false, false⟩ := by
  have e : nextActionLoop (r.length + 3) ⟨c :: r, false, false⟩ = nextActionLoop (r.length + 3) ⟨r, false, false⟩ := by
    unfold nextActionLoop
    rw [ignoreWs_blank hc]
    rfl
  unfold nextAction
  simp only [List.length_cons]
  rw [e]
  exact nextAction_fuel _ _ _ (by simp) (by simp)

theorem nextAction_comment (t r : List Char) (ht : '\n' ∉ t) : nextAction ⟨'-' :: '-' :: t ++ '\n' :: r, false, false⟩ = nextAction ⟨r, false, false⟩ := by
  have hd : isSpace '-' = false := by decide
  have ha : actionOf '-' = none := by decide
  unfold nextAction
  conv => lhs; unfold nextActionLoop
  rw [if_neg (by simp), List.cons_append, get_char hd]
  simp only [ha, putback_plain]
  have e : '-' :: ('-' :: t ++ '\n' :: r) = ('-' :: '-' :: t) ++ '\n' :: r := by simp
  rw [e, ignoreLine_comment _ r (by simp [ht])]
  exact nextAction_fuel _ _ _ (by simp; omega) (by simp)

theorem nextAction_gaps (r : List Char) : ∀ gs : List Gap, (∀ g ∈ gs, g.Ok) → nextAction ⟨gaps gs ++ r, false, false⟩ = nextAction ⟨r, false, false⟩
  | [], _ => rfl
  | g :: gs, hg => by
    have ih := nextAction_gaps r gs (fun g hg' => hg g (by simp [hg']))
    have h1 := hg g (by simp)
    rw [← ih]
    cases g with
    | blank c => exact nextAction_blank h1 _
    | comment t =>
      have e : gaps (Gap.comment t :: gs) ++ r = '-' :: '-' :: t ++ '\n' :: (gaps gs ++ r) := by simp [gaps, Gap.text]
      rw [e]
      exact nextAction_comment t _ h1

theorem dig_not_space {c : Char} (h : isDig c = true ∨ c = '.') : isSpace c = false := by
  rcases h with h | rfl
  · cases e : isSpace c with
    | false => rfl
    | true =>
      rw [(space_not_dig e).1] at h
      cases h
  · decide

theorem alph_not_space {c : Char} (h : isAlph c = true) : isSpace c = false ∧ isDig c = false ∧ c ≠ '.' := by
  refine ⟨?_, ?_, ?_⟩
  · cases e : isSpace c with
    | false => rfl
    | true =>
      unfold isSpace at e
      simp only [decide_eq_true_eq] at e
      rcases e with rfl | rfl | rfl | rfl | rfl | rfl <;> simp [isAlph] at h <;> omega
  · cases e : isDig c with
    | false => rfl
    | true =>
      unfold isDig at e
      simp only [decide_eq_true_eq, List.mem_cons, List.not_mem_nil, or_false] at e
      rcases e with rfl | rfl | rfl | rfl | rfl | rfl | rfl | rfl | rfl | rfl <;> simp [isAlph] at h <;> omega
  · rintro rfl
    simp [isAlph] at h

theorem nextAction_char {c : Char} {a : Action} (hc : isSpace c = false) (ha : actionOf c = some a) (r : List Char) :
    nextAction ⟨c :: r, false, false⟩ = .ok (a, ⟨c :: r, false, false⟩) := by
  unfold nextAction nextActionLoop
  rw [if_neg (by simp), get_char hc]
  simp only [ha, putback_plain]

theorem nextAction_end : nextAction ⟨[], false, false⟩ = .ok (.more, ⟨[], true, true⟩) := by decide

theorem actionOf_more {c : Char} (h : isDig c = true ∨ c = '.') : actionOf c = some .more := by
  unfold actionOf
  rw [if_pos h]

theorem actionOf_done {c : Char} (h : isAlph c = true) : actionOf c = some .done := by
  obtain ⟨-, h2, h3⟩ := alph_not_space h
  unfold actionOf
  rw [if_neg (by simp [h2, h3]), if_pos h]

/-! ### Columns -/

theorem toColumns_ok {ncol : Nat} (hn : ncol ≠ 0) (rec_ : List Rat) : toColumns ncol rec_ = .ok (columns ncol rec_) := by
  unfold toColumns
  rw [if_neg hn]
  have key : ∀ n ≤ rec_.length / ncol, loop n (fun i t => loop ncol (fun k t => do
        let v ← rd rec_ (i * ncol + k)
        let col ← rd t k
        let col ← wr col i v
        wr t k col) t) (List.replicate ncol (List.replicate (rec_.length / ncol) 0)) =
      .ok ((List.range ncol).map (fun k => (List.range (rec_.length / ncol)).map (fun i => if i < n then rec_.getD (i * ncol + k) 0 else 0))) := by
    intro n
    induction n with
    | zero =>
      intro _
      simp only [loop_zero, Nat.not_lt_zero, if_false]
      congr 1
      symm
      rw [List.eq_replicate_iff]
      refine ⟨by simp, fun x hx => ?_⟩
      simp only [List.mem_map, List.mem_range] at hx
      obtain ⟨k, -, rfl⟩ := hx
      exact (List.eq_replicate_iff.2 ⟨by simp, by simp⟩)
    | succ n ih =>
      intro h
      rw [loop_succ, ih (by omega), bind_ok]
      have hin : ∀ k < ncol, n * ncol + k < rec_.length := by
        intro k hk
        have h1 := Nat.div_mul_le_self rec_.length ncol
        have h2 : (n + 1) * ncol ≤ rec_.length / ncol * ncol := Nat.mul_le_mul_right _ h
        rw [Nat.succ_mul] at h2
        omega
      have inner : ∀ m ≤ ncol, loop m (fun k t => do
          let v ← rd rec_ (n * ncol + k)
          let col ← rd t k
          let col ← wr col n v
          wr t k col) ((List.range ncol).map (fun k => (List.range (rec_.length / ncol)).map (fun i => if i < n then rec_.getD (i * ncol + k) 0 else 0))) =
          .ok ((List.range ncol).map (fun k => (List.range (rec_.length / ncol)).map (fun i => if i < n ∨ (i = n ∧ k < m) then rec_.getD (i * ncol + k) 0 else 0))) := by
        intro m
        induction m with
        | zero => intro _; simp
        | succ m ih2 =>
          intro hm
          rw [loop_succ, ih2 (by omega), bind_ok, rd_ok (hin m (by omega)), bind_ok, rd_ok (by simp; omega), bind_ok, wr_ok (by simp; omega), bind_ok,
            wr_ok (by simp; omega)]
          congr 1
          apply List.ext_getElem
          · simp
          · intro k h1 h2
            simp only [List.length_set, List.length_map, List.length_range] at h1
            simp only [List.getElem_set, List.getElem_map, List.getElem_range]
            by_cases hk : m = k
            · subst hk
              rw [if_pos rfl]
              apply List.ext_getElem
              · simp
              · intro i h3 h4
                simp only [List.length_set, List.length_map, List.length_range] at h3
                simp only [List.getElem_set, List.getElem_map, List.getElem_range]
                by_cases hi : n = i
                · subst hi
                  simp [List.getD, List.getElem?_eq_getElem (hin m (by omega))]
                · have hi' : ¬ i = n := fun h => hi h.symm
                  simp [hi, hi']
            · rw [if_neg hk]
              have : ∀ i, (i < n ∨ (i = n ∧ k < m)) ↔ (i < n ∨ (i = n ∧ k < m + 1)) := by
                intro i
                omega
              simp only [this]
      rw [inner ncol (le_refl _)]
      congr 1
      apply List.map_congr_left
      intro k hk
      rw [List.mem_range] at hk
      apply List.map_congr_left
      intro i _
      have : (i < n ∨ (i = n ∧ k < ncol)) ↔ i < n + 1 := by omega
      simp only [this]
  rw [key _ (le_refl _)]
  congr 1
  apply List.map_congr_left
  intro k _
  apply List.map_congr_left
  intro i hi
  rw [List.mem_range] at hi
  simp [hi]

/-! ### Records -/

theorem record_split (r : Record Rat) (hr : r.Ok IsReal (fun n => (n : Rat))) (hd : ∀ x ∈ r.items, ∀ n c, x.2 ≠ .dflt n c) (gs : List Gap) (hg : ∀ g ∈ gs, g.Ok)
    (tail : List Char) : readVectorData realNum ⟨gaps gs ++ r.text ++ tail, false, false⟩ = .ok (r.values, ⟨tail, false, false⟩) := by
  rw [List.append_assoc]
  exact (vector_gaps real_reads [] _ gs hg).trans (vector_of_record.2 r hr hd tail)

/-- Tables one after the other. -/
theorem tableLoop_records {record : S → M (List (List Rat) × S)} {val : Record Rat → List (List Rat)} {end_ : S} {tail : List Char} {g : List Gap} (hg : ∀ x ∈ g, x.Ok)
    (hend : nextAction ⟨tail, false, false⟩ = .ok (.done, end_) ∨ (nextAction ⟨tail, false, false⟩ = .ok (.more, end_) ∧ end_.eof = true)) :
    ∀ (rs : Records) (n : Nat) ts, rs ≠ [] → (∀ x ∈ rs, (∀ y ∈ x.1, y.Ok) ∧ ∀ r, record ⟨gaps x.1 ++ x.2.text ++ r, false, false⟩ = .ok (val x.2, ⟨r, false, false⟩)) →
      (∀ x ∈ rs, ∀ r, record ⟨x.2.text ++ r, false, false⟩ = .ok (val x.2, ⟨r, false, false⟩)) →
      (∀ x ∈ rs.tail, x.2.Leads) → rs.length < n →
      tableLoop record n ts ⟨recordsText rs ++ (gaps g ++ tail), false, false⟩ = .ok (ts ++ rs.map (fun x => val x.2), end_)
  | [], _, _, h, _, _, _, _ => absurd rfl h
  | _ :: _, 0, _, _, _, _, _, h => absurd h (Nat.not_lt_zero _)
  | [x], n + 2, ts, _, hr, hr2, hl, hn => by
    have e : recordsText [x] ++ (gaps g ++ tail) = gaps x.1 ++ x.2.text ++ (gaps g ++ tail) := by simp [recordsText]
    unfold tableLoop
    rw [if_neg (by simp), e, (hr x (by simp)).2, bind_ok]
    simp only [nextAction_gaps _ g hg]
    rcases hend with h | ⟨h, he⟩
    · rw [h, bind_ok]
      rfl
    · rw [h, bind_ok]
      simp only
      unfold tableLoop
      rw [if_pos he]
      rfl
  | [x], 1, _, _, _, _, _, hn => absurd hn (by simp)
  | x :: y :: rs, n + 1, ts, _, hr, hr2, hl, hn => by
    obtain ⟨c, t, ec, hc⟩ := hl y (by simp)
    have e : recordsText (x :: y :: rs) ++ (gaps g ++ tail) = gaps x.1 ++ x.2.text ++ (gaps y.1 ++ (y.2.text ++ (recordsText rs ++ (gaps g ++ tail)))) := by simp [recordsText]
    unfold tableLoop
    rw [if_neg (by simp), e, (hr x (by simp)).2, bind_ok]
    simp only [nextAction_gaps _ y.1 (hr y (by simp)).1]
    rw [ec, List.cons_append, nextAction_char (dig_not_space hc) (actionOf_more hc), bind_ok]
    simp only
    rw [← List.cons_append, ← ec]
    have ih := tableLoop_records hg hend (([], y.2) :: rs) n (ts ++ [val x.2]) (by simp) (fun z hz => by
      rcases List.mem_cons.1 hz with rfl | hz
      · exact ⟨by simp, fun r => by simpa [gaps] using hr2 y (by simp) r⟩
      · exact hr z (by simp [hz])) (fun z hz => by
      rcases List.mem_cons.1 hz with rfl | hz
      · exact hr2 y (by simp)
      · exact hr2 z (by simp [hz])) (fun z hz => hl z (by simp at hz ⊢; exact .inr hz)) (by simp at hn ⊢; omega)
    have e2 : recordsText (([], y.2) :: rs) ++ (gaps g ++ tail) = y.2.text ++ (recordsText rs ++ (gaps g ++ tail)) := by simp [recordsText, gaps]
    rw [e2] at ih
    rw [ih]
    simp

theorem records_length (rs : Records) (r : List Char) : rs.length ≤ (recordsText rs ++ r).length := by
  induction rs with
  | nil => simp
  | cons x rs ih =>
    have : recordsText (x :: rs) ++ r = gaps x.1 ++ (x.2.text ++ (recordsText rs ++ r)) := by simp [recordsText]
    rw [this]
    have h2 : 1 ≤ x.2.text.length := by simp [Record.text]; omega
    simp only [List.length_append, List.length_cons] at ih ⊢
    omega

theorem pvd_record {ncol : Nat} (hn : ncol ≠ 0) {r : Record Rat} (hr : r.Ok IsReal (fun n => (n : Rat))) (hd : ∀ x ∈ r.items, ∀ n c, x.2 ≠ .dflt n c) {gs : List Gap}
    (hg : ∀ g ∈ gs, g.Ok) (tail : List Char) : pvdRecord ncol ⟨gaps gs ++ r.text ++ tail, false, false⟩ = .ok (columns ncol r.values, ⟨tail, false, false⟩) := by
  unfold pvdRecord
  rw [record_split r hr hd gs hg tail, bind_ok]
  simp only [toColumns_ok hn, bind_ok]

end Opm.Deck
