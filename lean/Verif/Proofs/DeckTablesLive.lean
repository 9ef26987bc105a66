import Verif.Proofs.DeckTables
import Verif.Proofs.DeckFill
/-!
# Records of relative permeabilities, and tables of live fluids
-/

namespace Opm.Deck
open Opm Istream

/-! ### Records of relative permeabilities -/

theorem relPermStep_shrinks : Shrinks relPermStep := by
  intro x s y t _ e
  unfold relPermStep at e
  cases he : extract realNum s with
  | mk v s1 =>
    obtain ⟨l1, l2⟩ := extract_length real_reads he
    rw [he] at e
    cases v with
    | none =>
      simp only at e
      unfold tokenEnd at e
      cases hw : getString (clearFail s1) with
      | mk w s2 =>
        have g1 := getString_length hw
        have g2 := ignoreTo_length '\n' s2
        rw [hw] at e
        simp only at e
        split at e
        · cases e
        · split at e
          · rename_i hh
            cases e
            have : w ≠ [] := by
              rintro rfl
              simp at hh
            have := List.length_pos_iff.2 this
            simp only [clearFail, ignoreLine] at *
            omega
          · cases e
    | some v =>
      have l3 := l2 (by simp)
      simp only at e
      split at e
      · rw [bind_eq_ok] at e
        obtain ⟨n, -, e⟩ := e
        rw [bind_eq_ok] at e
        obtain ⟨_, -, e⟩ := e
        cases e
        have m2 := ignoreOne_length (peek s1).2
        rw [peek_rest] at m2
        omega
      · cases e
        rw [peek_rest]
        exact l3

theorem relPerm_blank (x : List Rat) {c : Char} (hc : isSpace c = true) (r : List Char) :
    relPermStep x ⟨c :: r, false, false⟩ = relPermStep x ⟨r, false, false⟩ := by
  unfold relPermStep
  rw [extract_blank hc]

theorem relPerm_comment (x : List Rat) (t r : List Char) (ht : '\n' ∉ t) :
    relPermStep x ⟨'-' :: '-' :: t ++ '\n' :: r, false, false⟩ = .ok (.more (x, ⟨r, false, false⟩)) := by
  unfold relPermStep
  rw [List.cons_append, List.cons_append, extract_comment real_reads]
  have := tokenEnd_comment x t r ht
  rw [List.cons_append] at this
  simp only [this]

theorem relPerm_slash (x : List Rat) (t r : List Char) (ht : '\n' ∉ t) (hb : ∀ c, t.head? = some c → isSpace c = true) :
    relPermStep x ⟨'/' :: t ++ '\n' :: r, false, false⟩ = .ok (.last (x, ⟨r, false, false⟩)) := by
  unfold relPermStep
  rw [List.cons_append, extract_slash real_reads]
  have := tokenEnd_slash x t r ht hb
  rw [List.cons_append] at this
  simp only [this]

theorem relPerm_gaps (x : List Rat) (r : List Char) : ∀ gs : List Gap, (∀ g ∈ gs, g.Ok) →
    run relPermStep x ⟨gaps gs ++ r, false, false⟩ = run relPermStep x ⟨r, false, false⟩
  | [], _ => rfl
  | g :: gs, hg => by
    have ih := relPerm_gaps x r gs (fun g hg' => hg g (by simp [hg']))
    have h1 := hg g (by simp)
    rw [← ih]
    cases g with
    | blank c => exact run_blank relPermStep_shrinks (relPerm_blank x h1 _)
    | comment t =>
      have e : gaps (Gap.comment t :: gs) ++ r = '-' :: '-' :: t ++ '\n' :: (gaps gs ++ r) := by simp [gaps, Gap.text]
      rw [e]
      exact run_more relPermStep_shrinks rfl (relPerm_comment x t _ h1)

theorem relPerm_item (x : List Rat) {it : Item Rat} (hi : RelPermItem it) {r : List Char} (hr : Follows r) :
    relPermStep x ⟨it.text ++ r, false, false⟩ = .ok (.more (x ++ it.vals.map (fun v => v.getD (-1)), ⟨r, false, false⟩)) := by
  rcases hi with ⟨v, rfl, hv⟩ | ⟨c, rfl, hc, h1⟩
  · unfold relPermStep
    rw [show (Item.one v).text = v.text from rfl, extract_lit real_reads hv hr.stop]
    simp only [isEmpty_ne hr.some, peek_plain hr.some, hr.star, if_false]
    rfl
  · have e2 : Item.text (.dflt 1 c) ++ r = c.text ++ '*' :: r := by simp [Item.text]
    unfold relPermStep
    rw [e2, extract_lit real_reads hc (stop_star _)]
    simp only [List.isEmpty_cons, peek_plain (List.cons_ne_nil _ _), List.head?_cons, if_true]
    have e3 : ignoreOne ⟨'*' :: r, false, false⟩ = ⟨r, false, false⟩ := by simp [ignoreOne, sentry, S.good]
    have e4 := real_reads.count 1 (by decide)
    rw [h1, show ((1 : Rat)) = ((1 : Nat) : Rat) by simp, e4, bind_ok]
    simp [check, e3, Item.vals]

theorem relPerm_items {r : List Char} (hr : Follows r) : ∀ (its : List (List Gap × Item Rat)) (x : List Rat),
    (∀ y ∈ its, RelPermItem y.2 ∧ ∀ g ∈ y.1, g.Ok) → (∀ y ∈ its.tail, y.1 ≠ []) →
    run relPermStep x ⟨itemsText its ++ r, false, false⟩ = run relPermStep (x ++ (valsOf its).map (fun v => v.getD (-1))) ⟨r, false, false⟩
  | [], x, _, _ => by simp [itemsText, valsOf]
  | (gs, it) :: its, x, hi, ha => by
    obtain ⟨h1, h3⟩ := hi (gs, it) (by simp)
    have hnext : Follows (itemsText its ++ r) := by
      cases its with
      | nil => exact hr
      | cons y its =>
        have := ha y (by simp)
        have e : itemsText (y :: its) ++ r = gaps y.1 ++ (y.2.text ++ (itemsText its ++ r)) := by simp [itemsText]
        rw [e]
        exact gaps_follow (hi y (by simp)).2 (.inl this)
    have ih := fun x' => relPerm_items hr its x' (fun y hy => hi y (by simp [hy])) (fun y hy => ha y (by
      cases its with
      | nil => simp at hy
      | cons z its => simp at hy ⊢; exact .inr hy))
    have e : itemsText ((gs, it) :: its) ++ r = gaps gs ++ (it.text ++ (itemsText its ++ r)) := by simp [itemsText]
    rw [e, relPerm_gaps x _ gs h3, run_more relPermStep_shrinks rfl (relPerm_item x h1 hnext), ih]
    congr 1
    simp [valsOf]

theorem relPerm_record {r : Record Rat} (hr : r.RelPermOk) {gs : List Gap} (hg : ∀ g ∈ gs, g.Ok) (tail : List Char) :
    readRelPermTable ⟨gaps gs ++ r.text ++ tail, false, false⟩ = .ok (r.flagged, ⟨tail, false, false⟩) := by
  have hs : Follows ('/' :: r.remark ++ '\n' :: tail) := slash_follows _
  have e : gaps gs ++ r.text ++ tail = gaps gs ++ (itemsText r.items ++ (gaps r.gap ++ ('/' :: r.remark ++ '\n' :: tail))) := by simp [Record.text]
  rw [e]
  refine (relPerm_gaps [] _ gs hg).trans ?_
  rw [relPerm_items (gaps_follow hr.gap (.inr hs)) r.items [] hr.items hr.apart, relPerm_gaps _ _ _ hr.gap, run_last rfl (relPerm_slash _ _ _ hr.remark hr.slash) rfl]
  rfl

/-! ### Tables of live fluids -/

theorem pvtInner_fuel : ∀ (n m : Nat) ts t (s : S), s.rest.length < n → s.rest.length < m → pvtInner n ts t s = pvtInner m ts t s
  | 0, _, _, _, _, h, _ => absurd h (Nat.not_lt_zero _)
  | _ + 1, 0, _, _, _, _, h => absurd h (Nat.not_lt_zero _)
  | n + 1, m + 1, ts, t, s, hn, hm => by
    unfold pvtInner
    split
    · rfl
    · cases e : Istream.get (ignoreWhitespace s) with
      | mk c u =>
        cases c with
        | none => rfl
        | some c =>
          obtain ⟨h1, h2⟩ := get_length e
          have := ignoreLine_putback (c := c) h2
          simp only
          cases pvtNext c with
          | record => rfl
          | keyword => rfl
          | bad => rfl
          | comment => exact pvtInner_fuel n m _ _ _ (by omega) (by omega)
          | slash => exact pvtInner_fuel n m _ _ _ (by omega) (by omega)

/-- The inner loop with enough passes. -/
def inner (ts : List (List (List Rat))) (t : List (List Rat)) (s : S) : M PvtEnd := pvtInner (s.rest.length + 2) ts t s

theorem inner_blank (ts : List (List (List Rat))) (t : List (List Rat)) {c : Char} (hc : isSpace c = true) (r : List Char) :
    inner ts t ⟨c :: r, false, false⟩ = inner ts t ⟨r, false, false⟩ := by
  have e : pvtInner (r.length + 3) ts t ⟨c :: r, false, false⟩ = pvtInner (r.length + 3) ts t ⟨r, false, false⟩ := by
    unfold pvtInner
    rw [ignoreWs_blank hc]
    rfl
  unfold inner
  simp only [List.length_cons]
  rw [e]
  exact pvtInner_fuel _ _ _ _ _ (by simp) (by simp)

theorem inner_comment (ts : List (List (List Rat))) (t : List (List Rat)) (w r : List Char) (hw : '\n' ∉ w) :
    inner ts t ⟨'-' :: '-' :: w ++ '\n' :: r, false, false⟩ = inner ts t ⟨r, false, false⟩ := by
  have hd : isSpace '-' = false := by decide
  have ha : pvtNext '-' = .comment := by decide
  unfold inner
  conv => lhs; unfold pvtInner
  rw [if_neg (by simp), List.cons_append, get_char hd]
  simp only [ha, putback_plain]
  have e : '-' :: ('-' :: w ++ '\n' :: r) = ('-' :: '-' :: w) ++ '\n' :: r := by simp
  rw [e, ignoreLine_comment _ r (by simp [hw])]
  exact pvtInner_fuel _ _ _ _ _ (by simp; omega) (by simp)

theorem inner_slash (ts : List (List (List Rat))) (t : List (List Rat)) (w r : List Char) (hw : '\n' ∉ w) :
    inner ts t ⟨'/' :: w ++ '\n' :: r, false, false⟩ = inner (ts ++ [t]) [] ⟨r, false, false⟩ := by
  have hd : isSpace '/' = false := by decide
  have ha : pvtNext '/' = .slash := by decide
  unfold inner
  conv => lhs; unfold pvtInner
  rw [if_neg (by simp), List.cons_append, get_char hd]
  simp only [ha, putback_plain]
  have e : '/' :: (w ++ '\n' :: r) = ('/' :: w) ++ '\n' :: r := by simp
  rw [e, ignoreLine_comment _ r (by simp [hw])]
  exact pvtInner_fuel _ _ _ _ _ (by simp; omega) (by simp)

theorem inner_gaps (ts : List (List (List Rat))) (t : List (List Rat)) (r : List Char) : ∀ gs : List Gap, (∀ g ∈ gs, g.Ok) →
    inner ts t ⟨gaps gs ++ r, false, false⟩ = inner ts t ⟨r, false, false⟩
  | [], _ => rfl
  | g :: gs, hg => by
    have ih := inner_gaps ts t r gs (fun g hg' => hg g (by simp [hg']))
    have h1 := hg g (by simp)
    rw [← ih]
    cases g with
    | blank c => exact inner_blank ts t h1 _
    | comment w =>
      have e : gaps (Gap.comment w :: gs) ++ r = '-' :: '-' :: w ++ '\n' :: (gaps gs ++ r) := by simp [gaps, Gap.text]
      rw [e]
      exact inner_comment ts t w _ h1

theorem inner_record (ts : List (List (List Rat))) (t : List (List Rat)) {c : Char} (hc : isDig c = true ∨ c = '.') (r : List Char) :
    inner ts t ⟨c :: r, false, false⟩ = .ok (.again ts t ⟨c :: r, false, false⟩) := by
  unfold inner pvtInner
  rw [if_neg (by simp), get_char (dig_not_space hc)]
  have : pvtNext c = .record := by unfold pvtNext; rw [if_pos hc]
  simp only [this, putback_plain]

theorem inner_keyword (ts : List (List (List Rat))) (t : List (List Rat)) {c : Char} (hc : isAlph c = true) (r : List Char) :
    inner ts t ⟨c :: r, false, false⟩ = .ok (.ret ts ⟨c :: r, false, false⟩) := by
  obtain ⟨h1, h2, h3⟩ := alph_not_space hc
  unfold inner pvtInner
  rw [if_neg (by simp), get_char h1]
  have : pvtNext c = .keyword := by unfold pvtNext; rw [if_neg (by simp [h2, h3]), if_pos hc]
  simp only [this, putback_plain]

theorem inner_end (ts : List (List (List Rat))) : inner ts [] ⟨[], false, false⟩ = .ok (.ret ts ⟨[], true, true⟩) := by
  unfold inner pvtInner
  rw [if_neg (by simp), get_end]
  rfl

/-- What is left to read: the rest of a table, and more tables. -/
theorem pvtLoop_tables {g : List Gap} (hg : ∀ x ∈ g, x.Ok) {tail : List Char} {end_ : S} (hend : ∀ ts, inner ts [] ⟨tail, false, false⟩ = .ok (.ret ts end_)) :
    ∀ (m n : Nat) (rs : Records) (t : LiveTable) (tl : List LiveTable) (ts : List (List (List Rat))) (pre : List (List Rat)), RecordsOk rs →
      rs.length + (tl.map (fun t => t.records.length)).sum < m → m ≤ n → t.Ok → (∀ x ∈ tl, x.Ok ∧ x.Leads) →
      pvtLoop n ts pre ⟨recordsText rs ++ (gaps t.gap ++ ('/' :: t.remark ++ '\n' :: (liveText tl ++ (gaps g ++ tail)))), false, false⟩ =
        .ok (ts ++ [pre ++ rs.map (fun x => x.2.values)] ++ tl.map LiveTable.values, end_)
  | 0, _, _, _, _, _, _, _, h, _, _, _ => absurd h (Nat.not_lt_zero _)
  | m + 1, 0, _, _, _, _, _, _, _, h, _, _ => absurd h (by omega)
  | m + 1, n + 1, [], _, _, _, _, hr, _, _, _, _ => absurd rfl hr.some
  | m + 1, n + 1, x :: rs, t, tl, ts, pre, hr, hm, hn, ht, htl => by
    obtain ⟨x1, x2, x3⟩ := hr.ok x (by simp)
    have e : recordsText (x :: rs) ++ (gaps t.gap ++ ('/' :: t.remark ++ '\n' :: (liveText tl ++ (gaps g ++ tail)))) =
        gaps x.1 ++ x.2.text ++ (recordsText rs ++ (gaps t.gap ++ ('/' :: t.remark ++ '\n' :: (liveText tl ++ (gaps g ++ tail))))) := by simp [recordsText]
    unfold pvtLoop
    rw [if_neg (by simp), e, record_split x.2 x1 x3 x.1 x2, bind_ok]
    simp only
    change (inner ts (pre ++ [x.2.values]) _ >>= _) = _
    cases rs with
    | cons y rs =>
      obtain ⟨c, w, ec, hc⟩ := hr.leads y (by simp)
      have e2 : recordsText (y :: rs) ++ (gaps t.gap ++ ('/' :: t.remark ++ '\n' :: (liveText tl ++ (gaps g ++ tail)))) =
          gaps y.1 ++ (y.2.text ++ (recordsText rs ++ (gaps t.gap ++ ('/' :: t.remark ++ '\n' :: (liveText tl ++ (gaps g ++ tail)))))) := by simp [recordsText]
      rw [e2, inner_gaps _ _ _ _ (hr.ok y (by simp)).2.1, ec, List.cons_append, inner_record _ _ hc, bind_ok]
      simp only
      rw [← List.cons_append, ← ec]
      have ih := pvtLoop_tables hg hend m n (([], y.2) :: rs) t tl ts (pre ++ [x.2.values]) ⟨by simp, fun z hz => by
        rcases List.mem_cons.1 hz with rfl | hz
        · exact ⟨(hr.ok y (by simp)).1, by simp, (hr.ok y (by simp)).2.2⟩
        · exact hr.ok z (by simp [hz]), fun z hz => hr.leads z (by simp at hz ⊢; exact .inr hz)⟩ (by simp at hm ⊢; omega) (by omega) ht htl
      have e3 : ∀ r, recordsText (([], y.2) :: rs) ++ r = y.2.text ++ (recordsText rs ++ r) := by intro r; simp [recordsText, gaps]
      rw [e3] at ih
      rw [ih]
      simp
    | nil =>
      have e2 : ∀ r, recordsText [] ++ r = r := by intro r; simp [recordsText]
      rw [e2, inner_gaps _ _ _ _ ht.gap, inner_slash _ _ _ _ ht.remark]
      cases tl with
      | nil =>
        have e3 : liveText [] ++ (gaps g ++ tail) = gaps g ++ tail := by simp [liveText]
        rw [e3, inner_gaps _ _ _ _ hg, hend, bind_ok]
        simp
      | cons u tl =>
        obtain ⟨u1, u2⟩ := htl u (by simp)
        cases hu : u.records with
        | nil => exact absurd hu u1.records.some
        | cons y ys =>
          obtain ⟨c, w, ec, hc⟩ := u2 y (by simp [hu])
          have y1 := u1.records.ok y (by simp [hu])
          have e3 : liveText (u :: tl) ++ (gaps g ++ tail) =
              gaps y.1 ++ (y.2.text ++ (recordsText ys ++ (gaps u.gap ++ ('/' :: u.remark ++ '\n' :: (liveText tl ++ (gaps g ++ tail)))))) := by
            simp [liveText, LiveTable.text, hu, recordsText]
          rw [e3, inner_gaps _ _ _ _ y1.2.1, ec, List.cons_append, inner_record _ _ hc, bind_ok]
          simp only
          rw [← List.cons_append, ← ec]
          have ih := pvtLoop_tables hg hend m n (([], y.2) :: ys) u tl (ts ++ [pre ++ [x.2.values]]) [] ⟨by simp, fun z hz => by
            rcases List.mem_cons.1 hz with rfl | hz
            · exact ⟨y1.1, by simp, y1.2.2⟩
            · exact u1.records.ok z (by simp [hu, hz]), fun z hz => u1.records.leads z (by simpa [hu] using hz)⟩ (by simp [hu] at hm ⊢; omega) (by omega) u1
            (fun z hz => htl z (by simp [hz]))
          have e4 : ∀ r, recordsText (([], y.2) :: ys) ++ r = y.2.text ++ (recordsText ys ++ r) := by intro r; simp [recordsText, gaps]
          rw [e4] at ih
          rw [ih]
          simp [LiveTable.values, hu]

end Opm.Deck
