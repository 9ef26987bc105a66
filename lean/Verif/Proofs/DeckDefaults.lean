import Verif.Proofs.DeckReader
/-!
# Reading records with defaults
-/

namespace Opm.Deck
open Opm Istream

/-! ### Buffers -/

section
variable {T : Type}

@[simp] theorem overlay_length : ∀ (vs : List (Option T)) (buf : List T), (overlay vs buf).length = buf.length
  | [], _ => rfl
  | _ :: _, [] => rfl
  | v :: vs, b :: buf => by simp [overlay, overlay_length vs buf]

theorem overlay_none (n : Nat) : ∀ (vs : List (Option T)) (buf : List T), overlay (vs ++ List.replicate n none) buf = overlay vs buf
  | [], buf => by
    induction n generalizing buf with
    | zero => rfl
    | succ n ih =>
      cases buf with
      | nil => rfl
      | cons b buf =>
        have := ih buf
        simp only [List.nil_append, List.replicate_succ, overlay, Option.getD_none] at this ⊢
        rw [this]
  | _ :: _, [] => rfl
  | v :: vs, b :: buf => by simp [overlay, overlay_none n vs buf]

theorem overlay_write (v : T) : ∀ (vs : List (Option T)) (buf : List T), vs.length < buf.length →
    wr (overlay vs buf) vs.length v = .ok (overlay (vs ++ [some v]) buf)
  | [], [], h => absurd h (by simp)
  | [], b :: buf, _ => by simp [overlay, wr]
  | _ :: _, [], h => absurd h (by simp)
  | w :: vs, b :: buf, h => by
    have ih := overlay_write v vs buf (by simpa using h)
    rw [wr_eq_ok] at ih ⊢
    obtain ⟨h1, h2⟩ := ih
    refine ⟨by simpa using h1, ?_⟩
    simp [overlay, h2]

theorem overlay_fill (v : T) (vs : List (Option T)) (buf : List T) : ∀ n : Nat, vs.length + n ≤ buf.length →
    fillFrom (overlay vs buf) vs.length n v = .ok (overlay (vs ++ List.replicate n (some v)) buf)
  | 0, _ => by simp [fillFrom]
  | n + 1, h => by
    have ih := overlay_fill v vs buf n (by omega)
    unfold fillFrom at ih ⊢
    rw [loop_succ, ih, bind_ok]
    have e : ((vs.length : Int) + (n : Int)) = ((vs ++ List.replicate n (some v)).length : Nat) := by simp
    rw [e, wrI_natCast, overlay_write v _ buf (by simp; omega), List.append_assoc, ← List.replicate_succ']

/-! ### Steps -/

variable {N : Num T} {L : Lit T → Prop} {ofNat : Nat → T}

theorem getString_length {t : S} {w : List Char} {s : S} (h : getString s = (w, t)) : t.rest.length + w.length ≤ s.rest.length := by
  unfold getString sentry at h
  by_cases hg : s.good = true
  · simp only [hg, if_true, Bool.false_eq_true, if_false] at h
    have hd := dropWhile_length (p := isSpace) s.rest
    cases hr : s.rest.dropWhile isSpace with
    | nil =>
      simp only [hr] at h
      cases h
      simp
    | cons d r =>
      simp only [hr] at h
      have h2 := dropWhile_length (p := fun c => !isSpace c) (d :: r)
      rw [hr] at hd
      cases h
      simp only at h2 ⊢
      omega
  · simp only [hg, Bool.false_eq_true, if_false] at h
    cases h
    simp

theorem stopAt_more {maxv : Int} {x y : (List T × Int) × S} (h : stopAt maxv x = .more y) : x = y := by
  unfold stopAt at h
  split at h
  · cases h
  · cases h
    rfl

theorem defaultedStep_shrinks (h : Reads N L ofNat) (maxv : Int) : Shrinks (defaultedStep N maxv) := by
  intro x s y t _ e
  unfold defaultedStep at e
  cases he : extract N s with
  | mk v s1 =>
    obtain ⟨l1, l2⟩ := extract_length h he
    rw [he] at e
    cases v with
    | none =>
      simp only at e
      rw [bind_eq_ok] at e
      obtain ⟨p, e1, e⟩ := e
      unfold tokenEnd at e1
      cases hw : getString (clearFail s1) with
      | mk w s2 =>
        have g1 := getString_length hw
        have g2 := ignoreTo_length '\n' s2
        rw [hw] at e1
        simp only at e1
        split at e1
        · cases e1
          cases e
        · split at e1
          · rename_i hh
            cases e1
            simp only at e
            cases (stopAt_more (Except.ok.inj e) : (x, ignoreLine s2) = (y, t))
            have : w ≠ [] := by
              rintro rfl
              simp at hh
            have := List.length_pos_iff.2 this
            simp only [clearFail, ignoreLine] at *
            omega
          · cases e1
    | some v =>
      have l3 := l2 (by simp)
      simp only at e
      split at e
      · unfold defaultedRepeat at e
        rw [bind_eq_ok] at e
        obtain ⟨n, -, e⟩ := e
        have m2 := ignoreOne_length (peek s1).2
        rw [peek_rest] at m2
        simp only at e
        split at e
        · have e := stopAt_more (Except.ok.inj e) (x := ((x.1, x.2 + n), (peek (ignoreOne (peek s1).2)).2)) (y := (y, t)) (maxv := maxv)
          cases e
          rw [peek_rest]
          omega
        · cases hx : extract N (peek (ignoreOne (peek s1).2)).2 with
          | mk w s2 =>
            rw [hx] at e
            have m1 := (extract_length h hx).1
            rw [peek_rest] at m1
            cases w with
            | none =>
              simp only at e
              rw [bind_eq_ok] at e
              obtain ⟨_, _, e⟩ := e
              cases e
            | some w =>
              simp only at e
              rw [bind_eq_ok] at e
              obtain ⟨b, _, e⟩ := e
              have e := stopAt_more (Except.ok.inj e) (x := ((b, x.2 + n.toNat), s2)) (y := (y, t)) (maxv := maxv)
              cases e
              omega
      · rw [bind_eq_ok] at e
        obtain ⟨b, -, e⟩ := e
        have e := stopAt_more (Except.ok.inj e) (x := ((b, x.2 + 1), (peek s1).2)) (y := (y, t)) (maxv := maxv)
        cases e
        rw [peek_rest]
        exact l3

theorem defaulted_blank (maxv : Int) (x : List T × Int) {c : Char} (hc : isSpace c = true) (r : List Char) :
    defaultedStep N maxv x ⟨c :: r, false, false⟩ = defaultedStep N maxv x ⟨r, false, false⟩ := by
  unfold defaultedStep
  rw [extract_blank hc]

/-- A token. -/
theorem getString_token (c : Char) (hc : isSpace c = false) (r : List Char) : ∃ w u, getString ⟨c :: r, false, false⟩ = (c :: w, ⟨u, u.isEmpty, false⟩) ∧
    w = r.takeWhile (fun c => !isSpace c) ∧ u = r.dropWhile (fun c => !isSpace c) := by
  refine ⟨_, _, ?_, rfl, rfl⟩
  simp [getString, sentry, S.good, hc]

theorem dropWhile_newline (p : Char → Bool) (hp : p '\n' = false) : ∀ (t : List Char), '\n' ∉ t → ∀ r : List Char,
    ∃ u, (t ++ '\n' :: r).dropWhile p = u ++ '\n' :: r ∧ '\n' ∉ u
  | [], _, r => ⟨[], by simp [hp], by simp⟩
  | c :: t, h, r => by
    simp only [List.mem_cons, not_or] at h
    by_cases hc : p c = true
    · obtain ⟨u, h1, h2⟩ := dropWhile_newline p hp t h.2 r
      exact ⟨u, by rw [List.cons_append, List.dropWhile_cons, if_pos hc, h1], h2⟩
    · exact ⟨c :: t, by rw [List.cons_append, List.dropWhile_cons, if_neg hc], by simp [h.1, h.2]⟩

theorem tokenEnd_comment {α : Type} (x : α) (t r : List Char) (ht : '\n' ∉ t) :
    tokenEnd x ⟨'-' :: t ++ '\n' :: r, false, true⟩ = .ok (.more (x, ⟨r, false, false⟩)) := by
  obtain ⟨w, u, e, -, e2⟩ := getString_token '-' (by decide) (t ++ '\n' :: r)
  obtain ⟨z, e3, e4⟩ := dropWhile_newline (fun c => !isSpace c) (by decide) t ht r
  rw [e3] at e2
  subst e2
  unfold tokenEnd clearFail
  simp only [List.cons_append, e]
  rw [if_neg (by simp), if_pos (by simp)]
  have : (z ++ '\n' :: r).isEmpty = false := by cases z <;> rfl
  rw [this, ignoreLine_comment z r e4]

theorem tokenEnd_slash {α : Type} (x : α) (t r : List Char) (ht : '\n' ∉ t) (hb : ∀ c, t.head? = some c → isSpace c = true) :
    tokenEnd x ⟨'/' :: t ++ '\n' :: r, false, true⟩ = .ok (.last (x, ⟨r, false, false⟩)) := by
  obtain ⟨w, u, e, e1, e2⟩ := getString_token '/' (by decide) (t ++ '\n' :: r)
  have hs : ∀ c d, (t ++ '\n' :: r) = c :: d → isSpace c = true := by
    intro c d h
    cases t with
    | nil =>
      cases h
      decide
    | cons a t =>
      cases h
      exact hb _ rfl
  have k1 : w = [] := by
    rw [e1]
    cases hh : t ++ '\n' :: r with
    | nil => rfl
    | cons c d => simp [hs c d hh]
  have k2 : u = t ++ '\n' :: r := by
    rw [e2]
    cases hh : t ++ '\n' :: r with
    | nil => rfl
    | cons c d => simp [hs c d hh]
  subst k1
  subst k2
  unfold tokenEnd clearFail
  simp only [List.cons_append, e]
  rw [if_pos trivial]
  have : (t ++ '\n' :: r).isEmpty = false := by cases t <;> rfl
  rw [this, ignoreLine_comment t r ht]

theorem defaulted_comment (h : Reads N L ofNat) {maxv : Int} {x : List T × Int} (hm : x.2 < maxv) (t r : List Char) (ht : '\n' ∉ t) :
    defaultedStep N maxv x ⟨'-' :: '-' :: t ++ '\n' :: r, false, false⟩ = .ok (.more (x, ⟨r, false, false⟩)) := by
  unfold defaultedStep
  rw [List.cons_append, List.cons_append, extract_comment h]
  have := tokenEnd_comment x t r ht
  rw [List.cons_append] at this
  simp only [this, bind_ok, stopAt, if_neg (Int.not_le.2 hm)]

theorem defaulted_slash (h : Reads N L ofNat) (maxv : Int) (x : List T × Int) (t r : List Char) (ht : '\n' ∉ t) (hb : ∀ c, t.head? = some c → isSpace c = true) :
    defaultedStep N maxv x ⟨'/' :: t ++ '\n' :: r, false, false⟩ = .ok (.last (x, ⟨r, false, false⟩)) := by
  unfold defaultedStep
  rw [List.cons_append, extract_slash h]
  have := tokenEnd_slash x t r ht hb
  rw [List.cons_append] at this
  simp only [this, bind_ok]

theorem defaulted_gaps (h : Reads N L ofNat) {maxv : Int} {x : List T × Int} (hm : x.2 < maxv) (r : List Char) : ∀ gs : List Gap, (∀ g ∈ gs, g.Ok) →
    run (defaultedStep N maxv) x ⟨gaps gs ++ r, false, false⟩ = run (defaultedStep N maxv) x ⟨r, false, false⟩
  | [], _ => rfl
  | g :: gs, hg => by
    have ih := defaulted_gaps h hm r gs (fun g hg' => hg g (by simp [hg']))
    have h1 := hg g (by simp)
    rw [← ih]
    cases g with
    | blank c => exact run_blank (defaultedStep_shrinks h maxv) (defaulted_blank maxv x h1 _)
    | comment t =>
      have e : gaps (Gap.comment t :: gs) ++ r = '-' :: '-' :: t ++ '\n' :: (gaps gs ++ r) := by
        simp [gaps, Gap.text]
      rw [e]
      exact run_more (defaultedStep_shrinks h maxv) rfl (defaulted_comment h hm t _ h1)

/-! ### Items -/

/-- An item whose values fit. -/
def Fits (vs : List (Option T)) (buf : List T) : Item T → Prop
  | .one _ => vs.length < buf.length
  | .rep n _ _ => vs.length + n ≤ buf.length
  | .dflt _ _ => True

/-- What may follow an item. -/
def Next : Item T → List Char → Prop
  | .dflt _ _, r => ∃ c t, r = c :: t ∧ isSpace c = true
  | _, r => Follows r

theorem defaulted_item (h : Reads N L ofNat) (maxv : Int) (buf : List T) (vs : List (Option T)) (it : Item T) (hi : it.Ok L ofNat) (hf : Fits vs buf it)
    {r : List Char} (hr : Next it r) :
    defaultedStep N maxv (overlay vs buf, vs.length) ⟨it.text ++ r, false, false⟩ =
      .ok (stopAt maxv ((overlay (vs ++ it.vals) buf, ((vs ++ it.vals).length : Int)), ⟨r, false, false⟩)) := by
  cases it with
  | one v =>
    have hr : Follows r := hr
    unfold defaultedStep
    rw [show (Item.one v).text = v.text from rfl, extract_lit h (show L v from hi) hr.stop]
    simp only [isEmpty_ne hr.some, peek_plain hr.some, hr.star, if_false]
    rw [wrI_natCast, overlay_write _ _ _ hf, bind_ok]
    simp [Item.vals]
  | rep n c v =>
    have hr : Follows r := hr
    obtain ⟨k1, k2, k3, k4⟩ := hi
    have e2 : Item.text (.rep n c v) ++ r = c.text ++ '*' :: (v.text ++ r) := by simp [Item.text]
    unfold defaultedStep
    rw [e2, extract_lit h k1 (stop_star _)]
    simp only [List.isEmpty_cons, peek_plain (List.cons_ne_nil _ _), List.head?_cons, if_true]
    unfold defaultedRepeat
    rw [k2, h.count n k3, bind_ok]
    have e3 : ignoreOne ⟨'*' :: (v.text ++ r), false, false⟩ = ⟨v.text ++ r, false, false⟩ := by simp [ignoreOne, sentry, S.good]
    obtain ⟨a, t, e4, e5⟩ := h.head v k4
    have e6 : v.text ++ r ≠ [] := by rw [e4]; simp
    have e7 : ((v.text ++ r).head?.map isSpace).getD false = false := by rw [e4]; simp [e5]
    simp only [e3, peek_plain e6, e7, Bool.false_eq_true, if_false, extract_lit h k4 hr.stop, Int.toNat_natCast]
    rw [overlay_fill _ _ _ _ hf, bind_ok]
    simp [Item.vals, isEmpty_ne hr.some]
  | dflt n c =>
    obtain ⟨a, t, e4, e5⟩ := hr
    obtain ⟨k1, k2, k3⟩ := hi
    have e2 : Item.text (.dflt n c) ++ r = c.text ++ '*' :: r := by simp [Item.text]
    unfold defaultedStep
    rw [e2, extract_lit h k1 (stop_star _)]
    simp only [List.isEmpty_cons, peek_plain (List.cons_ne_nil _ _), List.head?_cons, if_true]
    unfold defaultedRepeat
    rw [k2, h.count n k3, bind_ok]
    have e3 : ignoreOne ⟨'*' :: r, false, false⟩ = ⟨r, false, false⟩ := by simp [ignoreOne, sentry, S.good]
    have e6 : r ≠ [] := by rw [e4]; simp
    have e7 : (r.head?.map isSpace).getD false = true := by rw [e4]; simp [e5]
    simp only [e3, peek_plain e6, e7, if_true]
    simp [Item.vals, overlay_none]

theorem Item.vals_length (it : Item T) : it.vals.length = it.size := by cases it <;> simp [Item.vals, Item.size]

theorem next_of {it : Item T} {r : List Char} (h1 : Follows r) (h2 : (∃ n c, it = .dflt n c) → ∃ c t, r = c :: t ∧ isSpace c = true) : Next it r := by
  cases it with
  | one v => exact h1
  | rep n c v => exact h1
  | dflt n c => exact h2 ⟨n, c, rfl⟩

theorem defaulted_items (h : Reads N L ofNat) {maxv : Int} {buf : List T} (hb : maxv ≤ buf.length) {r : List Char} (hr : Follows r) :
    ∀ (its : List (List Gap × Item T)) (vs : List (Option T)), (∀ y ∈ its, y.2.Ok L ofNat ∧ ∀ g ∈ y.1, g.Ok) → (∀ y ∈ its.tail, y.1 ≠ []) →
    DefaultsBlank its r → ((vs ++ valsOf its).length : Int) < maxv →
    run (defaultedStep N maxv) (overlay vs buf, vs.length) ⟨itemsText its ++ r, false, false⟩ =
      run (defaultedStep N maxv) (overlay (vs ++ valsOf its) buf, (vs ++ valsOf its).length) ⟨r, false, false⟩
  | [], vs, _, _, _, _ => by simp [itemsText, valsOf]
  | (gs, it) :: its, vs, hi, ha, hB, hm => by
    obtain ⟨h1, h3⟩ := hi (gs, it) (by simp)
    have hnext : Follows (itemsText its ++ r) := by
      cases its with
      | nil => exact hr
      | cons y its =>
        have := ha y (by simp)
        have e : itemsText (y :: its) ++ r = gaps y.1 ++ (y.2.text ++ (itemsText its ++ r)) := by simp [itemsText]
        rw [e]
        exact gaps_follow (hi y (by simp)).2 (.inl this)
    have e0 : vs ++ valsOf ((gs, it) :: its) = (vs ++ it.vals) ++ valsOf its := by simp [valsOf]
    rw [e0] at hm ⊢
    have hm' : (((vs ++ it.vals).length : Nat) : Int) < maxv := by
      rw [List.length_append (as := vs ++ it.vals)] at hm
      omega
    have ih := defaulted_items h hb hr its (vs ++ it.vals) (fun y hy => hi y (by simp [hy])) (fun y hy => ha y (by
      cases its with
      | nil => simp at hy
      | cons z its => simp at hy ⊢; exact .inr hy)) hB.2 hm
    have e : itemsText ((gs, it) :: its) ++ r = gaps gs ++ (it.text ++ (itemsText its ++ r)) := by simp [itemsText]
    have hv : (vs.length : Int) < maxv := by
      rw [List.length_append] at hm'
      omega
    have hlen : vs.length + it.size < buf.length := by
      rw [List.length_append, Item.vals_length] at hm'
      omega
    have fits : Fits vs buf it := by
      cases it <;> simp [Fits, Item.size] at hlen ⊢ <;> omega
    have st := defaulted_item h maxv buf vs it h1 fits (next_of hnext hB.1)
    rw [show stopAt maxv ((overlay (vs ++ it.vals) buf, ((vs ++ it.vals).length : Int)), (⟨itemsText its ++ r, false, false⟩ : S)) = .more _ from if_neg (Int.not_le.2 hm')] at st
    rw [e, defaulted_gaps h hv _ gs h3, run_more (defaultedStep_shrinks h maxv) rfl st, ih]

/-- The item that fills the record up. -/
theorem defaulted_full (h : Reads N L ofNat) {maxv : Int} {buf : List T} (hb : maxv ≤ buf.length) {r : List Char} (hr : Follows r)
    (its : List (List Gap × Item T)) (x : List Gap × Item T) (hi : ∀ y ∈ its ++ [x], y.2.Ok L ofNat ∧ ∀ g ∈ y.1, g.Ok) (ha : ∀ y ∈ (its ++ [x]).tail, y.1 ≠ [])
    (hB : DefaultsBlank (its ++ [x]) r) (hm : ((valsOf its).length : Int) < maxv) (hx : maxv ≤ (valsOf (its ++ [x])).length)
    (hf : (∀ n c, x.2 ≠ .dflt n c) → (valsOf (its ++ [x])).length ≤ buf.length) :
    run (defaultedStep N maxv) (buf, 0) ⟨itemsText (its ++ [x]) ++ r, false, false⟩ =
      .ok ((overlay (valsOf (its ++ [x])) buf, (valsOf (its ++ [x])).length), ⟨r, false, false⟩) := by
  obtain ⟨gs, it⟩ := x
  obtain ⟨h1, h3⟩ := hi (gs, it) (by simp)
  have e1 : valsOf (its ++ [(gs, it)]) = valsOf its ++ it.vals := by simp [valsOf]
  have e2 : itemsText (its ++ [(gs, it)]) ++ r = itemsText its ++ (gaps gs ++ (it.text ++ r)) := by simp [itemsText]
  have split : ∀ ys : List (List Gap × Item T), DefaultsBlank (ys ++ [(gs, it)]) r → DefaultsBlank ys (gaps gs ++ (it.text ++ r)) ∧ ((∃ n c, it = .dflt n c) → ∃ c t, r = c :: t ∧ isSpace c = true) := by
    intro ys
    induction ys with
    | nil => exact fun h => ⟨trivial, by simpa [itemsText] using h.1⟩
    | cons y ys ih =>
      rintro ⟨a, b⟩
      refine ⟨⟨fun hy => ?_, (ih b).1⟩, (ih b).2⟩
      have := a hy
      simpa [itemsText] using this
  rw [e1] at hx hf ⊢
  rw [e2]
  have hfit : Fits (valsOf its) buf it := by
    rw [List.length_append, Item.vals_length] at hf
    cases it with
    | one v =>
      have := hf (by simp)
      simp only [Item.size] at this
      simp only [Fits]
      omega
    | rep n c v => exact hf (by simp)
    | dflt n c => trivial
  have st := defaulted_item h maxv buf (valsOf its) it h1 hfit (next_of hr (split its hB).2)
  rw [show stopAt maxv ((overlay (valsOf its ++ it.vals) buf, ((valsOf its ++ it.vals).length : Int)), (⟨r, false, false⟩ : S)) = .last _ from if_pos hx] at st
  by_cases hn : its = []
  · subst hn
    have g := defaulted_gaps h (maxv := maxv) (x := (buf, 0)) hm (it.text ++ r) gs h3
    exact g.trans (run_last rfl st rfl)
  · have hg : gs ≠ [] := by
      refine ha (gs, it) ?_
      cases its with
      | nil => exact absurd rfl hn
      | cons y its => simp
    have k := defaulted_items h hb (r := gaps gs ++ (it.text ++ r)) (gaps_follow h3 (.inl hg)) its [] (fun y hy => hi y (by simp [hy])) (fun y hy => ha y (by
      cases its with
      | nil => simp at hy
      | cons z its => simp at hy ⊢; exact .inl hy)) (split its hB).1 hm
    refine k.trans ?_
    rw [defaulted_gaps h hm _ gs h3]
    exact run_last rfl st rfl

/-! ### Every stream -/

theorem vectorStep_ends (s : S) (x : List T) (hN : ∀ v : T, N.toInt v ≠ .error .timeout) : vectorStep N x s ≠ .error .timeout := by
  unfold vectorStep
  cases extract N s with
  | mk v s1 =>
    cases v with
    | none =>
      simp only
      unfold vectorEnd
      cases getChar (ignoreWhitespace (clearFail s1)) with
      | mk c s2 =>
        cases c with
        | none => simp
        | some c =>
          simp only
          split
          · simp
          · split <;> simp
    | some v =>
      simp only
      split
      · unfold vectorRepeat
        cases hv : N.toInt v with
        | error e =>
          have := hN v
          rw [hv] at this
          simpa using this
        | ok n =>
          simp only [bind_ok]
          cases extract N (ignoreOne (peek s1).2) with
          | mk w s2 =>
            cases w with
            | none => simp
            | some w =>
              simp only
              split <;> simp
      · simp

theorem fill_ends (b : List T) (at_ : Int) (v : T) : ∀ n, fillFrom b at_ n v ≠ .error .timeout := by
  intro n
  unfold fillFrom
  induction n with
  | zero => simp
  | succ n ih =>
    rw [loop_succ]
    cases e : loop n (fun i b => wrI b (at_ + i) v) b with
    | error er =>
      rw [e] at ih
      simpa using ih
    | ok b' =>
      rw [bind_ok]
      unfold wrI wr
      split
      · simp
      · split <;> simp

theorem defaultedStep_ends (maxv : Int) (s : S) (x : List T × Int) (hN : ∀ v : T, N.toInt v ≠ .error .timeout) : defaultedStep N maxv x s ≠ .error .timeout := by
  unfold defaultedStep
  cases extract N s with
  | mk v s1 =>
    cases v with
    | none =>
      simp only
      unfold tokenEnd
      simp only
      split
      · simp
      · split <;> simp
    | some v =>
      simp only
      split
      · unfold defaultedRepeat
        cases hv : N.toInt v with
        | error e =>
          have := hN v
          rw [hv] at this
          simpa using this
        | ok n =>
          simp only [bind_ok]
          split
          · simp
          · cases extract N (peek (ignoreOne (peek s1).2)).2 with
            | mk w s2 =>
              cases w with
              | none =>
                simp only
                have := fill_ends x.1 x.2 v n.toNat
                cases e : fillFrom x.1 x.2 n.toNat v with
                | error er =>
                  rw [e] at this
                  simpa using this
                | ok b => simp
              | some w =>
                simp only
                have := fill_ends x.1 x.2 w n.toNat
                cases e : fillFrom x.1 x.2 n.toNat w with
                | error er =>
                  rw [e] at this
                  simpa using this
                | ok b => simp
      · have := fill_ends x.1 x.2 v 1
        unfold fillFrom at this
        rw [loop_succ, loop_zero, bind_ok] at this
        simp only [Nat.cast_zero, add_zero] at this
        cases e : wrI x.1 x.2 v with
        | error er =>
          rw [e] at this
          simpa using this
        | ok b => simp

theorem readVectorData_ends (h : Reads N L ofNat) (hN : ∀ v : T, N.toInt v ≠ .error .timeout) (s : S) : readVectorData N s ≠ .error .timeout :=
  run_ends (vectorStep_shrinks h) (fun x s => vectorStep_ends s x hN) _ _ _ (by omega)

theorem readDefaulted_ends (h : Reads N L ofNat) (hN : ∀ v : T, N.toInt v ≠ .error .timeout) (buf : List T) (maxv : Int) (s : S) :
    readDefaulted N buf maxv s ≠ .error .timeout := by
  unfold readDefaulted check
  split
  · exact run_ends (defaultedStep_shrinks h maxv) (fun x s => defaultedStep_ends maxv s x hN) _ _ _ (by omega)
  · simp

/-- Without undefined conversions, `readVectorData` succeeds or throws. -/
theorem passes_outcome {α : Type} {step : α → S → M (Pass (α × S))} (hs : ∀ x s e, step x s = .error e → e = .thrown) :
    ∀ (n : Nat) x s e, passes step n x s = .error e → e = .thrown ∨ e = .timeout
  | 0, _, _, e, h => by
    cases h
    exact .inr rfl
  | n + 1, x, s, e, h => by
    unfold passes at h
    split at h
    · cases h
      exact .inl rfl
    · cases hx : step x s with
      | error er =>
        rw [hx] at h
        cases h
        exact .inl (hs x s _ hx)
      | ok p =>
        rw [hx] at h
        simp only [bind_ok] at h
        cases p with
        | more y => exact passes_outcome hs n _ _ _ h
        | last y =>
          obtain ⟨y, t⟩ := y
          simp only at h
          split at h
          · cases h
            exact .inl rfl
          · cases h

theorem vectorStep_outcome (hN : ∀ v : T, ∃ n, N.toInt v = .ok n) (x : List T) (s : S) (e : Err) (h : vectorStep N x s = .error e) : e = .thrown := by
  unfold vectorStep at h
  cases hx : extract N s with
  | mk v s1 =>
    rw [hx] at h
    cases v with
    | none =>
      simp only at h
      unfold vectorEnd at h
      cases hc : getChar (ignoreWhitespace (clearFail s1)) with
      | mk c s2 =>
        rw [hc] at h
        cases c with
        | none =>
          cases h
          rfl
        | some c =>
          simp only at h
          split at h
          · cases h
          · split at h
            · cases h
            · cases h
              rfl
    | some v =>
      simp only at h
      split at h
      · unfold vectorRepeat at h
        obtain ⟨n, hn⟩ := hN v
        rw [hn, bind_ok] at h
        cases hw : extract N (ignoreOne (peek s1).2) with
        | mk w s2 =>
          rw [hw] at h
          cases w with
          | none =>
            cases h
            rfl
          | some w =>
            simp only at h
            split at h
            · cases h
              rfl
            · cases h
      · cases h

end

end Opm.Deck
