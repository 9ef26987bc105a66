import Verif.Proofs.DeckDefaults
/-!
# Reading records of decks (C34)
-/

namespace Opm.Deck
open Opm Istream

section
variable {T : Type} {N : Num T} {L : Lit T → Prop} {ofNat : Nat → T}

theorem readVectorData_record (h : Reads N L ofNat) {r : Record T} (hr : r.Ok L ofNat) (hd : ∀ x ∈ r.items, ∀ n c, x.2 ≠ .dflt n c) (tail : List Char) :
    readVectorData N ⟨r.text ++ tail, false, false⟩ = .ok (r.vals.filterMap id, ⟨tail, false, false⟩) := by
  have hs : Follows ('/' :: r.remark ++ '\n' :: tail) := slash_follows _
  have e : r.text ++ tail = itemsText r.items ++ (gaps r.gap ++ ('/' :: r.remark ++ '\n' :: tail)) := by simp [Record.text]
  have k := vector_items h (gaps_follow hr.gap (.inr hs)) r.items [] (fun y hy => ⟨(hr.items y hy).1, hd y hy, (hr.items y hy).2⟩) hr.apart
  rw [e]
  unfold readVectorData
  refine k.trans ?_
  rw [vector_gaps h _ _ _ hr.gap, run_last rfl (vector_slash h _ _ _ hr.remark) rfl]
  rfl

theorem readDefaulted_record (h : Reads N L ofNat) {r : Record T} (hr : r.Ok L ofNat) {buf : List T} {maxv : Int} (hb : maxv ≤ buf.length)
    (hm : (r.vals.length : Int) < maxv) (hk : ∀ c, r.remark.head? = some c → isSpace c = true)
    (hB : DefaultsBlank r.items (gaps r.gap ++ ['/'])) (tail : List Char) :
    readDefaulted N buf maxv ⟨r.text ++ tail, false, false⟩ = .ok ((overlay r.vals buf, r.vals.length), ⟨tail, false, false⟩) := by
  have hs : Follows ('/' :: r.remark ++ '\n' :: tail) := slash_follows _
  have e : r.text ++ tail = itemsText r.items ++ (gaps r.gap ++ ('/' :: r.remark ++ '\n' :: tail)) := by simp [Record.text]
  have hB' : ∀ its : List (List Gap × Item T), DefaultsBlank its (gaps r.gap ++ ['/']) → DefaultsBlank its (gaps r.gap ++ ('/' :: r.remark ++ '\n' :: tail)) := by
    intro its
    induction its with
    | nil => exact fun _ => trivial
    | cons x its ih =>
      rintro ⟨h1, h2⟩
      refine ⟨fun hx => ?_, ih h2⟩
      obtain ⟨c, t, h3, h4⟩ := h1 hx
      refine ⟨c, t ++ (r.remark ++ '\n' :: tail), ?_, h4⟩
      have : itemsText its ++ (gaps r.gap ++ ('/' :: r.remark ++ '\n' :: tail)) = (itemsText its ++ (gaps r.gap ++ ['/'])) ++ (r.remark ++ '\n' :: tail) := by simp
      rw [this, h3, List.cons_append]
  have k := defaulted_items h hb (gaps_follow hr.gap (.inr hs)) r.items [] hr.items hr.apart (hB' _ hB) hm
  rw [e]
  unfold readDefaulted
  rw [check_ok (by simpa using hb), bind_ok]
  refine k.trans ?_
  rw [defaulted_gaps h (by exact hm) _ _ hr.gap, run_last rfl (defaulted_slash h _ _ _ _ hr.remark hk) rfl]
  rfl

theorem readDefaulted_full (h : Reads N L ofNat) {its : List (List Gap × Item T)} {x : List Gap × Item T}
    (hi : ∀ y ∈ its ++ [x], y.2.Ok L ofNat ∧ ∀ g ∈ y.1, g.Ok) (ha : ∀ y ∈ (its ++ [x]).tail, y.1 ≠ []) {buf : List T} {maxv : Int} (hb : maxv ≤ buf.length)
    {tail : List Char} (ht : Follows tail) (hB : DefaultsBlank (its ++ [x]) tail) (hm : ((valsOf its).length : Int) < maxv)
    (hx : maxv ≤ (valsOf (its ++ [x])).length) (hf : (∀ n c, x.2 ≠ .dflt n c) → (valsOf (its ++ [x])).length ≤ buf.length) :
    readDefaulted N buf maxv ⟨itemsText (its ++ [x]) ++ tail, false, false⟩ =
      .ok ((overlay (valsOf (its ++ [x])) buf, (valsOf (its ++ [x])).length), ⟨tail, false, false⟩) := by
  unfold readDefaulted
  rw [check_ok (by simpa using hb), bind_ok]
  exact defaulted_full h hb ht its x hi ha hB hm hx hf

end

/-! ### Integers and decimal numbers -/

/-- **C34.**  `readVectorData` on a record of integers without defaults: the values with repeat counts expanded, and what follows the record's last line is left
for the next reader.  The same for decimal numbers. -/
theorem vector_of_record :
    (∀ r : Record Int, r.Ok IsInt (fun n => (n : Int)) → (∀ x ∈ r.items, ∀ n c, x.2 ≠ .dflt n c) → ∀ tail,
      readVectorData intNum ⟨r.text ++ tail, false, false⟩ = .ok (r.vals.filterMap id, ⟨tail, false, false⟩)) ∧
    (∀ r : Record Rat, r.Ok IsReal (fun n => (n : Rat)) → (∀ x ∈ r.items, ∀ n c, x.2 ≠ .dflt n c) → ∀ tail,
      readVectorData realNum ⟨r.text ++ tail, false, false⟩ = .ok (r.vals.filterMap id, ⟨tail, false, false⟩)) :=
  ⟨fun _ hr hd tail => readVectorData_record int_reads hr hd tail, fun _ hr hd tail => readVectorData_record real_reads hr hd tail⟩

/-- **C34.**  `readDefaultedVectorData` on a record with fewer values than allowed: the values are put at the beginning of the buffer, defaults keep what was
there, the number of values is returned, and what follows the record's last line is left.  Missing for the full property: records with more values
(see `defaulted_stops_partial`, `repeats_overflow`), a slash directly followed by a remark or directly after a default (`slash_remark`, `slash_after_default`). -/
theorem defaulted_record_partial :
    (∀ r : Record Int, r.Ok IsInt (fun n => (n : Int)) → ∀ (buf : List Int) (maxv : Int), maxv ≤ buf.length → (r.vals.length : Int) < maxv →
      (∀ c, r.remark.head? = some c → isSpace c = true) → DefaultsBlank r.items (gaps r.gap ++ ['/']) → ∀ tail,
      readDefaulted intNum buf maxv ⟨r.text ++ tail, false, false⟩ = .ok ((overlay r.vals buf, r.vals.length), ⟨tail, false, false⟩)) ∧
    (∀ r : Record Rat, r.Ok IsReal (fun n => (n : Rat)) → ∀ (buf : List Rat) (maxv : Int), maxv ≤ buf.length → (r.vals.length : Int) < maxv →
      (∀ c, r.remark.head? = some c → isSpace c = true) → DefaultsBlank r.items (gaps r.gap ++ ['/']) → ∀ tail,
      readDefaulted realNum buf maxv ⟨r.text ++ tail, false, false⟩ = .ok ((overlay r.vals buf, r.vals.length), ⟨tail, false, false⟩)) :=
  ⟨fun _ hr _ _ hb hm hk hB tail => readDefaulted_record int_reads hr hb hm hk hB tail,
   fun _ hr _ _ hb hm hk hB tail => readDefaulted_record real_reads hr hb hm hk hB tail⟩

/-- **C34.**  `readDefaultedVectorData` stops right after the item with which the allowed number of values is reached, if the buffer has room for all values of
that item. -/
theorem defaulted_stops_partial :
    (∀ (its : List (List Gap × Item Int)) (x : List Gap × Item Int), (∀ y ∈ its ++ [x], y.2.Ok IsInt (fun n => (n : Int)) ∧ ∀ g ∈ y.1, g.Ok) →
      (∀ y ∈ (its ++ [x]).tail, y.1 ≠ []) → ∀ (buf : List Int) (maxv : Int), maxv ≤ buf.length → ∀ tail, Follows tail → DefaultsBlank (its ++ [x]) tail →
      ((valsOf its).length : Int) < maxv → maxv ≤ (valsOf (its ++ [x])).length → ((∀ n c, x.2 ≠ .dflt n c) → (valsOf (its ++ [x])).length ≤ buf.length) →
      readDefaulted intNum buf maxv ⟨itemsText (its ++ [x]) ++ tail, false, false⟩ =
        .ok ((overlay (valsOf (its ++ [x])) buf, (valsOf (its ++ [x])).length), ⟨tail, false, false⟩)) ∧
    (∀ (its : List (List Gap × Item Rat)) (x : List Gap × Item Rat), (∀ y ∈ its ++ [x], y.2.Ok IsReal (fun n => (n : Rat)) ∧ ∀ g ∈ y.1, g.Ok) →
      (∀ y ∈ (its ++ [x]).tail, y.1 ≠ []) → ∀ (buf : List Rat) (maxv : Int), maxv ≤ buf.length → ∀ tail, Follows tail → DefaultsBlank (its ++ [x]) tail →
      ((valsOf its).length : Int) < maxv → maxv ≤ (valsOf (its ++ [x])).length → ((∀ n c, x.2 ≠ .dflt n c) → (valsOf (its ++ [x])).length ≤ buf.length) →
      readDefaulted realNum buf maxv ⟨itemsText (its ++ [x]) ++ tail, false, false⟩ =
        .ok ((overlay (valsOf (its ++ [x])) buf, (valsOf (its ++ [x])).length), ⟨tail, false, false⟩)) :=
  ⟨fun _ _ hi ha _ _ hb _ ht hB hm hx hf => readDefaulted_full int_reads hi ha hb ht hB hm hx hf,
   fun _ _ hi ha _ _ hb _ ht hB hm hx hf => readDefaulted_full real_reads hi ha hb ht hB hm hx hf⟩

/-- **C34.**  Whatever the stream holds, the readers come to an end. -/
theorem readers_end :
    (∀ s, readVectorData intNum s ≠ .error .timeout) ∧ (∀ s, readVectorData realNum s ≠ .error .timeout) ∧
    (∀ buf maxv s, readDefaulted intNum buf maxv s ≠ .error .timeout) ∧ (∀ buf maxv s, readDefaulted realNum buf maxv s ≠ .error .timeout) := by
  have hi : ∀ v : Int, intNum.toInt v ≠ .error .timeout := fun v => by simp [intNum]
  have hr : ∀ v : Rat, realNum.toInt v ≠ .error .timeout := fun v => by
    simp only [realNum, truncate]
    split <;> split <;> simp
  exact ⟨readVectorData_ends int_reads hi, readVectorData_ends real_reads hr, readDefaulted_ends int_reads hi, readDefaulted_ends real_reads hr⟩

/-- **C34.**  Whatever the stream holds, reading integers with `readVectorData` gives values or an exception. -/
theorem vector_of_ints_safe (s : S) : (∃ x, readVectorData intNum s = .ok x) ∨ readVectorData intNum s = .error .thrown := by
  cases e : readVectorData intNum s with
  | ok x => exact .inl ⟨x, rfl⟩
  | error er =>
    rcases passes_outcome (fun x s e h => vectorStep_outcome (N := intNum) (fun v => ⟨v, rfl⟩) x s e h) _ _ _ _ e with h | h
    · exact .inr (by rw [h])
    · exact absurd (h ▸ e) (readers_end.1 s)

/-! ### Examples -/

private def ones : Lit Int := IntLit.lit ⟨.none, [1]⟩
private def threes : Lit Int := IntLit.lit ⟨.none, [3]⟩
private def minus : Lit Int := IntLit.lit ⟨.minus, [1, 2]⟩

private theorem isOnes : IsInt ones := ⟨_, ⟨by decide, by decide +kernel⟩, rfl⟩
private theorem isThrees : IsInt threes := ⟨_, ⟨by decide, by decide +kernel⟩, rfl⟩
private theorem isMinus : IsInt minus := ⟨_, ⟨by decide, by decide +kernel⟩, rfl⟩

/-- `1 3*-12 --c⏎ 3 / r⏎`. -/
private def someRecord : Record Int := ⟨[([], .one ones), ([.blank ' '], .rep 3 threes minus), ([.blank ' ', .comment ['c'], .blank ' '], .one threes)], [.blank ' '], [' ', 'r']⟩

example : someRecord.text = "1 3*-12 --c\n 3 / r\n".toList := by decide +kernel

example : someRecord.Ok IsInt (fun n => (n : Int)) := by
  refine ⟨fun x hx => ?_, fun x hx => ?_, fun g hg => ?_, by decide⟩
  · simp only [someRecord, List.mem_cons, List.not_mem_nil, or_false] at hx
    rcases hx with rfl | rfl | rfl
    · exact ⟨isOnes, by simp⟩
    · exact ⟨⟨isThrees, by decide +kernel, by decide, isMinus⟩, by simp [Gap.Ok, isSpace]⟩
    · exact ⟨isThrees, by simp [Gap.Ok, isSpace]⟩
  · simp only [someRecord, List.tail_cons, List.mem_cons, List.not_mem_nil, or_false] at hx
    rcases hx with rfl | rfl <;> simp
  · simp only [someRecord, List.mem_cons, List.not_mem_nil, or_false] at hg
    subst hg
    simp [Gap.Ok, isSpace]

example : readVectorData intNum ⟨"1 3*-12 --c\n 3 / r\nNEXT".toList, false, false⟩ = .ok ([1, -12, -12, -12, 3], ⟨"NEXT".toList, false, false⟩) := by decide +kernel

example : readVectorData realNum ⟨"1.5e1 2*-.25/\nNEXT".toList, false, false⟩ = .ok ([15, -1/4, -1/4], ⟨"NEXT".toList, false, false⟩) := by decide +kernel

/-- `1 3* 3 /⏎`, which meets the hypotheses of `defaulted_record_partial`. -/
private def defaultRecord : Record Int := ⟨[([], .one ones), ([.blank ' '], .dflt 3 threes), ([.blank ' '], .one threes)], [.blank ' '], []⟩

example : defaultRecord.text = "1 3* 3 /\n".toList ∧ defaultRecord.vals.length = 5 := by decide +kernel

example : DefaultsBlank defaultRecord.items (gaps defaultRecord.gap ++ ['/']) := by
  simp [DefaultsBlank, defaultRecord, itemsText, gaps, Gap.text, isSpace]

example : readDefaulted intNum [9, 8, 7, 6, 5, 4, 3] 6 ⟨"1 3* 3 /\nNEXT".toList, false, false⟩ = .ok (([1, 8, 7, 6, 3, 4, 3], 5), ⟨"NEXT".toList, false, false⟩) := by
  decide +kernel

/-- Stopping at the allowed number of values. -/
example : readDefaulted intNum [9, 8, 7, 6, 5, 4, 3] 4 ⟨"1 3*5 'X' /\n".toList, false, false⟩ = .ok (([1, 5, 5, 5, 5, 4, 3].set 4 5, 4), ⟨" 'X' /\n".toList, false, false⟩) := by
  decide +kernel

/-! ### Where the property fails -/

/-- Repeat counts beyond the allowed number of values write outside the buffer. -/
theorem repeats_overflow : readDefaulted intNum [0, 0, 0, 0, 0] 5 ⟨"10*3 /\n".toList, false, false⟩ = .error .ub := by decide +kernel

/-- A negative number of defaults followed by a value writes before the buffer. -/
theorem negative_default : readDefaulted intNum [0, 0, 0] 3 ⟨"-3* 1 /\n".toList, false, false⟩ = .error .ub := by decide +kernel

/-- `readVectorData` has no defaults: the blank after the asterisk is skipped, and the next value is repeated. -/
theorem vector_default_repeats : readVectorData intNum ⟨"2* 5 /\n".toList, false, false⟩ = .ok ([5, 5], ⟨[], false, false⟩) := by decide +kernel

/-- A remark directly after the slash is accepted by `readVectorData` but not by `readDefaultedVectorData`. -/
theorem slash_remark : readVectorData intNum ⟨"1 /end\n".toList, false, false⟩ = .ok ([1], ⟨[], false, false⟩) ∧
    readDefaulted intNum [0, 0, 0] 3 ⟨"1 /end\n".toList, false, false⟩ = .error .thrown := by decide +kernel

/-- A default must be followed by a blank. -/
theorem slash_after_default : readDefaulted intNum [0, 0, 0] 3 ⟨"1 1*/\n".toList, false, false⟩ = .error .thrown := by decide +kernel

/-- Repeat counts that are not numbers of type `int` are converted with undefined behaviour. -/
theorem count_out_of_range : readVectorData realNum ⟨"3e9*1 /\n".toList, false, false⟩ = .error .ub := by decide +kernel

end Opm.Deck
