import Verif.Proofs.DeckTablesLive
/-!
# Properties of the readers of tables
-/

namespace Opm.Deck
open Opm Istream

section
variable {g : List Gap} {tail : List Char} {end_ : S}

theorem EndsAt.action (h : EndsAt tail end_) :
    nextAction ⟨tail, false, false⟩ = .ok (.done, end_) ∨ (nextAction ⟨tail, false, false⟩ = .ok (.more, end_) ∧ end_.eof = true) := by
  rcases h with ⟨⟨c, t, rfl, hc⟩, rfl⟩ | ⟨rfl, rfl⟩
  · exact .inl (nextAction_char (alph_not_space hc).1 (actionOf_done hc) t)
  · exact .inr ⟨nextAction_end, rfl⟩

theorem EndsAt.inner (h : EndsAt tail end_) (ts : List (List (List Rat))) : Deck.inner ts [] ⟨tail, false, false⟩ = .ok (.ret ts end_) := by
  rcases h with ⟨⟨c, t, rfl, hc⟩, rfl⟩ | ⟨rfl, rfl⟩
  · exact inner_keyword ts [] hc t
  · exact inner_end ts

end

/-- **C79.**  `readPvdTable`: every record becomes a table whose columns hold the record's values row by row; reading ends at the next keyword or at the end of
the file. -/
theorem pvd_tables {ncol : Nat} (hn : ncol ≠ 0) {rs : Records} (hr : RecordsOk rs) {g : List Gap} (hg : ∀ x ∈ g, x.Ok) {tail : List Char} {end_ : S}
    (hend : EndsAt tail end_) (ts : List (List (List Rat))) :
    readPvdTable ncol ts ⟨recordsText rs ++ (gaps g ++ tail), false, false⟩ = .ok (ts ++ rs.map (fun x => columns ncol x.2.values), end_) := by
  have hl := records_length rs (gaps g ++ tail)
  exact tableLoop_records (val := fun r => columns ncol r.values) hg hend.action rs _ ts hr.some
    (fun x hx => ⟨(hr.ok x hx).2.1, fun r => pvd_record hn (hr.ok x hx).1 (hr.ok x hx).2.2 (hr.ok x hx).2.1 r⟩)
    (fun x hx r => by simpa [gaps] using pvd_record hn (hr.ok x hx).1 (hr.ok x hx).2.2 (gs := []) (by simp) r) hr.leads (by simp only; omega)

/-- **C79.**  `readPvtTable`: the records up to a slash of their own form a table, in the order in which they stand. -/
theorem live_tables {t : LiveTable} {tl : List LiveTable} (ht : t.Ok) (htl : ∀ x ∈ tl, x.Ok ∧ x.Leads) {g : List Gap} (hg : ∀ x ∈ g, x.Ok) {tail : List Char} {end_ : S}
    (hend : EndsAt tail end_) (ts : List (List (List Rat))) :
    readPvtTable ts ⟨liveText (t :: tl) ++ (gaps g ++ tail), false, false⟩ = .ok (ts ++ (t :: tl).map LiveTable.values, end_) := by
  have e : liveText (t :: tl) ++ (gaps g ++ tail) = recordsText t.records ++ (gaps t.gap ++ ('/' :: t.remark ++ '\n' :: (liveText tl ++ (gaps g ++ tail)))) := by
    simp [liveText, LiveTable.text]
  have hlen : ∀ (l : List LiveTable) r, (l.map (fun t => t.records.length)).sum ≤ (liveText l ++ r).length := by
    intro l r
    induction l with
    | nil => simp
    | cons u l ih =>
      have e : liveText (u :: l) ++ r = recordsText u.records ++ (gaps u.gap ++ ('/' :: u.remark ++ '\n' :: (liveText l ++ r))) := by simp [liveText, LiveTable.text]
      have h1 := records_length u.records []
      rw [e]
      simp only [List.map_cons, List.sum_cons, List.length_append, List.length_cons, List.length_nil] at h1 ih ⊢
      omega
  have h2 := hlen (t :: tl) (gaps g ++ tail)
  simp only [List.map_cons, List.sum_cons] at h2
  rw [e] at h2 ⊢
  unfold readPvtTable
  rw [pvtLoop_tables hg hend.inner _ _ t.records t tl ts [] ht.records (Nat.lt_succ_of_le h2) (by simp only; omega) ht htl]
  simp [LiveTable.values]

/-- **C79.**  `readSGWOF`: every record becomes a table of its columns; a missing value (`1*` or `-1`) lies on the line through the values next to it in its column. -/
theorem sgwof_tables {ncol : Nat} (hn : ncol ≠ 0) {rs : Records} (hr : RelPermRecordsOk rs) (hf : ∀ x ∈ rs, FillableTable ncol x.2.flagged) {g : List Gap} (hg : ∀ x ∈ g, x.Ok)
    {tail : List Char} {end_ : S} (hend : EndsAt tail end_) (ts : List (List (List Rat))) :
    ∃ new, readSGWOF ncol ts ⟨recordsText rs ++ (gaps g ++ tail), false, false⟩ = .ok (ts ++ new, end_) ∧
      List.Forall₂ (fun x t => FilledTable ncol x.2.flagged t) rs new := by
  have key : ∀ x ∈ rs, ∃ t, insertDefaultValues ncol (columns ncol x.2.flagged) = .ok t ∧ FilledTable ncol x.2.flagged t := by
    intro x hx
    have get : ∀ k, k < ncol → (columns ncol x.2.flagged)[k]? = some (column ncol x.2.flagged k) := fun k hk => by simp [columns, hk]
    have len : ∀ k, (column ncol x.2.flagged k).length = x.2.flagged.length / ncol := fun k => by simp [column]
    have known : ∀ xs col : List Rat, col.length = xs.length → (knownRows xs col).length = (col.filter (fun y => y ≠ -1)).length := by
      intro xs
      induction xs with
      | nil => intro col h; cases col with
        | nil => rfl
        | cons _ _ => cases h
      | cons a xs ih =>
        intro col h
        cases col with
        | nil => cases h
        | cons b col =>
          have := ih col (by simpa using h)
          simp only [knownRows, List.zip_cons_cons, List.filter_cons] at this ⊢
          split <;> simp_all
    obtain ⟨t, e, h1, h2, h3⟩ := insertDefaults_ok (ncol := ncol) (t := columns ncol x.2.flagged) (get 0 (by omega)) (by simp [columns]) (fun col hc => by
      obtain ⟨k, -, rfl⟩ := List.mem_map.1 hc
      rw [len, len]) (hf x hx).mono (fun col hc => by
      obtain ⟨k, hk⟩ := List.mem_iff_getElem?.1 hc
      rw [List.getElem?_tail] at hk
      have hk2 : k + 1 < ncol := by
        have := (List.getElem?_eq_some_iff.1 hk).1
        simpa [columns] using this
      rw [get _ hk2] at hk
      cases hk
      rw [known _ _ (by rw [len, len])]
      exact (hf x hx).cols (k + 1) (by omega) hk2)
    exact ⟨t, e, h1, h2, fun k h0 hk => h3 k _ h0 (get k hk)⟩
  let val : Record Rat → List (List Rat) := fun r => (insertDefaultValues ncol (columns ncol r.flagged)).toOption.getD []
  have hv : ∀ x ∈ rs, insertDefaultValues ncol (columns ncol x.2.flagged) = .ok (val x.2) ∧ FilledTable ncol x.2.flagged (val x.2) := by
    intro x hx
    obtain ⟨t, e, h⟩ := key x hx
    have : val x.2 = t := by simp [val, e, Except.toOption]
    rw [this]
    exact ⟨e, h⟩
  have hrec : ∀ x ∈ rs, ∀ (gs : List Gap), (∀ g ∈ gs, g.Ok) → ∀ r, sgwofRecord ncol ⟨gaps gs ++ x.2.text ++ r, false, false⟩ = .ok (val x.2, ⟨r, false, false⟩) := by
    intro x hx gs hgs r
    unfold sgwofRecord
    rw [relPerm_record (hr.ok x hx).1 hgs r, bind_ok]
    simp only [toColumns_ok hn, bind_ok, (hv x hx).1]
  refine ⟨rs.map (fun x => val x.2), ?_, ?_⟩
  · have hl := records_length rs (gaps g ++ tail)
    exact tableLoop_records (val := val) hg hend.action rs _ ts hr.some (fun x hx => ⟨(hr.ok x hx).2, hrec x hx x.1 (hr.ok x hx).2⟩)
      (fun x hx r => by simpa [gaps] using hrec x hx [] (by simp) r) hr.leads (by simp only; omega)
  · rw [List.forall₂_map_right_iff]
    exact List.forall₂_same.2 (fun x hx => (hv x hx).2)

/-! ### Examples -/

private def lit (sg : Sign) (w : Digits) (f : Option Digits) : Lit Rat := RealLit.lit ⟨sg, w, f, none⟩

private theorem isLit {sg : Sign} {w : Digits} {f : Option Digits} (h : w ++ f.getD [] ≠ []) : IsReal (lit sg w f) := ⟨_, ⟨h, fun _ _ e => by cases e⟩, rfl⟩

private def two (a b c d : Fin 10) : Record Rat :=
  ⟨[([], .one (lit .none [a] none)), ([.blank ' '], .one (lit .none [b] none)), ([.blank '\n', .comment ['x'], .blank ' '], .one (lit .none [c] none)), ([.blank ' '], .one (lit .none [d] (some [5])))], [.blank ' '], ['r']⟩

private theorem two_ok (a b c d : Fin 10) : (two a b c d).Ok IsReal (fun n => (n : Rat)) ∧ ∀ y ∈ (two a b c d).items, ∀ n c, y.2 ≠ .dflt n c := by
  refine ⟨⟨fun x hx => ?_, fun x hx => ?_, fun g hg => ?_, by simp [two]⟩, fun x hx => ?_⟩
  · simp only [two, List.mem_cons, List.not_mem_nil, or_false] at hx
    rcases hx with rfl | rfl | rfl | rfl <;> exact ⟨isLit (by simp), by simp [Gap.Ok, isSpace]⟩
  · simp only [two, List.tail_cons, List.mem_cons, List.not_mem_nil, or_false] at hx
    rcases hx with rfl | rfl | rfl <;> simp
  · simp only [two, List.mem_cons, List.not_mem_nil, or_false] at hg
    subst hg
    simp [Gap.Ok, isSpace]
  · simp only [two, List.mem_cons, List.not_mem_nil, or_false] at hx
    rcases hx with rfl | rfl | rfl | rfl <;> simp

private def someRecords : Records := [([.blank ' '], two 1 2 3 4), ([.blank '\n'], two 5 6 7 8)]

example : recordsText someRecords = " 1 2\n--x\n 3 4.5 /r\n\n5 6\n--x\n 7 8.5 /r\n".toList := by decide +kernel

private theorem someRecords_ok : RecordsOk someRecords := by
  refine ⟨by simp [someRecords], fun x hx => ?_, fun x hx => ?_⟩
  · simp only [someRecords, List.mem_cons, List.not_mem_nil, or_false] at hx
    rcases hx with rfl | rfl <;> exact ⟨(two_ok _ _ _ _).1, by simp [Gap.Ok, isSpace], (two_ok _ _ _ _).2⟩
  · simp only [someRecords, List.tail_cons, List.mem_cons, List.not_mem_nil, or_false] at hx
    subst hx
    exact ⟨'5', _, rfl, .inl (by decide)⟩

example : ∃ r, readPvdTable 2 [] ⟨recordsText someRecords ++ (gaps [.comment ['y']] ++ "NEXT".toList), false, false⟩ = .ok (r, ⟨"NEXT".toList, false, false⟩) ∧
    r = [[[1, 3], [2, 9/2]], [[5, 7], [6, 17/2]]] :=
  ⟨_, pvd_tables (by decide) someRecords_ok (by simp [Gap.Ok]) (.inl ⟨⟨'N', _, rfl, by decide⟩, rfl⟩) [], by decide +kernel⟩

private def someLive : List LiveTable := [⟨someRecords, [.blank ' '], []⟩, ⟨[([.blank ' '], two 9 2 3 4)], [], ['e']⟩]

example : ∃ r, readPvtTable [] ⟨liveText someLive ++ (gaps [.blank '\n'] ++ []), false, false⟩ = .ok (r, ⟨[], true, true⟩) ∧
    r = [[[1, 2, 3, 9/2], [5, 6, 7, 17/2]], [[9, 2, 3, 9/2]]] := by
  refine ⟨_, live_tables ⟨someRecords_ok, by simp [Gap.Ok, isSpace], by simp⟩ (fun x hx => ?_) (by simp [Gap.Ok, isSpace]) (.inr ⟨rfl, rfl⟩) [], by decide +kernel⟩
  simp only [List.mem_cons, List.not_mem_nil, or_false] at hx
  subst hx
  refine ⟨⟨⟨by simp, fun y hy => ?_, by simp⟩, by simp, by decide⟩, fun y hy => ?_⟩
  · simp only [List.mem_cons, List.not_mem_nil, or_false] at hy
    subst hy
    exact ⟨(two_ok _ _ _ _).1, by simp [Gap.Ok, isSpace], (two_ok _ _ _ _).2⟩
  · simp only [List.head?_cons, Option.mem_some_iff] at hy
    subst hy
    exact ⟨'9', _, rfl, .inl (by decide)⟩

/-- `0 0⏎ 1 1*⏎ 3 6 /⏎`: the value at one is interpolated. -/
private def gapped : Record Rat :=
  ⟨[([], .one (lit .none [0] none)), ([.blank ' '], .one (lit .none [0] none)), ([.blank ' '], .one (lit .none [1] none)), ([.blank ' '], .dflt 1 (lit .none [1] none)),
    ([.blank ' '], .one (lit .none [3] none)), ([.blank ' '], .one (lit .none [6] none))], [.blank ' '], []⟩

private theorem gapped_ok : RelPermRecordsOk [([], gapped)] := by
  refine ⟨by simp, fun x hx => ?_, by simp⟩
  simp only [List.mem_cons, List.not_mem_nil, or_false] at hx
  subst hx
  refine ⟨⟨fun x hx => ?_, fun x hx => ?_, fun g hg => ?_, by decide, fun c hc => by cases hc⟩, by simp⟩
  · simp only [gapped, List.mem_cons, List.not_mem_nil, or_false] at hx
    rcases hx with rfl | rfl | rfl | rfl | rfl | rfl
    · exact ⟨.inl ⟨_, rfl, isLit (by simp)⟩, by simp⟩
    · exact ⟨.inl ⟨_, rfl, isLit (by simp)⟩, by simp [Gap.Ok, isSpace]⟩
    · exact ⟨.inl ⟨_, rfl, isLit (by simp)⟩, by simp [Gap.Ok, isSpace]⟩
    · exact ⟨.inr ⟨_, rfl, isLit (by simp), by decide +kernel⟩, by simp [Gap.Ok, isSpace]⟩
    · exact ⟨.inl ⟨_, rfl, isLit (by simp)⟩, by simp [Gap.Ok, isSpace]⟩
    · exact ⟨.inl ⟨_, rfl, isLit (by simp)⟩, by simp [Gap.Ok, isSpace]⟩
  · simp only [gapped, List.tail_cons, List.mem_cons, List.not_mem_nil, or_false] at hx
    rcases hx with rfl | rfl | rfl | rfl | rfl <;> simp
  · simp only [gapped, List.mem_cons, List.not_mem_nil, or_false] at hg
    subst hg
    simp [Gap.Ok, isSpace]

private theorem gapped_fillable : FillableTable 2 gapped.flagged := by
  have e : gapped.flagged = [0, 0, 1, -1, 3, 6] := by decide +kernel
  rw [e]
  refine ⟨by decide +kernel, fun k h0 hk => ?_⟩
  have : k = 1 := by omega
  subst this
  show (_ : Nat) ≠ 1
  decide +kernel

example : ∃ new, readSGWOF 2 [] ⟨recordsText [([], gapped)] ++ (gaps [] ++ "NEXT".toList), false, false⟩ = .ok ([] ++ new, ⟨"NEXT".toList, false, false⟩) ∧
    List.Forall₂ (fun (x : List Gap × Record Rat) t => FilledTable 2 x.2.flagged t) [([], gapped)] new :=
  sgwof_tables (by decide) gapped_ok (fun x hx => by
    simp only [List.mem_cons, List.not_mem_nil, or_false] at hx
    subst hx
    exact gapped_fillable) (by simp) (.inl ⟨⟨'N', _, rfl, by decide⟩, rfl⟩) []

example : readSGWOF 2 [] ⟨"0 0 1 1* 3 6 /\nNEXT".toList, false, false⟩ = .ok ([[[0, 1, 3], [0, 2, 6]]], ⟨"NEXT".toList, false, false⟩) := by decide +kernel

/-! ### What the readers accept or do silently -/

/-- Values that do not fill a row are dropped. -/
theorem incomplete_row_dropped : readPvdTable 3 [] ⟨"1 2 3 4 5 /\nNEXT".toList, false, false⟩ = .ok ([[[1], [2], [3]]], ⟨"NEXT".toList, false, false⟩) := by decide +kernel

/-- A further table that begins with a negative number is taken for a comment up to the end of the line. -/
theorem negative_start_skipped : readPvdTable 2 [] ⟨"1 2 /\n-1 3 /\nNEXT".toList, false, false⟩ = .ok ([[[1], [2]]], ⟨"NEXT".toList, false, false⟩) := by decide +kernel

/-- A table of a live fluid without its own slash before the next keyword is lost. -/
theorem unfinished_table_lost : readPvtTable [] ⟨"1 2 /\n/\n3 4 /\nNEXT".toList, false, false⟩ = .ok ([[[1, 2]]], ⟨"NEXT".toList, false, false⟩) := by decide +kernel

/-- At the end of the file the same table is an error. -/
theorem unfinished_table_at_end : readPvtTable [] ⟨"1 2 /\n/\n3 4 /\n".toList, false, false⟩ = .error .thrown := by decide +kernel

/-- A column with a single value has no second point to interpolate with. -/
theorem single_value_undefined : readSGWOF 2 [] ⟨"0 5 1 1* /\nNEXT".toList, false, false⟩ = .error .ub := by decide +kernel

/-- A count other than one is an assertion failure. -/
theorem two_defaults_fail : readSGWOF 2 [] ⟨"0 5 1 2* 3 4 /\nNEXT".toList, false, false⟩ = .error .assertFail := by decide +kernel

end Opm.Deck
