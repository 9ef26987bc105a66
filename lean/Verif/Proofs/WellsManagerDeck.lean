import Verif.Proofs.WellsManagerControls
/-! # All records of a keyword, and the whole deck -/

namespace Opm.Manager
open Opm Wells Groups

/-! ### Records with control data -/

/-- What the action of a record does to a well. -/
structure Action (np : Nat) {α : Type} (act : α → WellData → Nat → W → M W) (app : α → Well → Well) (ty : WellType) (Ok : α → Prop) : Prop where
  ok : ∀ (l : α) (s : W) (ws : List Well) (w : Well) (i : Nat) (d : WellData), WRep np s ws → ws[i]? = some w → d.type = some w.type → w.type = ty → Ok l →
    ∃ s', act l d i s = .ok s' ∧ WRep np s' (ws.set i (app l w))
  cond : ∀ (l : α) (s : W) (ws : List Well) (w : Well) (i : Nat) (d : WellData) (s' : W), WRep np s ws → ws[i]? = some w → act l d i s = .ok s' →
    d.type = some w.type ∧ w.type = ty ∧ Ok l
  same : ∀ l w, SameWell w (app l w)

theorem inject_action {dk : Deck} {pu : PhaseUsage} (hpu : phaseUsageFromDeck dk.water dk.oil dk.gas = .ok pu) (J : Junk) :
    Action pu.num (injectWell J pu) (injectedWell (activePhases dk)) .injector (InjOk (activePhases dk)) :=
  ⟨fun l _ _ _ _ d h hw ht hi hl => injectWell_ok hpu J l h hw d ht hi hl, fun l _ _ _ _ d s' h hw he => injectWell_cond hpu J l h hw d s' he,
    fun _ w => (withLimits_same _ w _).1⟩

theorem produce_action {dk : Deck} {pu : PhaseUsage} (hpu : phaseUsageFromDeck dk.water dk.oil dk.gas = .ok pu) (J : Junk) :
    Action pu.num (produceWell J pu) (producedWell (activePhases dk)) .producer (ProdOk (activePhases dk)) :=
  ⟨fun l _ _ _ _ d h hw ht hi hl => produceWell_ok hpu J l h hw d ht hi hl, fun l _ _ _ _ d s' h hw he => produceWell_cond hpu J l h hw d s' he,
    fun _ w => (withLimits_same _ w _).1⟩

/-- The effect of one record on all wells. -/
def applied (p : String) (f : Well → Well) (ns : List String) (ws : List Well) : List Well :=
  List.zipWith (fun n w => if Matches p n then f w else w) ns ws

theorem applied_length {p : String} {f : Well → Well} {ns : List String} {ws : List Well} (h : ns.length = ws.length) :
    (applied p f ns ws).length = ws.length := by
  unfold applied; simp [h]

theorem applied_get {p : String} {f : Well → Well} {ns : List String} {ws : List Well} {i : Nat} {n : String} {w : Well} (hn : ns[i]? = some n)
    (hw : ws[i]? = some w) : (applied p f ns ws)[i]? = some (if Matches p n then f w else w) := by
  unfold applied
  rw [List.getElem?_zipWith, hn, hw]

theorem set_after {α : Type} (pre : List α) (x y : α) (rest : List α) : (pre ++ x :: rest).set pre.length y = pre ++ y :: rest := by
  rw [List.set_append_right _ _ (Nat.le_refl _)]
  simp

theorem get_after {α : Type} (pre : List α) (x : α) (rest : List α) : (pre ++ x :: rest)[pre.length]? = some x := by simp

theorem forMatching_sound {np : Nat} {α : Type} {act : α → WellData → Nat → W → M W} {app : α → Well → Well} {ty : WellType} {Ok : α → Prop}
    (A : Action np act app ty Ok) (l : α) (p : String) : ∀ (ns : List String) (ds : List WellData) (pre cur : List Well) (found : Bool) (s : W) (r : Bool × W),
    ns.length = ds.length → ns.length = cur.length → WRep np s (pre ++ cur) → forMatching p (act l) pre.length ns ds found s = .ok r →
    (r.1 = true ↔ found = true ∨ ∃ n ∈ ns, Matches p n) ∧ WRep np r.2 (pre ++ applied p (app l) ns cur) ∧
    ∀ (i : Nat) n d w, ns[i]? = some n → ds[i]? = some d → cur[i]? = some w → Matches p n → d.type = some w.type ∧ w.type = ty ∧ Ok l := by
  intro ns
  induction ns with
  | nil =>
    intro ds pre cur found s r h1 h2 hs h
    have : cur = [] := List.length_eq_zero_iff.1 h2.symm
    subst this
    unfold forMatching at h
    cases h
    exact ⟨by simp, by simpa [applied] using hs, by simp⟩
  | cons n ns ih =>
    intro ds pre cur found s r h1 h2 hs h
    cases ds with
    | nil => simp at h1
    | cons d ds =>
      cases cur with
      | nil => simp at h2
      | cons w cur =>
        simp only [List.length_cons, Nat.add_right_cancel_iff] at h1 h2
        rw [forMatching, nameMatches_eq] at h
        by_cases hm : Matches p n
        · rw [if_pos (by simpa using hm), bind_eq_ok] at h
          obtain ⟨s1, e1, h⟩ := h
          obtain ⟨c1, c2, c3⟩ := A.cond l s _ w pre.length d s1 hs (get_after ..) e1
          obtain ⟨s1', e1', r1⟩ := A.ok l s _ w pre.length d hs (get_after ..) c1 c2 c3
          rw [e1] at e1'
          cases e1'
          rw [set_after, ← List.singleton_append, ← List.append_assoc] at r1
          have h' : forMatching p (act l) (pre ++ [app l w]).length ns ds true s1 = .ok r := by simpa using h
          obtain ⟨i1, i2, i3⟩ := ih ds (pre ++ [app l w]) cur true s1 r h1 h2 r1 h'
          refine ⟨?_, ?_, ?_⟩
          · rw [i1]
            simp [hm]
          · simpa [applied, hm] using i2
          · intro i m d' w' k1 k2 k3 k4
            cases i with
            | zero =>
              simp only [List.getElem?_cons_zero, Option.some.injEq] at k1 k2 k3
              subst k1 k2 k3
              exact ⟨c1, c2, c3⟩
            | succ i =>
              simp only [List.getElem?_cons_succ] at k1 k2 k3
              exact i3 i m d' w' k1 k2 k3 k4
        · rw [if_neg (by simpa using hm)] at h
          have r1 : WRep np s ((pre ++ [w]) ++ cur) := by simpa using hs
          have h' : forMatching p (act l) (pre ++ [w]).length ns ds found s = .ok r := by simpa using h
          obtain ⟨i1, i2, i3⟩ := ih ds (pre ++ [w]) cur found s r h1 h2 r1 h'
          refine ⟨?_, ?_, ?_⟩
          · rw [i1]
            simp [hm]
          · simpa [applied, hm] using i2
          · intro i m d' w' k1 k2 k3 k4
            cases i with
            | zero =>
              simp only [List.getElem?_cons_zero, Option.some.injEq] at k1
              subst k1
              exact absurd k4 hm
            | succ i =>
              simp only [List.getElem?_cons_succ] at k1 k2 k3
              exact i3 i m d' w' k1 k2 k3 k4

theorem forMatching_ok {np : Nat} {α : Type} {act : α → WellData → Nat → W → M W} {app : α → Well → Well} {ty : WellType} {Ok : α → Prop}
    (A : Action np act app ty Ok) (l : α) (p : String) : ∀ (ns : List String) (ds : List WellData) (pre cur : List Well) (found : Bool) (s : W),
    ns.length = ds.length → ns.length = cur.length → WRep np s (pre ++ cur) →
    (∀ (i : Nat) n d w, ns[i]? = some n → ds[i]? = some d → cur[i]? = some w → Matches p n → d.type = some w.type ∧ w.type = ty ∧ Ok l) →
    ∃ r, forMatching p (act l) pre.length ns ds found s = .ok r := by
  intro ns
  induction ns with
  | nil => intro ds pre cur found s _ _ _ _; exact ⟨(found, s), by cases ds <;> rfl⟩
  | cons n ns ih =>
    intro ds pre cur found s h1 h2 hs h
    cases ds with
    | nil => simp at h1
    | cons d ds =>
      cases cur with
      | nil => simp at h2
      | cons w cur =>
        simp only [List.length_cons, Nat.add_right_cancel_iff] at h1 h2
        rw [forMatching, nameMatches_eq]
        have hrest : ∀ (i : Nat) m d' w', ns[i]? = some m → ds[i]? = some d' → cur[i]? = some w' → Matches p m → d'.type = some w'.type ∧ w'.type = ty ∧ Ok l :=
          fun i m d' w' k1 k2 k3 k4 => h (i + 1) m d' w' (by simpa using k1) (by simpa using k2) (by simpa using k3) k4
        by_cases hm : Matches p n
        · obtain ⟨c1, c2, c3⟩ := h 0 n d w rfl rfl rfl hm
          obtain ⟨s1, e1, r1⟩ := A.ok l s _ w pre.length d hs (get_after ..) c1 c2 c3
          rw [if_pos (by simpa using hm), e1, bind_ok]
          rw [set_after, ← List.singleton_append, ← List.append_assoc] at r1
          have := ih ds (pre ++ [app l w]) cur true s1 h1 h2 r1 hrest
          simpa using this
        · rw [if_neg (by simpa using hm)]
          have r1 : WRep np s ((pre ++ [w]) ++ cur) := by simpa using hs
          have := ih ds (pre ++ [w]) cur found s h1 h2 r1 hrest
          simpa using this

/-- The records of a keyword, applied to one well. -/
def lineFold {α : Type} (well : α → String) (app : α → Well → Well) (ls : List α) (n : String) (w : Well) : Well :=
  ls.foldl (fun w l => if Matches (well l) n then app l w else w) w

theorem lineFold_same {α : Type} {well : α → String} {app : α → Well → Well} (h : ∀ l w, SameWell w (app l w)) (ls : List α) (n : String) : ∀ w,
    SameWell w (lineFold well app ls n w) := by
  induction ls with
  | nil => exact fun w => SameWell.rfl' w
  | cons l ls ih =>
    intro w
    unfold lineFold
    rw [List.foldl_cons]
    split
    · exact (h l w).trans' (ih _)
    · exact ih _

theorem lineFold_cases {α : Type} (well : α → String) (app : α → Well → Well) (P : Well → Prop) (h : ∀ l w, P w → P (app l w)) (ls : List α) (n : String)
    (w : Well) (h0 : P w) :
    ((∀ l ∈ ls, ¬Matches (well l) n) ∧ lineFold well app ls n w = w) ∨ ∃ l w0, IsLast well ls n l ∧ P w0 ∧ lineFold well app ls n w = app l w0 := by
  induction ls using List.reverseRecOn with
  | nil => exact .inl ⟨by simp, rfl⟩
  | append_singleton ls l ih =>
    have e : lineFold well app (ls ++ [l]) n w = if Matches (well l) n then app l (lineFold well app ls n w) else lineFold well app ls n w := by
      unfold lineFold; rw [List.foldl_append]; rfl
    by_cases hm : Matches (well l) n
    · right
      rw [e, if_pos hm]
      refine ⟨l, _, ⟨ls, [], rfl, hm, by simp⟩, ?_, rfl⟩
      rcases ih with ⟨-, e'⟩ | ⟨l', w0, -, hp, e'⟩
      · rw [e']; exact h0
      · rw [e']; exact h _ _ hp
    · rw [e, if_neg hm]
      rcases ih with ⟨hn, e'⟩ | ⟨l', w0, ⟨a, b, rfl, k1, k2⟩, hp, e'⟩
      · left
        refine ⟨?_, e'⟩
        intro x hx
        rcases List.mem_append.1 hx with hx | hx
        · exact hn x hx
        · rw [List.mem_singleton.1 hx]; exact hm
      · right
        refine ⟨l', w0, ⟨a, b ++ [l], by simp, k1, ?_⟩, hp, e'⟩
        intro x hx
        rcases List.mem_append.1 hx with hx | hx
        · exact k2 x hx
        · rw [List.mem_singleton.1 hx]; exact hm

theorem lines_sound {np : Nat} {α : Type} {act : α → WellData → Nat → W → M W} {app : α → Well → Well} {ty : WellType} {Ok : α → Prop}
    (A : Action np act app ty Ok) (well : α → String) (ns : List String) (ds : List WellData) (hd : ns.length = ds.length) (ls : List α) :
    ∀ (s s' : W) (ws : List Well), ns.length = ws.length → WRep np s ws →
    ls.foldlM (fun s l => controlStep (well l) (act l) ns ds s) s = .ok s' →
    ∃ ws', WRep np s' ws' ∧ ws'.length = ws.length ∧
      (∀ (i : Nat) n w, ns[i]? = some n → ws[i]? = some w → ws'[i]? = some (lineFold well app ls n w)) ∧
      ∀ l ∈ ls, (∃ n ∈ ns, Matches (well l) n) ∧ Ok l ∧
        ∀ (i : Nat) n d w, ns[i]? = some n → ds[i]? = some d → ws[i]? = some w → Matches (well l) n → d.type = some w.type ∧ w.type = ty := by
  induction ls with
  | nil =>
    intro s s' ws hn hs h
    cases h
    refine ⟨ws, hs, rfl, fun i n w _ hw => hw, by simp⟩
  | cons l ls ih =>
    intro s s' ws hn hs h
    rw [List.foldlM_cons, bind_eq_ok] at h
    obtain ⟨s1, h1, h⟩ := h
    unfold controlStep at h1
    rw [bind_eq_ok] at h1
    obtain ⟨r, hr, h1⟩ := h1
    obtain ⟨k1, k2, k3⟩ := forMatching_sound A l (well l) ns ds [] ws false s r hd hn (by simpa using hs) hr
    split at h1
    · rename_i hb
      cases h1
      have hex : ∃ n ∈ ns, Matches (well l) n := by simpa using k1.1 hb
      rw [List.nil_append] at k2
      obtain ⟨ws', r', hl', hw', hc'⟩ := ih r.2 s' _ (by rw [applied_length hn]; exact hn) k2 h
      refine ⟨ws', r', by rw [hl', applied_length hn], ?_, ?_⟩
      · intro i n w hni hwi
        rw [hw' i n _ hni (applied_get hni hwi)]
        rfl
      · intro x hx
        rcases List.mem_cons.1 hx with rfl | hx
        · obtain ⟨n, hm, hmn⟩ := hex
          obtain ⟨i, hi⟩ := List.getElem?_of_mem hm
          have hil := (List.getElem?_eq_some_iff.1 hi).1
          refine ⟨⟨n, hm, hmn⟩, (k3 i n ds[i] ws[i] hi (List.getElem?_eq_getElem (by omega)) (List.getElem?_eq_getElem (by omega)) hmn).2.2, ?_⟩
          intro j m d w a1 a2 a3 a4
          exact ⟨(k3 j m d w a1 a2 a3 a4).1, (k3 j m d w a1 a2 a3 a4).2.1⟩
        · obtain ⟨b1, b2, b3⟩ := hc' x hx
          refine ⟨b1, b2, ?_⟩
          intro j m d w a1 a2 a3 a4
          have := b3 j m d _ a1 a2 (applied_get a1 a3) a4
          split at this
          · rw [(A.same l w).1] at this; exact this
          · exact this
    · cases h1

theorem lines_ok {np : Nat} {α : Type} {act : α → WellData → Nat → W → M W} {app : α → Well → Well} {ty : WellType} {Ok : α → Prop}
    (A : Action np act app ty Ok) (well : α → String) (ns : List String) (ds : List WellData) (hd : ns.length = ds.length) (ls : List α) :
    ∀ (s : W) (ws : List Well), ns.length = ws.length → WRep np s ws →
    (∀ l ∈ ls, (∃ n ∈ ns, Matches (well l) n) ∧ Ok l ∧
        ∀ (i : Nat) n d w, ns[i]? = some n → ds[i]? = some d → ws[i]? = some w → Matches (well l) n → d.type = some w.type ∧ w.type = ty) →
    ∃ s', ls.foldlM (fun s l => controlStep (well l) (act l) ns ds s) s = .ok s' := by
  induction ls with
  | nil => intro s ws _ _ _; exact ⟨s, rfl⟩
  | cons l ls ih =>
    intro s ws hn hs h
    obtain ⟨h1, h2, h3⟩ := h l (List.mem_cons_self ..)
    have hall : ∀ (i : Nat) n d w, ns[i]? = some n → ds[i]? = some d → ws[i]? = some w → Matches (well l) n → d.type = some w.type ∧ w.type = ty ∧ Ok l :=
      fun i n d w a1 a2 a3 a4 => ⟨(h3 i n d w a1 a2 a3 a4).1, (h3 i n d w a1 a2 a3 a4).2, h2⟩
    obtain ⟨r, hr⟩ := forMatching_ok A l (well l) ns ds [] ws false s hd hn (by simpa using hs) hall
    obtain ⟨k1, k2, -⟩ := forMatching_sound A l (well l) ns ds [] ws false s r hd hn (by simpa using hs) hr
    rw [List.nil_append] at k2
    have hb : r.1 = true := k1.2 (.inr h1)
    have hr' : forMatching (well l) (act l) 0 ns ds false s = .ok r := hr
    rw [List.foldlM_cons]
    unfold controlStep
    rw [hr', bind_ok, if_pos hb, bind_ok]
    refine ih r.2 _ (by rw [applied_length hn]; exact hn) k2 ?_
    intro x hx
    obtain ⟨b1, b2, b3⟩ := h x (List.mem_cons_of_mem _ hx)
    refine ⟨b1, b2, ?_⟩
    intro j m d w a1 a2 a3 a4
    have hjl := (List.getElem?_eq_some_iff.1 a1).1
    have hwj : ws[j]? = some ws[j] := List.getElem?_eq_getElem (by omega)
    rw [applied_get a1 hwj] at a3
    cases a3
    have := b3 j m d _ a1 a2 hwj a4
    split
    · rw [(A.same l _).1]; exact this
    · exact this

/-! ### WELOPEN -/

/-- The current control after a record of `WELOPEN`. -/
def flagged (f : String) (cur : Int) : Int := if f = "SHUT" then (if cur ≥ 0 then -cur - 1 else cur) else (if cur < 0 then -cur - 1 else cur)

theorem openShutCurrent_iff (f : String) (cur c : Int) : openShutCurrent f cur = .ok c ↔ (f = "SHUT" ∨ f = "OPEN") ∧ c = flagged f cur := by
  unfold openShutCurrent flagged
  by_cases h1 : f = "SHUT"
  · simp [h1, eq_comm]
  · by_cases h2 : f = "OPEN"
    · subst h2
      rw [if_neg h1, if_pos rfl, if_neg h1]
      simp [eq_comm]
    · simp [h1, h2]

/-- The records of `WELOPEN`, applied to one well. -/
def flagFold (ls : List (String × String)) (n : String) (cur : Int) : Int := ls.foldl (fun c l => if l.1 = n then flagged l.2 c else c) cur

/-- Control `x`, complemented if the flag says so. -/
def shutIf (f : String) (x : Int) : Int := if f = "SHUT" then -x - 1 else x

theorem flagged_shutIf (f : String) (x y : Int) (h : y = x ∨ y = -x - 1) (hx : 0 ≤ x) : flagged f y = shutIf f x := by
  unfold flagged shutIf
  split_ifs <;> omega

theorem flagFold_spec (ls : List (String × String)) (n : String) (cur : Int) :
    flagFold ls n cur = match ((ls.filter (fun l => l.1 = n)).getLast?).map Prod.snd with
      | none => cur
      | some f => shutIf f (max cur (-cur - 1)) := by
  induction ls using List.reverseRecOn with
  | nil => rfl
  | append_singleton ls l ih =>
    have e : flagFold (ls ++ [l]) n cur = if l.1 = n then flagged l.2 (flagFold ls n cur) else flagFold ls n cur := by
      unfold flagFold; rw [List.foldl_append]; rfl
    rw [e]
    by_cases hn : l.1 = n
    · rw [if_pos hn]
      have hf : (ls ++ [l]).filter (fun l => decide (l.1 = n)) = ls.filter (fun l => decide (l.1 = n)) ++ [l] := by simp [hn]
      rw [hf, List.getLast?_concat]
      simp only [Option.map_some]
      obtain ⟨x, hx, hc⟩ : ∃ x : Int, max cur (-cur - 1) = x ∧ (0 ≤ cur ∧ x = cur ∨ cur < 0 ∧ x = -cur - 1) := by
        refine ⟨_, rfl, ?_⟩
        rcases lt_or_ge cur 0 with h | h
        · exact .inr ⟨h, max_eq_right (by omega)⟩
        · exact .inl ⟨h, max_eq_left (by omega)⟩
      rw [hx] at ih ⊢
      have : flagFold ls n cur = x ∨ flagFold ls n cur = -x - 1 := by
        rw [ih]
        split
        · omega
        · unfold shutIf; split <;> simp
      generalize flagFold ls n cur = y at this
      exact flagged_shutIf _ _ _ this (by omega)
    · rw [if_neg hn, ih]
      simp [hn]

theorem operates {dk : Deck} {n : String} {lims : List Limit} {mode openShut : String} (h : ModeOk lims mode openShut) :
    OperatesOn dk n lims mode openShut (flagFold (dk.welopen.getD []) n (curOf lims mode openShut)) := by
  rw [flagFold_spec]
  change OperatesOn dk n lims mode openShut (match lastFlag dk n with
    | none => _
    | some f => shutIf f (max _ _))
  unfold OperatesOn curOf
  by_cases hm : mode ∈ lims.map Limit.mode
  · left
    obtain ⟨k, L, e, hk, hL⟩ := posOf_spec lims mode hm
    refine ⟨k, L, hk, hL, ?_⟩
    rw [e]
    cases lastFlag dk n with
    | none => rfl
    | some f =>
      have : max (if openShut = "SHUT" then -(k : Int) - 1 else k) (-(if openShut = "SHUT" then -(k : Int) - 1 else k) - 1) = k := by
        split <;> omega
      simp only [this, Option.getD_some, shutIf]
  · rcases h with h | ⟨hg, -⟩
    · exact absurd h hm
    right
    rw [(posOf_neg lims mode).2 hm]
    cases hf : lastFlag dk n with
    | none =>
      left
      refine ⟨hg, rfl, ?_⟩
      simp only
      split <;> rfl
    | some f =>
      right
      refine ⟨hg, f, rfl, ?_⟩
      simp only [shutIf]
      split_ifs <;> decide

theorem welopen_iff {np : Nat} {specs : List WelspecsLine} {f : Found} (hf : FoundInv specs f) (ls : List (String × String)) :
    ∀ (s : W) (ws : List Well), f.names.length = ws.length → WRep np s ws →
    ((∃ s', readWelopen f.index ls s = .ok s') ↔ ∀ l ∈ ls, l.1 ∈ f.names ∧ (l.2 = "SHUT" ∨ l.2 = "OPEN")) ∧
    ∀ s', readWelopen f.index ls s = .ok s' → ∃ ws', WRep np s' ws' ∧ ws'.length = ws.length ∧
      ∀ (i : Nat) n w, f.names[i]? = some n → ws[i]? = some w → ws'[i]? = some { w with current := flagFold ls n w.current } := by
  induction ls with
  | nil =>
    intro s ws hn hs
    refine ⟨by simp [readWelopen], ?_⟩
    intro s' h
    cases h
    exact ⟨ws, hs, rfl, fun i n w _ hw => hw⟩
  | cons l ls ih =>
    intro s ws hn hs
    unfold readWelopen
    rw [List.foldlM_cons]
    unfold welopenStep
    cases hl : f.index.lookup l.1 with
    | none =>
      have hno : l.1 ∉ f.names := by
        intro hm
        obtain ⟨i, hi⟩ := List.getElem?_of_mem hm
        rw [(hf.index l.1 i).2 hi] at hl
        cases hl
      simp only [bind_error]
      refine ⟨?_, by simp⟩
      constructor
      · rintro ⟨s', h⟩; cases h
      · intro h
        exact absurd (h l (List.mem_cons_self ..)).1 hno
    | some i =>
      have hi := (hf.index l.1 i).1 hl
      have hil := (List.getElem?_eq_some_iff.1 hi).1
      have hw : ws[i]? = some ws[i] := List.getElem?_eq_getElem (by omega)
      obtain ⟨c, hc, hr, hlt⟩ := hs.ctrlAt i _ hw
      simp only
      rw [rd_of_getElem? hc, bind_ok]
      by_cases hfl : l.2 = "SHUT" ∨ l.2 = "OPEN"
      · rw [(openShutCurrent_iff l.2 c.current _).2 ⟨hfl, rfl⟩, bind_ok, wr_ok hlt, bind_ok, bind_ok]
        have hcur : c.current = ws[i].current := hr.cur
        have r1 := hs.writeCurrent i _ hw c hc (flagged l.2 c.current)
        obtain ⟨i1, i2⟩ := ih _ _ (by simpa using hn) r1
        refine ⟨?_, ?_⟩
        · refine i1.trans ?_
          simp only [List.forall_mem_cons]
          exact ⟨fun h => ⟨⟨List.mem_of_getElem? hi, hfl⟩, h⟩, fun h => h.2⟩
        · intro s' h
          obtain ⟨ws', r', hl', hw'⟩ := i2 s' h
          refine ⟨ws', r', by simpa using hl', ?_⟩
          intro j n w hj hwj
          by_cases hij : i = j
          · subst hij
            rw [hi] at hj
            cases hj
            rw [hw] at hwj
            cases hwj
            rw [hw' i l.1 { ws[i] with current := flagged l.2 c.current } hi (by rw [List.getElem?_set_self (by omega)])]
            unfold flagFold
            rw [List.foldl_cons, if_pos rfl, hcur]
          · have hne : l.1 ≠ n := by
              intro e
              rw [← e] at hj
              have := (hf.index l.1 j).2 hj
              rw [hl] at this
              cases this
              exact hij rfl
            rw [hw' j n w hj (by rw [List.getElem?_set_ne hij]; exact hwj)]
            unfold flagFold
            rw [List.foldl_cons, if_neg hne]
      · have he : ∀ c', openShutCurrent l.2 c.current ≠ .ok c' := fun c' h => hfl ((openShutCurrent_iff _ _ _).1 h).1
        refine ⟨?_, ?_⟩
        · constructor
          · rintro ⟨s', h⟩
            rw [bind_eq_ok] at h
            obtain ⟨_, h, -⟩ := h
            rw [bind_eq_ok] at h
            obtain ⟨_, h, -⟩ := h
            exact absurd h (he _)
          · intro h
            exact absurd (h l (List.mem_cons_self ..)).2 hfl
        · intro s' h
          rw [bind_eq_ok] at h
          obtain ⟨_, h, -⟩ := h
          rw [bind_eq_ok] at h
          obtain ⟨_, h, -⟩ := h
          exact absurd h (he _)

/-! ### The whole deck -/

theorem forall2_zip {pm : Peaceman} {g : Grid} {perm : List Rat} {as : List (CompdatLine × Int)} {ps : List Perf} (h : PerfsOk pm g perm as ps) :
    List.Forall₂ (PerforationOk pm g perm) as ((cellsOf ps).zip (ps.map Perf.wi)) := by
  unfold PerfsOk at h
  induction h with
  | nil => exact List.Forall₂.nil
  | cons h1 _ ih => exact List.Forall₂.cons h1 ih

theorem perfsOk_exists {pm : Peaceman} {g : Grid} {perm : List Rat} {as : List (CompdatLine × Int)} {ps : List Perf} (h : PerfsOk pm g perm as ps) :
    (∀ a ∈ as, ∃ p, PerforationOk pm g perm a p) ∧ ∀ p ∈ ps, p.cell < g.ncells := by
  unfold PerfsOk at h
  induction h with
  | nil => simp
  | cons h1 _ ih =>
    refine ⟨?_, ?_⟩
    · intro x hx
      rcases List.mem_cons.1 hx with rfl | hx
      · exact ⟨_, h1⟩
      · exact ih.1 x hx
    · intro x hx
      rcases List.mem_cons.1 hx with rfl | hx
      · obtain ⟨m, hm, hlt, -⟩ := h1
        simp only [Perf.pair] at hm
        omega
      · exact ih.2 x hx

theorem matches_self (p : String) : Matches p p := by
  unfold Matches
  split
  · exact List.takeWhile_prefix _
  · rfl

/-- The names in the records of `WCONINJE`. -/
abbrev injNamesOf (dk : Deck) : List String := (dk.wconinje.getD []).map WconinjeLine.well
/-- The names in the records of `WCONPROD`. -/
abbrev prodNamesOf (dk : Deck) : List String := (dk.wconprod.getD []).map WconprodLine.well

/-- The type of a well according to the classification. -/
def kindOf (dk : Deck) (n : String) : Option WellType :=
  if n ∈ prodNamesOf dk then some .producer else if n ∈ injNamesOf dk then some .injector else none

theorem build_sound {J : Junk} {pm : Peaceman} {g : Grid} {perm : List Rat} {dk : Deck} {specs : List WelspecsLine} {comp : List CompdatLine} {b : Built}
    (hd : g.dimensions = 3) (hg : g.WellFormed) (h : buildWells J pm g perm dk specs comp = .ok b) :
    ((2 ≤ (activePhases dk).length ∧ Phase.liquid ∈ activePhases dk) ∧ dk.weltarg = false ∧
      (∀ l ∈ comp, ∃ n ∈ declared specs, Matches l.well n) ∧
      (∀ n ∈ declared specs, ∀ a ∈ asked g specs comp n, ∃ p, PerforationOk pm g perm a p) ∧
      (∀ l ∈ dk.wconinje.getD [], l.well ∈ declared specs) ∧ (∀ l ∈ dk.wconprod.getD [], l.well ∈ declared specs) ∧
      (∀ n ∈ declared specs, n ∈ injNamesOf dk ∨ n ∈ prodNamesOf dk) ∧
      (∀ l ∈ dk.wconinje.getD [], InjOk (activePhases dk) l ∧ ∀ n ∈ declared specs, Matches l.well n → n ∉ prodNamesOf dk) ∧
      (∀ l ∈ dk.wconprod.getD [], ProdOk (activePhases dk) l ∧ ∀ n ∈ declared specs, Matches l.well n → n ∈ prodNamesOf dk) ∧
      (∀ l ∈ dk.welopen.getD [], l.1 ∈ declared specs ∧ (l.2 = "SHUT" ∨ l.2 = "OPEN"))) ∧
    b.names = declared specs ∧ b.names.Nodup ∧ (∀ n (i : Nat), b.index.lookup n = some i ↔ b.names[i]? = some n) ∧
    (b.data.length = b.names.length ∧ ∀ (i : Nat) n, b.names[i]? = some n → ∃ d t, b.data[i]? = some d ∧ d.type = some t ∧ kindOf dk n = some t) ∧
    ∃ ws, WRep b.pu.num b.wells ws ∧ ws.length = (declared specs).length ∧ phaseUsageFromDeck dk.water dk.oil dk.gas = .ok b.pu ∧
      ∀ (i : Nat) n w, (declared specs)[i]? = some n → ws[i]? = some w → WellOk pm g perm dk specs comp n w.obs := by
  unfold buildWells at h
  rw [bind_eq_ok] at h
  obtain ⟨pu, hpu, h⟩ := h
  obtain ⟨f, ef, hf⟩ := found_ok specs
  rw [ef, bind_ok, bind_eq_ok] at h
  obtain ⟨perfs, hp, h⟩ := h
  unfold readCompdat at hp
  obtain ⟨ctc, ec, hctc⟩ := cartToCompressed_ok g hg
  rw [ec, bind_ok] at hp
  have hlen : (List.replicate f.data.length ([] : List Perf)).length = f.names.length := by rw [List.length_replicate]; exact hf.len
  obtain ⟨p1, p2, p3⟩ := compdat_sound hd pm perm hctc hf comp _ perfs hlen hp
  rw [bind_eq_ok] at h
  obtain ⟨data, hda, h⟩ := h
  obtain ⟨d1, d2⟩ := setDepths_sound g f.data perfs data (by rw [hf.len, p1]) hda
  obtain ⟨s0, es, rs⟩ := wrep_create J pu.num f.data.length (perfs.map List.length).sum
  rw [es, bind_ok, bind_eq_ok] at h
  obtain ⟨da1, hc1, h⟩ := h
  obtain ⟨c1, c2, c3⟩ := classify_sound hf .injector _ data da1 hc1
  rw [bind_eq_ok] at h
  obtain ⟨da2, hc2, h⟩ := h
  obtain ⟨c4, c5, c6⟩ := classify_sound hf .producer _ da1 da2 hc2
  rw [bind_eq_ok] at h
  obtain ⟨s1, ha, h⟩ := h
  have hnd : f.names.length = da2.length := by rw [c4, c1, d1, hf.len]
  obtain ⟨new, r1, n1, n2⟩ := addAll_sound J f.names da2 perfs s0 s1 [] hnd (by rw [p1]) rs ha
  rw [List.nil_append] at r1
  rw [bind_eq_ok] at h
  obtain ⟨s2, hi, h⟩ := h
  obtain ⟨ws2, r2, l2, w2, q2⟩ := lines_sound (inject_action hpu J) WconinjeLine.well f.names da2 hnd _ s1 s2 new n1.symm r1 hi
  rw [bind_eq_ok] at h
  obtain ⟨s3, hpr, h⟩ := h
  obtain ⟨ws3, r3, l3, w3, q3⟩ := lines_sound (produce_action hpu J) WconprodLine.well f.names da2 hnd _ s2 s3 ws2 (by rw [l2, n1]) r2 hpr
  split at h
  · cases h
  rename_i hwt
  rw [bind_eq_ok] at h
  obtain ⟨s4, ho, h⟩ := h
  cases h
  obtain ⟨o1, o2⟩ := welopen_iff hf (dk.welopen.getD []) s3 ws3 (by rw [l3, l2, n1]) r3
  obtain ⟨ws4, r4, l4, w4⟩ := o2 s4 ho
  obtain ⟨u1, -, u3, u4, -, -, -, -⟩ := pu_cases hpu
  -- one well
  have well : ∀ (i : Nat) n, f.names[i]? = some n → ∃ d ps t, f.data[i]? = some d ∧ perfs[i]? = some ps ∧ PerfsOk pm g perm (asked g specs comp n) ps ∧
      kindOf dk n = some t ∧ (∃ z l, lastSpec specs n = some l ∧ DepthOk g l (cellsOf ps) z ∧ new[i]? = some (freshWell pu.num n t z ps) ∧
        da2[i]? = some ⟨some t, z, d.line⟩) := by
    intro i n hn
    have hil := (List.getElem?_eq_some_iff.1 hn).1
    obtain ⟨ps, e1, e2⟩ := p3 i n [] hn (by rw [List.getElem?_replicate, if_pos (by rw [hf.len]; exact hil)])
    rw [List.nil_append] at e1
    obtain ⟨d, l, f1, f2, f3, f4, f5⟩ := hf.data i n hn
    obtain ⟨z, z1, z2⟩ := d2 i d ps f1 e1
    have a1 := c3 i n _ hn z2
    have a2 := c6 i n _ hn a1
    obtain ⟨t, t1, t2⟩ := n2 i n _ ps hn a2 e1
    simp only at t1 t2 a2
    refine ⟨d, ps, t, f1, e1, e2, ?_, z, l, f4, finalDepth_spec g d l f5 ps z z1, t2, ?_⟩
    · unfold kindOf
      rw [← t1, f2]
    · rw [a2, ← t1]
  have hmem : ∀ n ∈ declared specs, ∃ i : Nat, f.names[i]? = some n := by
    intro n hn
    rw [← hf.names] at hn
    exact List.getElem?_of_mem hn
  have q2' : ∀ l ∈ dk.wconinje.getD [], InjOk (activePhases dk) l ∧ ∀ n ∈ declared specs, Matches l.well n → n ∉ prodNamesOf dk := by
    intro l hl
    obtain ⟨-, k2, k3⟩ := q2 l hl
    refine ⟨k2, ?_⟩
    intro n hn hm hnot
    obtain ⟨i, hi⟩ := hmem n hn
    obtain ⟨d, ps, t, -, -, -, hk, z, ll, -, -, hnew, hda⟩ := well i n hi
    have := (k3 i n _ _ hi hda hnew hm).2
    unfold kindOf at hk
    rw [if_pos hnot] at hk
    cases hk
    cases this
  have q3' : ∀ l ∈ dk.wconprod.getD [], ProdOk (activePhases dk) l ∧ ∀ n ∈ declared specs, Matches l.well n → n ∈ prodNamesOf dk := by
    intro l hl
    obtain ⟨-, k2, k3⟩ := q3 l hl
    refine ⟨k2, ?_⟩
    intro n hn hm
    obtain ⟨i, hi⟩ := hmem n hn
    obtain ⟨d, ps, t, -, -, -, hk, z, ll, -, -, hnew, hda⟩ := well i n hi
    have := (k3 i n _ _ hi hda (w2 i n _ hi hnew) hm).1
    by_contra hnot
    unfold kindOf at hk
    rw [if_neg hnot] at hk
    split at hk
    · cases hk
      have h2 := (k3 i n _ _ hi hda (w2 i n _ hi hnew) hm).2
      rw [h2] at this
      cases this
    · cases hk
  refine ⟨⟨⟨by rw [← u1]; exact u3, u4⟩, by simpa using hwt, p2, ?_, ?_, ?_, ?_, q2', q3', ?_⟩, hf.names, hf.nodup, hf.index, ⟨hnd.symm, fun i n hn => by
    obtain ⟨d, ps, t, -, -, -, hk, z, l, -, -, -, hd⟩ := well i n hn
    exact ⟨_, t, hd, rfl, hk⟩⟩, ws4, r4, ?_, hpu, ?_⟩
  · intro n hn
    obtain ⟨i, hi⟩ := hmem n hn
    obtain ⟨d, ps, t, -, -, hps, -⟩ := well i n hi
    exact (perfsOk_exists hps).1
  · intro l hl
    exact c2 _ (List.mem_map.2 ⟨l, hl, rfl⟩)
  · intro l hl
    exact c5 _ (List.mem_map.2 ⟨l, hl, rfl⟩)
  · intro n hn
    obtain ⟨i, hi⟩ := hmem n hn
    obtain ⟨d, ps, t, -, -, -, hk, -⟩ := well i n hi
    unfold kindOf at hk
    split at hk
    · right; assumption
    · split at hk
      · left; assumption
      · cases hk
  · have := o1.1 ⟨s4, ho⟩
    rw [hf.names] at this
    exact this
  · rw [l4, l3, l2, n1, hf.names]
  · intro i n w hn hw
    rw [← hf.names] at hn
    obtain ⟨d, ps, t, -, hpi, hps, hk, z, l, hl, hz, hnew, hda⟩ := well i n hn
    have e2 := w2 i n _ hn hnew
    have e3 := w3 i n _ hn e2
    have e4 := w4 i n _ hn e3
    rw [hw] at e4
    cases e4
    have hdecl : n ∈ declared specs := by rw [← hf.names]; exact List.mem_of_getElem? hn
    have same := (lineFold_same (well := WconinjeLine.well) (inject_action hpu J).same (dk.wconinje.getD []) n (freshWell pu.num n t z ps)).trans'
      (lineFold_same (well := WconprodLine.well) (produce_action hpu J).same (dk.wconprod.getD []) n _)
    obtain ⟨a1, a2, a3, a4, a5⟩ := same
    refine ⟨?_, ⟨l, hl, ?_⟩, ?_, ?_, ?_⟩
    · exact a5
    · change DepthOk g l (lineFold _ _ _ _ _).cells (lineFold _ _ _ _ _).depth
      rw [a3, a2]
      exact hz
    · change (lineFold _ _ _ _ _).wi.length = (lineFold _ _ _ _ _).cells.length
      rw [a3, a4]
      simp [freshWell, newWell, cellsOf]
    · change List.Forall₂ _ _ ((lineFold _ _ _ _ _).cells.zip (lineFold _ _ _ _ _).wi)
      rw [a3, a4]
      exact forall2_zip hps
    · have hnoinj : t = .producer → ∀ x ∈ dk.wconinje.getD [], ¬Matches x.well n := by
        rintro rfl x hx hm
        refine (q2' x hx).2 n hdecl hm ?_
        unfold kindOf at hk
        split at hk
        · assumption
        · split at hk <;> cases hk
      have hnoprod : t = .injector → n ∉ prodNamesOf dk := by
        rintro rfl hm
        unfold kindOf at hk
        rw [if_pos hm] at hk
        cases hk
      cases t with
      | producer =>
        right
        have hpn : n ∈ prodNamesOf dk := by
          unfold kindOf at hk
          split at hk
          · assumption
          · split at hk <;> cases hk
        refine ⟨a1, ?_⟩
        have einj : lineFold WconinjeLine.well (injectedWell (activePhases dk)) (dk.wconinje.getD []) n (freshWell pu.num n .producer z ps) =
            freshWell pu.num n .producer z ps := by
          rcases lineFold_cases WconinjeLine.well (injectedWell (activePhases dk)) (fun _ => True) (fun _ _ _ => trivial) (dk.wconinje.getD []) n
            (freshWell pu.num n .producer z ps) trivial with ⟨-, e⟩ | ⟨x, w0, ⟨a, b, hab, hm, -⟩, -, -⟩
          · exact e
          · exact absurd hm (hnoinj rfl x (by rw [hab]; simp))
        rw [einj]
        rcases lineFold_cases WconprodLine.well (producedWell (activePhases dk)) (fun w => w.comp = (activePhases dk).map (fun _ => 0))
          (fun l w hw => by rw [← hw]; exact (withLimits_same _ w _).2) (dk.wconprod.getD []) n (freshWell pu.num n .producer z ps)
          (by simp [freshWell, newWell, u1, List.map_const']) with ⟨hno, -⟩ | ⟨x, w0, hlast, hcomp, e⟩
        · exfalso
          obtain ⟨x, hx, hxn⟩ := List.mem_map.1 hpn
          exact hno x hx (by rw [hxn]; exact matches_self n)
        · refine ⟨x, hlast, ?_, ?_, ?_⟩
          · exact withLimits_obs (activePhases dk).length w0 _ _ (by rw [e]; rfl) (by rw [e]; rfl)
          · change OperatesOn dk n _ _ _ (flagFold (dk.welopen.getD []) n (lineFold _ _ _ _ _).current)
            rw [e]
            obtain ⟨a, b, hab, -, -⟩ := hlast
            exact operates (q3' x (by rw [hab]; simp)).1.mode
          · change (lineFold _ _ _ _ _).comp = _
            rw [e, ← hcomp]
            exact (withLimits_same _ w0 _).2
      | injector =>
        left
        have hin : n ∈ injNamesOf dk := by
          unfold kindOf at hk
          split at hk
          · cases hk
          · split at hk
            · assumption
            · cases hk
        refine ⟨a1, hnoprod rfl, ?_⟩
        have eprod : ∀ w, lineFold WconprodLine.well (producedWell (activePhases dk)) (dk.wconprod.getD []) n w = w := by
          intro w
          rcases lineFold_cases WconprodLine.well (producedWell (activePhases dk)) (fun _ => True) (fun _ _ _ => trivial) (dk.wconprod.getD []) n
            w trivial with ⟨-, e⟩ | ⟨x, w0, ⟨a, b, hab, hm, -⟩, -, -⟩
          · exact e
          · exact absurd ((q3' x (by rw [hab]; simp)).2 n hdecl hm) (hnoprod rfl)
        rw [eprod]
        rcases lineFold_cases WconinjeLine.well (injectedWell (activePhases dk)) (fun _ => True) (fun _ _ _ => trivial) (dk.wconinje.getD []) n
          (freshWell pu.num n .injector z ps) trivial with ⟨hno, -⟩ | ⟨x, w0, hlast, -, e⟩
        · exfalso
          obtain ⟨x, hx, hxn⟩ := List.mem_map.1 hin
          exact hno x hx (by rw [hxn]; exact matches_self n)
        · refine ⟨x, hlast, ?_, ?_, ?_⟩
          · exact withLimits_obs (activePhases dk).length w0 _ _ (by rw [e]; rfl) (by rw [e]; rfl)
          · change OperatesOn dk n _ _ _ (flagFold (dk.welopen.getD []) n (lineFold _ _ _ _ _).current)
            rw [e]
            obtain ⟨a, b, hab, -, -⟩ := hlast
            exact operates (q2' x (by rw [hab]; simp)).1.mode
          · change (lineFold _ _ _ _ _).comp = _
            rw [e]
            rfl

theorem build_ok {pm : Peaceman} {g : Grid} {perm : List Rat} {dk : Deck} {specs : List WelspecsLine} {comp : List CompdatLine}
    (hg : g.WellFormed) (h : Acceptable pm g perm dk specs comp) (J : Junk) : ∃ b, buildWells J pm g perm dk specs comp = .ok b := by
  have hd := h.dims
  obtain ⟨pu, hpu⟩ := pu_ok dk h.phases.1 h.phases.2
  obtain ⟨f, ef, hf⟩ := found_ok specs
  obtain ⟨ctc, ec, hctc⟩ := cartToCompressed_ok g hg
  have hlen : (List.replicate f.data.length ([] : List Perf)).length = f.names.length := by rw [List.length_replicate]; exact hf.len
  obtain ⟨perfs, hp⟩ := compdat_complete hd pm perm hctc hf comp _ hlen h.named h.perfs
  obtain ⟨p1, p2, p3⟩ := compdat_sound hd pm perm hctc hf comp _ perfs hlen hp
  have hcells : ∀ ps ∈ perfs, ∀ p ∈ ps, p.cell < g.ncells := by
    intro ps hps
    obtain ⟨i, hi⟩ := List.getElem?_of_mem hps
    have hil := (List.getElem?_eq_some_iff.1 hi).1
    obtain ⟨new, e1, e2⟩ := p3 i f.names[i] [] (List.getElem?_eq_getElem (by omega)) (by rw [List.getElem?_replicate, if_pos (by rw [hf.len]; omega)])
    rw [hi, List.nil_append] at e1
    cases e1
    exact (perfsOk_exists e2).2
  obtain ⟨data, hda⟩ := setDepths_ok g hg f.data perfs hcells
  obtain ⟨d1, d2⟩ := setDepths_sound g f.data perfs data (by rw [hf.len, p1]) hda
  obtain ⟨s0, es, rs⟩ := wrep_create J pu.num f.data.length (perfs.map List.length).sum
  obtain ⟨da1, hc1⟩ := classify_ok hf .injector (injNamesOf dk) data (by rw [d1, hf.len]) (by
    intro n hn
    obtain ⟨l, hl, rfl⟩ := List.mem_map.1 hn
    exact h.injNames l hl)
  obtain ⟨c1, c2, c3⟩ := classify_sound hf .injector _ data da1 hc1
  obtain ⟨da2, hc2⟩ := classify_ok hf .producer (prodNamesOf dk) da1 (by rw [c1, d1, hf.len]) (by
    intro n hn
    obtain ⟨l, hl, rfl⟩ := List.mem_map.1 hn
    exact h.prodNames l hl)
  obtain ⟨c4, c5, c6⟩ := classify_sound hf .producer _ da1 da2 hc2
  have hnd : f.names.length = da2.length := by rw [c4, c1, d1, hf.len]
  have kinds : ∀ (i : Nat) n, f.names[i]? = some n → ∃ d, da2[i]? = some d ∧ d.type = kindOf dk n := by
    intro i n hn
    have hil := (List.getElem?_eq_some_iff.1 hn).1
    obtain ⟨d, l, f1, f2, -⟩ := hf.data i n hn
    obtain ⟨z, -, z2⟩ := d2 i d perfs[i] f1 (List.getElem?_eq_getElem (by omega))
    refine ⟨_, c6 i n _ hn (c3 i n _ hn z2), ?_⟩
    unfold kindOf
    simp only [f2]
  have hkind : ∀ n ∈ declared specs, kindOf dk n ≠ none := by
    intro n hn
    unfold kindOf
    rcases h.typed n hn with k | k
    · by_cases hp : n ∈ prodNamesOf dk
      · rw [if_pos hp]; simp
      · rw [if_neg hp, if_pos k]; simp
    · rw [if_pos k]; simp
  obtain ⟨s1, ha⟩ := addAll_ok J f.names da2 perfs s0 [] rs (by
    intro d hdm
    obtain ⟨i, hi⟩ := List.getElem?_of_mem hdm
    have hil := (List.getElem?_eq_some_iff.1 hi).1
    obtain ⟨d', e1, e2⟩ := kinds i f.names[i] (List.getElem?_eq_getElem (by omega))
    rw [hi] at e1
    cases e1
    rw [e2]
    exact hkind _ (by rw [← hf.names]; exact List.getElem_mem _))
  obtain ⟨new, r1, n1, n2⟩ := addAll_sound J f.names da2 perfs s0 s1 [] hnd (by rw [p1]) rs ha
  rw [List.nil_append] at r1
  have wtype : ∀ (i : Nat) n d w, f.names[i]? = some n → da2[i]? = some d → new[i]? = some w → d.type = some w.type ∧ d.type = kindOf dk n := by
    intro i n d w hn hdi hw
    have hil := (List.getElem?_eq_some_iff.1 hn).1
    obtain ⟨t, t1, t2⟩ := n2 i n d perfs[i] hn hdi (List.getElem?_eq_getElem (by omega))
    rw [hw] at t2
    cases t2
    obtain ⟨d', e1, e2⟩ := kinds i n hn
    rw [hdi] at e1
    cases e1
    exact ⟨t1, e2⟩
  have hin : ∀ (i : Nat) n, f.names[i]? = some n → n ∈ declared specs := by
    intro i n hn
    rw [← hf.names]; exact List.mem_of_getElem? hn
  obtain ⟨s2, hi⟩ := lines_ok (inject_action hpu J) WconinjeLine.well f.names da2 hnd (dk.wconinje.getD []) s1 new n1.symm r1 (by
    intro l hl
    obtain ⟨k1, k2⟩ := h.injLines l hl
    refine ⟨⟨l.well, by rw [hf.names]; exact h.injNames l hl, matches_self _⟩, k1, ?_⟩
    intro i n d w a1 a2 a3 a4
    obtain ⟨b1, b2⟩ := wtype i n d w a1 a2 a3
    refine ⟨b1, ?_⟩
    have hne := k2 n (hin i n a1) a4
    have hk := hkind n (hin i n a1)
    rw [b1] at b2
    unfold kindOf at b2 hk
    rw [if_neg hne] at b2 hk
    split at b2
    · simpa using b2
    · cases b2)
  obtain ⟨ws2, r2, l2, w2, q2⟩ := lines_sound (inject_action hpu J) WconinjeLine.well f.names da2 hnd _ s1 s2 new n1.symm r1 hi
  obtain ⟨s3, hpr⟩ := lines_ok (produce_action hpu J) WconprodLine.well f.names da2 hnd (dk.wconprod.getD []) s2 ws2 (by rw [l2, n1]) r2 (by
    intro l hl
    obtain ⟨k1, k2⟩ := h.prodLines l hl
    refine ⟨⟨l.well, by rw [hf.names]; exact h.prodNames l hl, matches_self _⟩, k1, ?_⟩
    intro i n d w a1 a2 a3 a4
    have hil := (List.getElem?_eq_some_iff.1 a1).1
    have hnw : new[i]? = some new[i] := List.getElem?_eq_getElem (by omega)
    obtain ⟨b1, b2⟩ := wtype i n d _ a1 a2 hnw
    rw [w2 i n _ a1 hnw] at a3
    cases a3
    rw [(lineFold_same (well := WconinjeLine.well) (inject_action hpu J).same (dk.wconinje.getD []) n new[i]).1]
    refine ⟨b1, ?_⟩
    have hne := k2 n (hin i n a1) a4
    rw [b1] at b2
    unfold kindOf at b2
    rw [if_pos hne] at b2
    simpa using b2)
  obtain ⟨ws3, r3, l3, w3, q3⟩ := lines_sound (produce_action hpu J) WconprodLine.well f.names da2 hnd _ s2 s3 ws2 (by rw [l2, n1]) r2 hpr
  obtain ⟨o1, -⟩ := welopen_iff hf (dk.welopen.getD []) s3 ws3 (by rw [l3, l2, n1]) r3
  obtain ⟨s4, ho⟩ := o1.2 (by rw [hf.names]; exact h.opens)
  refine ⟨⟨pu, f.names, da2, f.index, s4⟩, ?_⟩
  unfold buildWells readCompdat readWconinje readWconprod
  rw [hpu, bind_ok, ef, bind_ok, ec, bind_ok, hp, bind_ok, hda, bind_ok, es, bind_ok, hc1, bind_ok, hc2, bind_ok, ha, bind_ok, hi, bind_ok, hpr, bind_ok,
    h.weltarg, if_neg (by simp), ho, bind_ok]

end Opm.Manager
