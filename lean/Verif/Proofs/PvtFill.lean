import Verif.Proofs.PvtOil
/-! # Proofs about live oil: filling up the undersaturated tables -/

namespace Opm.Pvt
open Opm Opm.Interp

theorem back_append (l : List Rat) (a : Rat) : back (l ++ [a]) = .ok a := by
  unfold back
  exact rd_of_getElem? (by simp)

theorem back_ok {l : List Rat} (h : 1 ≤ l.length) : ∃ a, back l = .ok a ∧ l[l.length - 1]? = some a :=
  ⟨l[l.length - 1]'(by omega), rd_of_getElem? (List.getElem?_eq_getElem (by omega)), List.getElem?_eq_getElem (by omega)⟩

theorem spaced_append {P : List Rat} {l x : Rat} (h : P.Pairwise (fun a b => a + 1 < b)) (hl : P[P.length - 1]? = some l) (hx : l + 1 < x) : (P ++ [x]).Pairwise (fun a b => a + 1 < b) := by
  rw [List.pairwise_append]
  refine ⟨h, List.pairwise_singleton _ _, fun a ha b hb => ?_⟩
  simp at hb
  subst hb
  obtain ⟨i, hi, rfl⟩ := List.getElem_of_mem ha
  rcases Nat.lt_or_ge i (P.length - 1) with h1 | h1
  · have := spaced_lt h h1 (List.getElem?_eq_getElem hi) hl
    linarith
  · have e : i = P.length - 1 := by omega
    subst e
    rw [List.getElem?_eq_getElem (by omega)] at hl
    rw [Option.some.inj hl]
    exact hx

theorem mono_append {P : List Rat} {l x : Rat} (h : P.Pairwise (· ≤ ·)) (hl : P[P.length - 1]? = some l) (hx : l ≤ x) : (P ++ [x]).Pairwise (· ≤ ·) := by
  rw [List.pairwise_append]
  refine ⟨h, List.pairwise_singleton _ _, fun a ha b hb => ?_⟩
  simp at hb
  subst hb
  obtain ⟨i, hi, rfl⟩ := List.getElem_of_mem ha
  exact le_trans (mono_le h (show i ≤ P.length - 1 by omega) (List.getElem?_eq_getElem hi) hl) hx

/-- What the loop over rows relies on: the next table, and the previous one if there is any, have at least two rows; the factor of the mean is between 0 and 1. -/
structure Around (Mon : Kind) (under : List (List (List Rat))) (rs : List Rat) (iPrev : Int) (iNext i : Nat) (tp tn : List (List Rat)) (Pp Bp Vp Pn Bn Vn : List Rat) : Prop where
  hn : under[iNext]? = some tn
  gn : GoodTab Mon tn Pn Bn Vn
  n2 : 2 ≤ Pn.length
  hp : 0 ≤ iPrev → under[iPrev.toNat]? = some tp ∧ GoodTab Mon tp Pp Bp Vp ∧ 2 ≤ Pp.length
  hw : 0 ≤ iPrev → ∃ a b c, rs[i]? = some a ∧ rs[iPrev.toNat]? = some b ∧ rs[iNext]? = some c ∧ b < a ∧ a < c

/-- State of the loop over rows. -/
structure RowInv (Mon : Kind) (iPrev : Int) (Pp Pn : List Rat) (s : FillState) (P B V : List Rat) (l : Rat) : Prop where
  g : GoodTab Mon s.table P B V
  back : P[P.length - 1]? = some l
  next : s.flagNext = true → ∀ x, Pn[Pn.length - 1]? = some x → l + 1 < x
  prev : s.flagPrev = true → 0 ≤ iPrev ∧ (s.flagNext = true ∨ ∀ x, Pp[Pp.length - 1]? = some x → l + 1 < x)
  pos : Mon.mon → 0 ≤ s.prevB ∧ 0 ≤ s.prevV ∧ 0 ≤ s.nextB ∧ 0 ≤ s.nextV

theorem slopes_ok {Mon : Kind} {under : List (List (List Rat))} {rs : List Rat} {iPrev : Int} {iNext i : Nat} {tp tn : List (List Rat)} {Pp Bp Vp Pn Bn Vn : List Rat}
    (a : Around Mon under rs iPrev iNext i tp tn Pp Bp Vp Pn Bn Vn) (s : FillState) :
    ∃ sb sv, slopes rs iPrev iNext i s = .ok (sb, sv) ∧ (0 ≤ s.prevB → 0 ≤ s.prevV → 0 ≤ s.nextB → 0 ≤ s.nextV → 0 ≤ sb ∧ 0 ≤ sv) := by
  unfold slopes
  by_cases h : 0 ≤ iPrev
  · obtain ⟨x, y, z, hx, hy, hz, h1, h2⟩ := a.hw h
    rw [if_pos h, rd_of_getElem? hx, bind_ok]
    rw [show iPrev = ((iPrev.toNat : Nat) : Int) by omega, rdI_natCast]
    rw [rd_of_getElem? hy, bind_ok, rd_of_getElem? hz, bind_ok, fdiv_ok (by linarith), bind_ok]
    have w0 : 0 ≤ (x - y) / (z - y) := div_nonneg (by linarith) (by linarith)
    have w1 : (x - y) / (z - y) ≤ 1 := by rw [div_le_one (by linarith)]; linarith
    exact ⟨_, _, rfl, fun p1 p2 p3 p4 => ⟨by nlinarith [mul_nonneg w0 p3, mul_nonneg (sub_nonneg.2 w1) p1], by nlinarith [mul_nonneg w0 p4, mul_nonneg (sub_nonneg.2 w1) p2]⟩⟩
  · rw [if_neg h]
    exact ⟨_, _, rfl, fun _ _ p3 p4 => ⟨p3, p4⟩⟩

/-- The end of `fillRow`. -/
def addRow (s : FillState) (pressure0 pressure : Rat) (sl : Rat × Rat) : M FillState := do
  let dP := pressure - pressure0
  let t ← pushCol s.table 0 (pressure0 + dP)
  let b ← rd t 1
  let bl ← back b
  let t ← pushCol t 1 (bl + dP * sl.1)
  let v ← rd t 2
  let vl ← back v
  let t ← pushCol t 2 (vl + dP * sl.2)
  .ok { s with table := t }

theorem fillRow_eq (under : List (List (List Rat))) (rs : List Rat) (iPrev : Int) (iNext i : Nat) (s : FillState) : fillRow under rs iPrev iNext i s = (do
    let ps ← rd s.table 0
    let pressure0 ← back ps
    let a ← lookPrev under iPrev pressure0 s
    let c ← lookNext under iNext pressure0 a
    let sl ← slopes rs iPrev iNext i c.1
    addRow c.1 pressure0 c.2 sl) := rfl

theorem addRow_ok {Mon : Kind} {s : FillState} {P B V : List Rat} (g : GoodTab Mon s.table P B V) {l x sb sv : Rat} (hl : P[P.length - 1]? = some l) (hx : l + 1 < x) (hsrc : Mon.src x) (hs : Mon.mon → 0 ≤ sb ∧ 0 ≤ sv) :
    ∃ s' B' V', addRow s l x (sb, sv) = .ok s' ∧ s'.flagPrev = s.flagPrev ∧ s'.flagNext = s.flagNext ∧ s'.prevB = s.prevB ∧ s'.prevV = s.prevV ∧ s'.nextB = s.nextB ∧ s'.nextV = s.nextV ∧
      GoodTab Mon s'.table (P ++ [x]) (B ++ B') (V ++ V') := by
  obtain ⟨bl, hbl, hbl'⟩ := back_ok (l := B) (by rw [g.lenB]; exact g.ne)
  obtain ⟨vl, hvl, hvl'⟩ := back_ok (l := V) (by rw [g.lenV]; exact g.ne)
  refine ⟨{ s with table := [P ++ [x], B ++ [bl + (x - l) * sb], V ++ [vl + (x - l) * sv]] }, [bl + (x - l) * sb], [vl + (x - l) * sv], ?_, rfl, rfl, rfl, rfl, rfl, rfl, ?_⟩
  · unfold addRow pushCol
    rw [g.eq]
    dsimp only
    rw [show l + (x - l) = x by ring]
    rw [show rd [P, B, V] 0 = .ok P from rfl, bind_ok, show wr [P, B, V] 0 (P ++ [x]) = .ok [P ++ [x], B, V] from rfl, bind_ok, show rd [P ++ [x], B, V] 1 = .ok B from rfl, bind_ok, hbl, bind_ok, bind_ok,
      show wr [P ++ [x], B, V] 1 (B ++ [bl + (x - l) * sb]) = .ok [P ++ [x], B ++ [bl + (x - l) * sb], V] from rfl, bind_ok, show rd [P ++ [x], B ++ [bl + (x - l) * sb], V] 2 = .ok V from rfl, bind_ok, hvl, bind_ok,
      bind_ok, show wr [P ++ [x], B ++ [bl + (x - l) * sb], V] 2 (V ++ [vl + (x - l) * sv]) = .ok [P ++ [x], B ++ [bl + (x - l) * sb], V ++ [vl + (x - l) * sv]] from rfl, bind_ok]
  · refine ⟨rfl, by simp [g.lenB], by simp [g.lenV], by simp, spaced_append g.inc hl hx, fun y hy => ?_, fun hm => ?_⟩
    · rcases List.mem_append.1 hy with h | h
      · exact g.from' y h
      · simp at h; subst h; exact hsrc
    obtain ⟨h1, h2⟩ := hs hm
    have hd : 0 ≤ x - l := by linarith
    exact ⟨mono_append (g.mon hm).1 hbl' (by have := mul_nonneg hd h1; linarith), mono_append (g.mon hm).2 hvl' (by have := mul_nonneg hd h2; linarith)⟩

/-- One more row: still an invariant, and fewer pressures are left in the neighbours. -/
theorem fillRow_ok {Mon : Kind} {under : List (List (List Rat))} {rs : List Rat} {iPrev : Int} {iNext i : Nat} {tp tn : List (List Rat)} {Pp Bp Vp Pn Bn Vn : List Rat}
    (a : Around Mon under rs iPrev iNext i tp tn Pp Bp Vp Pn Bn Vn) {s : FillState} {P B V : List Rat} {l : Rat} (h : RowInv Mon iPrev Pp Pn s P B V l) (hgo : (s.flagPrev || s.flagNext) = true) :
    ∃ s' x B' V', fillRow under rs iPrev iNext i s = .ok s' ∧ RowInv Mon iPrev Pp Pn s' (P ++ [x]) (B ++ B') (V ++ V') x ∧ beyond Pp x + beyond Pn x < beyond Pp l + beyond Pn l := by
  -- the previous table
  obtain ⟨s1, p1, e1, n1, t1, pos1, c1, d1⟩ : ∃ s1 p1, lookPrev under iPrev l s = .ok (s1, p1) ∧ s1.flagNext = s.flagNext ∧ s1.table = s.table ∧ (Mon.mon → 0 ≤ s1.prevB ∧ 0 ≤ s1.prevV ∧ 0 ≤ s1.nextB ∧ 0 ≤ s1.nextV) ∧
      (s1.flagPrev = true → s.flagPrev = true ∧ (∀ x, Pp[Pp.length - 1]? = some x → p1 + 1 < x) ∧ Mon.src p1 ∧ l + 1 < p1 ∧ ∀ y, p1 ≤ y → beyond Pp y < beyond Pp l) ∧
      (s.flagNext = false → Mon.src p1 ∧ l + 1 < p1 ∧ ∀ y, p1 ≤ y → beyond Pp y < beyond Pp l) := by
    unfold lookPrev
    by_cases hf : s.flagPrev = true
    · obtain ⟨hi, hor⟩ := h.prev hf
      obtain ⟨hp, gp, p2⟩ := a.hp hi
      obtain ⟨k, p, sb, sv, en, k1, kp, ka, kb, km⟩ := neighbour_ok gp p2 l
      rw [if_pos hf, show iPrev = ((iPrev.toNat : Nat) : Int) by omega, rdI_natCast, rd_of_getElem? hp, bind_ok, en, bind_ok]
      have key : upperBound Pp (l + 1) ≤ k → Mon.src p ∧ l + 1 < p ∧ ∀ y, p ≤ y → beyond Pp y < beyond Pp l := fun hu => ⟨gp.from' p (List.mem_of_getElem? kp), after_ub gp.inc hu kp, fun y hy => beyond_lt gp.inc hu kp hy⟩
      refine ⟨_, _, rfl, rfl, rfl, fun hm => ⟨(km hm).1, (km hm).2, (h.pos hm).2.2⟩, fun hl => ?_, fun hn => ?_⟩
      · have hk : k + 1 ≠ Pp.length := by simpa using hl
        have hkl := (List.getElem?_eq_some_iff.1 kp).1
        exact ⟨hf, fun x hx => spaced_lt gp.inc (by omega) kp hx, key (ka (by omega))⟩
      · rcases hor with h1 | h1
        · rw [hn] at h1; cases h1
        · exact key (kb h1)
    · rw [if_neg hf]
      refine ⟨_, _, rfl, rfl, rfl, h.pos, fun h1 => absurd h1 hf, fun hn => ?_⟩
      rw [hn] at hgo
      simp at hgo
      exact absurd hgo hf
  -- the next table
  obtain ⟨s2, x, e2, t2, pos2, hsrc, hx, hdec, c2, d2⟩ : ∃ s2 x, lookNext under iNext l (s1, p1) = .ok (s2, x) ∧ s2.table = s.table ∧ (Mon.mon → 0 ≤ s2.prevB ∧ 0 ≤ s2.prevV ∧ 0 ≤ s2.nextB ∧ 0 ≤ s2.nextV) ∧
      Mon.src x ∧ l + 1 < x ∧ (beyond Pp x < beyond Pp l ∨ beyond Pn x < beyond Pn l) ∧ (s2.flagNext = true → ∀ y, Pn[Pn.length - 1]? = some y → x + 1 < y) ∧
      (s2.flagPrev = true → 0 ≤ iPrev ∧ ∀ y, Pp[Pp.length - 1]? = some y → x + 1 < y) := by
    unfold lookNext
    by_cases hf : s.flagNext = true
    · obtain ⟨k, p, sb, sv, en, k1, kp, ka, kb, km⟩ := neighbour_ok a.gn a.n2 l
      have hu := kb (h.next hf)
      have hlp := after_ub a.gn.inc hu kp
      have hkl := (List.getElem?_eq_some_iff.1 kp).1
      rw [if_pos (by rw [n1]; exact hf), rd_of_getElem? a.hn, bind_ok, en, bind_ok]
      by_cases hfp : s1.flagPrev = true
      · have hsp := a.gn.from' p (List.mem_of_getElem? kp)
        obtain ⟨b1, b2, bs, b3, b4⟩ := c1 hfp
        refine ⟨_, _, rfl, t1, fun hm => ⟨(pos1 hm).1, (pos1 hm).2.1, km hm⟩, ?_, ?_, ?_, fun hl y hy => ?_, fun hl => ⟨(h.prev b1).1, fun y hy => ?_⟩⟩
        · rw [if_pos hfp]
          rcases min_choice p1 p with q | q
          · rw [q]; exact bs
          · rw [q]; exact hsp
        · rw [if_pos hfp]; exact lt_min b3 hlp
        · rw [if_pos hfp]
          rcases le_total p1 p with q | q
          · rw [min_eq_left q]; exact Or.inl (b4 _ (le_refl _))
          · rw [min_eq_right q]; exact Or.inr (beyond_lt a.gn.inc hu kp (le_refl _))
        · rw [if_pos hfp]
          have hk : k + 1 ≠ Pn.length := by simpa using hl
          have := spaced_lt a.gn.inc (show k < Pn.length - 1 by omega) kp hy
          have := min_le_right p1 p
          linarith
        · rw [if_pos hfp]
          have := b2 y hy
          have := min_le_left p1 p
          linarith
      · refine ⟨_, _, rfl, t1, fun hm => ⟨(pos1 hm).1, (pos1 hm).2.1, km hm⟩, ?_, ?_, ?_, fun hl y hy => ?_, fun hl => absurd hl hfp⟩
        · rw [if_neg hfp]; exact a.gn.from' p (List.mem_of_getElem? kp)
        · rw [if_neg hfp]; exact hlp
        · rw [if_neg hfp]; exact Or.inr (beyond_lt a.gn.inc hu kp (le_refl _))
        · rw [if_neg hfp]
          have hk : k + 1 ≠ Pn.length := by simpa using hl
          exact spaced_lt a.gn.inc (show k < Pn.length - 1 by omega) kp hy
    · have hn : s.flagNext = false := by simpa using hf
      obtain ⟨bs, b1, b2⟩ := d1 hn
      rw [if_neg (by rw [n1]; exact hf)]
      exact ⟨_, _, rfl, t1, pos1, bs, b1, Or.inl (b2 _ (le_refl _)), fun hl => absurd (n1 ▸ hl) hf, fun hl => ⟨(h.prev (c1 hl).1).1, (c1 hl).2.1⟩⟩
  obtain ⟨sb, sv, e3, hpos⟩ := slopes_ok a s2
  obtain ⟨s', B', V', e4, f1, f2, f3, f4, f5, f6, g'⟩ := addRow_ok (s := s2) (P := P) (B := B) (V := V) (by rw [t2]; exact h.g) (sb := sb) (sv := sv) h.back hx hsrc
    (fun hm => by obtain ⟨q1, q2, q3, q4⟩ := pos2 hm; exact hpos q1 q2 q3 q4)
  refine ⟨s', x, B', V', ?_, ⟨g', by simp, fun hl => c2 (f2 ▸ hl), fun hl => ⟨(d2 (f1 ▸ hl)).1, Or.inr (d2 (f1 ▸ hl)).2⟩, fun hm => by rw [f3, f4, f5, f6]; exact pos2 hm⟩, ?_⟩
  · rw [fillRow_eq]
    rw [h.g.eq, show rd [P, B, V] 0 = .ok P from rfl, bind_ok, show back P = .ok l from rd_of_getElem? h.back, bind_ok, e1, bind_ok, e2, bind_ok, e3, bind_ok, e4]
  · have a1 := beyond_anti (P := Pp) (show l ≤ x by linarith)
    have a2 := beyond_anti (P := Pn) (show l ≤ x by linarith)
    rcases hdec with h1 | h1 <;> omega

/-- The loop over rows ends, whatever the fuel beyond some bound, and only appends rows; at least one if it starts with a flag. -/
theorem fillLoop_ok {Mon : Kind} {under : List (List (List Rat))} {rs : List Rat} {iPrev : Int} {iNext i : Nat} {tp tn : List (List Rat)} {Pp Bp Vp Pn Bn Vn : List Rat}
    (a : Around Mon under rs iPrev iNext i tp tn Pp Bp Vp Pn Bn Vn) : ∀ (m : Nat) {s : FillState} {P B V : List Rat} {l : Rat}, RowInv Mon iPrev Pp Pn s P B V l → beyond Pp l + beyond Pn l ≤ m →
    ∃ r P' B' V', (∀ fuel, m < fuel → fillLoop under rs iPrev iNext i fuel s = .ok r) ∧ GoodTab Mon r.table (P ++ P') (B ++ B') (V ++ V') ∧ ((s.flagPrev || s.flagNext) = true → 1 ≤ P'.length) := by
  intro m
  induction m using Nat.strongRecOn with
  | _ m ih =>
    intro s P B V l h hm
    by_cases hgo : (s.flagPrev || s.flagNext) = true
    · obtain ⟨s', x, B1, V1, e, h', hdec⟩ := fillRow_ok a h hgo
      obtain ⟨r, P2, B2, V2, er, gr, _⟩ := ih (beyond Pp x + beyond Pn x) (by omega) h' (le_refl _)
      refine ⟨r, [x] ++ P2, B1 ++ B2, V1 ++ V2, fun fuel hf => ?_, by simpa only [List.append_assoc] using gr, fun _ => by simp⟩
      obtain ⟨f, rfl⟩ : ∃ f, fuel = f + 1 := ⟨fuel - 1, by omega⟩
      rw [fillLoop, if_pos hgo, e, bind_ok]
      exact er f (by omega)
    · refine ⟨s, [], [], [], fun fuel hf => ?_, by simpa using h.g, fun h1 => absurd h1 hgo⟩
      obtain ⟨f, rfl⟩ : ∃ f, fuel = f + 1 := ⟨fuel - 1, by omega⟩
      rw [fillLoop, if_neg hgo]

/-! ### The loop over records -/

theorem rows_ok {Mon : Kind} {under : List (List (List Rat))} {i : Nat} {t : List (List Rat)} {P B V : List Rat} (h : under[i]? = some t) (g : GoodTab Mon t P B V) : rows under i = .ok P.length := by
  unfold rows
  rw [rd_of_getElem? h, bind_ok, g.eq]
  rfl

/-- The search for the next record with undersaturated data. -/
theorem seek_ok {Mon : Kind} {under : List (List (List Rat))} (hg : ∀ i < under.length, ∃ t P B V, under[i]? = some t ∧ GoodTab Mon t P B V)
    (hl : ∀ t P B V, under[under.length - 1]? = some t → GoodTab Mon t P B V → 2 ≤ P.length) :
    ∀ (d i : Nat), i + d = under.length → 0 < d → ∃ j t P B V, (∀ fuel, d ≤ fuel → seek under fuel i = .ok j) ∧ i ≤ j ∧ under[j]? = some t ∧ GoodTab Mon t P B V ∧ 2 ≤ P.length := by
  intro d
  induction d with
  | zero => intro i _ h; omega
  | succ d ih =>
    intro i hi _
    obtain ⟨t, P, B, V, ht, g⟩ := hg i (by omega)
    by_cases h2 : P.length < 2
    · have hd : 0 < d := by
        by_contra h0
        have := hl t P B V (by rw [show under.length - 1 = i by omega]; exact ht) g
        omega
      obtain ⟨j, t', P', B', V', e, hj, r⟩ := ih (i + 1) (by omega) hd
      refine ⟨j, t', P', B', V', fun fuel hf => ?_, by omega, r⟩
      obtain ⟨f, rfl⟩ : ∃ f, fuel = f + 1 := ⟨fuel - 1, by omega⟩
      rw [seek, rows_ok ht g, bind_ok, if_pos h2]
      exact e f (by omega)
    · refine ⟨i, t, P, B, V, fun fuel hf => ?_, le_refl _, ht, g, by omega⟩
      obtain ⟨f, rfl⟩ : ∃ f, fuel = f + 1 := ⟨fuel - 1, by omega⟩
      rw [seek, rows_ok ht g, bind_ok, if_neg h2]

/-- What is known of the tables read: good, bubble points in order, data in the last one; the amounts of dissolved gas increase. -/
structure Records (Mon : Kind) (u : List (List (List Rat))) (rs : List Rat) : Prop where
  len : rs.length = u.length
  two : 2 ≤ u.length
  good : ∀ i < u.length, ∃ t P B V, u[i]? = some t ∧ GoodTab Mon t P B V
  last : ∀ t P B V, u[u.length - 1]? = some t → GoodTab Mon t P B V → 2 ≤ P.length
  rsInc : rs.Pairwise (· < ·)
  bub : ∀ (i j : Nat) (t t' : List (List Rat)) (P B V P' B' V' : List Rat) (x y : Rat), i < j → u[i]? = some t → u[j]? = some t' → GoodTab Mon t P B V → GoodTab Mon t' P' B' V' → P[0]? = some x → P'[0]? = some y → x + 1 < y

/-- A table which begins with the rows of another one. -/
def Extends (Mon : Kind) (t t' : List (List Rat)) : Prop :=
  ∃ P B V P' B' V', GoodTab Mon t P B V ∧ GoodTab Mon t' (P ++ P') (B ++ B') (V ++ V')

theorem GoodTab.unique {Mon : Kind} {t : List (List Rat)} {P B V P' B' V' : List Rat} (g : GoodTab Mon t P B V) (g' : GoodTab Mon t P' B' V') : P = P' ∧ B = B' ∧ V = V' := by
  have := g.eq.symm.trans g'.eq
  simpa using this

theorem GoodTab.extends {Mon : Kind} {t : List (List Rat)} {P B V : List Rat} (g : GoodTab Mon t P B V) : Extends Mon t t := ⟨P, B, V, [], [], [], g, by simpa using g⟩

/-- State of the loop over records. -/
structure AllInv (Mon : Kind) (u : List (List (List Rat))) (i : Nat) (s : FillAll) : Prop where
  len : s.under.length = u.length
  same : ∀ (j : Nat), i ≤ j → s.under[j]? = u[j]?
  done : ∀ (j : Nat), j < i → ∃ t t' P B V, u[j]? = some t ∧ s.under[j]? = some t' ∧ Extends Mon t t' ∧ GoodTab Mon t' P B V ∧ 2 ≤ P.length
  prev : s.iPrev < i
  prev2 : 0 ≤ s.iPrev → ∃ t P B V, s.under[s.iPrev.toNat]? = some t ∧ GoodTab Mon t P B V ∧ 2 ≤ P.length
  next : ∃ t P B V, s.under[s.iNext]? = some t ∧ GoodTab Mon t P B V ∧ 2 ≤ P.length

theorem AllInv.good {Mon : Kind} {u : List (List (List Rat))} {rs : List Rat} (r : Records Mon u rs) {i : Nat} {s : FillAll} (h : AllInv Mon u i s) :
    ∀ j < s.under.length, ∃ t P B V, s.under[j]? = some t ∧ GoodTab Mon t P B V := by
  intro j hj
  rcases Nat.lt_or_ge j i with h1 | h1
  · obtain ⟨_, t', P, B, V, _, e, _, g, _⟩ := h.done j h1
    exact ⟨t', P, B, V, e, g⟩
  · rw [h.same j h1]
    exact r.good j (by rw [← h.len]; exact hj)

/-- The neighbours of a record without undersaturated data. -/
theorem advance_ok {Mon : Kind} {u : List (List (List Rat))} {rs : List Rat} (r : Records Mon u rs) {i : Nat} {s : FillAll} (h : AllInv Mon u i s) (hi : i + 1 < u.length)
    {t : List (List Rat)} {P B V : List Rat} (ht : u[i]? = some t) (g : GoodTab Mon t P B V) (h1 : P.length < 2) :
    ∃ fp s', (∀ fuel, u.length ≤ fuel → advance fuel i s = .ok (fp, s')) ∧ (fp = true → 0 ≤ s'.iPrev) ∧ AllInv Mon u i s' ∧ i < s'.iNext ∧ s'.under = s.under := by
  unfold advance
  by_cases hn : s.iNext < i
  · have hlast : ∀ t P B V, s.under[s.under.length - 1]? = some t → GoodTab Mon t P B V → 2 ≤ P.length := by
      intro t P B V e g
      rw [h.len, h.same _ (by omega)] at e
      exact r.last t P B V e g
    obtain ⟨j, t', P', B', V', e, hj, ej, gj, lj⟩ := seek_ok (h.good r) hlast (s.under.length - (i + 1)) (i + 1) (by have := h.len; omega) (by have := h.len; omega)
    refine ⟨true, { s with iPrev := s.iNext, iNext := j }, fun fuel hf => ?_, fun _ => by show (0 : Int) ≤ (s.iNext : Int); omega, ⟨h.len, h.same, h.done, ?_, fun _ => ?_, ⟨t', P', B', V', ej, gj, lj⟩⟩, by show i < j; omega, rfl⟩
    · rw [if_pos hn, e fuel (by have := h.len; omega), bind_ok]
    · show (s.iNext : Int) < i
      omega
    · show ∃ t P B V, s.under[((s.iNext : Nat) : Int).toNat]? = some t ∧ _
      rw [Int.toNat_natCast]
      exact h.next
  · have hne : s.iNext ≠ i := by
      intro e
      obtain ⟨t', P', B', V', e', g', l'⟩ := h.next
      rw [e, h.same i (le_refl _), ht] at e'
      cases e'
      obtain ⟨rfl, _, _⟩ := g.unique g'
      omega
    refine ⟨decide (0 ≤ s.iPrev), s, fun fuel _ => by rw [if_neg hn], fun hp => by simpa using hp, h, by omega, rfl⟩

/-- One record: its table gets at least two rows, the first of which are those it had. -/
theorem fillStep_ok {Mon : Kind} {u : List (List (List Rat))} {rs : List Rat} (r : Records Mon u rs) {i : Nat} (hi : i < u.length) {s : FillAll} (h : AllInv Mon u i s) :
    ∃ s' N, (∀ fuel, N ≤ fuel → fillStep fuel rs i s = .ok s') ∧ AllInv Mon u (i + 1) s' := by
  obtain ⟨t, P, B, V, ht, g⟩ := r.good i hi
  have ht' : s.under[i]? = some t := by rw [h.same i (le_refl _)]; exact ht
  unfold fillStep
  by_cases h1 : 1 < P.length
  · refine ⟨{ s with iPrev := i }, 0, fun fuel _ => by rw [rows_ok ht' g, bind_ok, if_pos h1], ⟨h.len, fun j hj => h.same j (by omega), fun j hj => ?_, ?_, fun _ => ?_, h.next⟩⟩
    · rcases Nat.lt_or_ge j i with hj' | hj'
      · exact h.done j hj'
      · rw [show j = i by omega]
        exact ⟨t, t, P, B, V, ht, ht', g.extends, g, h1⟩
    · show (i : Int) < ((i + 1 : Nat) : Int)
      omega
    · show ∃ t P B V, s.under[((i : Nat) : Int).toNat]? = some t ∧ _
      rw [Int.toNat_natCast]
      exact ⟨t, P, B, V, ht', g, h1⟩
  · have hi1 : i + 1 < u.length := by
      by_contra hc
      have := r.last t P B V (by rw [show u.length - 1 = i by omega]; exact ht) g
      omega
    obtain ⟨fp, s1, e1, hfp, a1, hn1, hu1⟩ := advance_ok r h hi1 ht g (by omega)
    obtain ⟨tn, Pn, Bn, Vn, en, gn, ln⟩ := a1.next
    have hnl : s1.iNext < u.length := by rw [← a1.len]; exact (List.getElem?_eq_some_iff.1 en).1
    obtain ⟨tp, Pp, Bp, Vp, hp⟩ : ∃ tp Pp Bp Vp, 0 ≤ s1.iPrev → s1.under[s1.iPrev.toNat]? = some tp ∧ GoodTab Mon tp Pp Bp Vp ∧ 2 ≤ Pp.length := by
      by_cases h0 : 0 ≤ s1.iPrev
      · obtain ⟨tp, Pp, Bp, Vp, e⟩ := a1.prev2 h0
        exact ⟨tp, Pp, Bp, Vp, fun _ => e⟩
      · exact ⟨[], [], [], [], fun h => absurd h h0⟩
    have around : Around Mon s1.under rs s1.iPrev s1.iNext i tp tn Pp Bp Vp Pn Bn Vn := by
      refine ⟨en, gn, ln, hp, fun h0 => ?_⟩
      have hpi := a1.prev
      have l1 : i < rs.length := by rw [r.len]; exact hi
      have l2 : s1.iPrev.toNat < rs.length := by omega
      have l3 : s1.iNext < rs.length := by rw [r.len]; exact hnl
      exact ⟨_, _, _, List.getElem?_eq_getElem l1, List.getElem?_eq_getElem l2, List.getElem?_eq_getElem l3, List.pairwise_iff_getElem.1 r.rsInc _ _ l2 l1 (by omega), List.pairwise_iff_getElem.1 r.rsInc _ _ l1 l3 hn1⟩
    have hx := List.getElem?_eq_getElem (l := P) (i := 0) g.ne
    have hl : P[P.length - 1]? = some (P[0]'g.ne) := by rw [show P.length - 1 = 0 by omega]; exact hx
    have inv : RowInv Mon s1.iPrev Pp Pn ⟨fp, true, 0, 0, 0, 0, t⟩ P B V (P[0]'g.ne) := by
      refine ⟨g, hl, fun _ y hy => ?_, fun hf => ⟨hfp hf, Or.inl rfl⟩, fun _ => ⟨le_refl _, le_refl _, le_refl _, le_refl _⟩⟩
      have hy0 := List.getElem?_eq_getElem (l := Pn) (i := 0) (by omega)
      have en' : u[s1.iNext]? = some tn := by rw [← a1.same _ (by omega)]; exact en
      have b := r.bub i s1.iNext t tn P B V Pn Bn Vn _ _ hn1 ht en' g gn hx hy0
      have := spaced_lt gn.inc (show 0 < Pn.length - 1 by omega) hy0 hy
      linarith
    obtain ⟨q, P', B', V', e2, gq, lq⟩ := fillLoop_ok around _ inv (le_refl _)
    have hlq := lq (by simp)
    have hlen : i < s1.under.length := by rw [a1.len]; exact hi
    refine ⟨{ s1 with under := s1.under.set i q.table }, max u.length (beyond Pp (P[0]'g.ne) + beyond Pn (P[0]'g.ne) + 1), fun fuel hf => ?_, ?_⟩
    · rw [rows_ok ht' g, bind_ok, if_neg h1, e1 fuel (le_trans (le_max_left _ _) hf), bind_ok]
      dsimp only
      rw [rd_of_getElem? (show s1.under[i]? = some t by rw [hu1]; exact ht'), bind_ok, e2 fuel (lt_of_lt_of_le (Nat.lt_succ_self _) (le_trans (le_max_right _ _) hf)), bind_ok, wr_ok hlen, bind_ok]
    · have hset : ∀ (j : Nat), j ≠ i → (s1.under.set i q.table)[j]? = s1.under[j]? := fun j hj => List.getElem?_set_ne (by omega)
      have hg2 : 2 ≤ (P ++ P').length := by rw [List.length_append]; have := g.ne; omega
      refine ⟨by show (s1.under.set i q.table).length = _; rw [List.length_set]; exact a1.len, fun j hj => ?_, fun j hj => ?_, ?_, fun h0 => ?_, ?_⟩
      · show (s1.under.set i q.table)[j]? = _
        rw [hset j (by omega)]
        exact a1.same j (by omega)
      · show ∃ t t' P B V, u[j]? = some t ∧ (s1.under.set i q.table)[j]? = some t' ∧ _
        rcases Nat.lt_or_ge j i with hj' | hj'
        · rw [hset j (by omega)]
          exact a1.done j hj'
        · rw [show j = i by omega]
          exact ⟨t, q.table, _, _, _, ht, by rw [List.getElem?_set_self hlen], ⟨P, B, V, P', B', V', g, gq⟩, gq, hg2⟩
      · have := a1.prev
        show s1.iPrev < ((i + 1 : Nat) : Int)
        omega
      · show ∃ t P B V, (s1.under.set i q.table)[s1.iPrev.toNat]? = some t ∧ _
        have := a1.prev
        have h0' : 0 ≤ s1.iPrev := h0
        rw [hset _ (by omega)]
        exact a1.prev2 h0'
      · show ∃ t P B V, (s1.under.set i q.table)[s1.iNext]? = some t ∧ _
        rw [hset _ (by omega)]
        exact a1.next

/-- All records. -/
theorem fillAll_ok {Mon : Kind} {u : List (List (List Rat))} {rs : List Rat} (r : Records Mon u rs) {s : FillAll} (h : AllInv Mon u 0 s) :
    ∀ n, n ≤ u.length → ∃ s' N, (∀ fuel, N ≤ fuel → loop n (fillStep fuel rs) s = .ok s') ∧ AllInv Mon u n s' := by
  intro n
  induction n with
  | zero => intro _; exact ⟨s, 0, fun _ _ => loop_zero .., h⟩
  | succ n ih =>
    intro hn
    obtain ⟨s1, N1, e1, h1⟩ := ih (by omega)
    obtain ⟨s2, N2, e2, h2⟩ := fillStep_ok r (by omega) h1
    refine ⟨s2, max N1 N2, fun fuel hf => ?_, h2⟩
    rw [loop_succ, e1 fuel (le_trans (le_max_left _ _) hf), bind_ok, e2 fuel (le_trans (le_max_right _ _) hf)]

end Opm.Pvt
