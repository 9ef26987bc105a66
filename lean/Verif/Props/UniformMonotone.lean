import Verif.Model.UniformMonotone
import Verif.Props.MonotCubic
import Verif.Props.UniformTable
/-! # Properties of uniform monotone tables -/

namespace Opm.UniformMonotone
open Opm MonotCubic MonotCubic.Spec

theorem sampleStep_ok {s : Interp Rat} (g : Good s) (hne : 0 < s.data.length) (xmin xmax : Rat) {n : Nat} (hn : 2 ≤ n) :
    ∃ ys, loop n (sampleStep xmin xmax ((n : Rat) - 1)) (s, List.replicate n 0) = .ok (s, ys) ∧ ys.length = n ∧
      ∀ k, k < n → ∃ v, evaluate s (xmin + k * ((xmax - xmin) / ((n - 1 : Nat) : Rat))) = .ok (v, s) ∧ ys[k]? = some v := by
  have hn1 : ((n : Rat) - 1) ≠ 0 := by
    have : (2 : Rat) ≤ n := by exact_mod_cast hn
    linarith
  have hc : ((n - 1 : Nat) : Rat) = (n : Rat) - 1 := by
    rw [Nat.cast_sub (by omega)]; simp
  obtain ⟨⟨t, ys⟩, e, h1, h2, h3⟩ := loop_inv (n := n) (f := sampleStep xmin xmax ((n : Rat) - 1))
    (s := (s, List.replicate n (0 : Rat)))
    (fun i (r : Interp Rat × List Rat) => r.1 = s ∧ r.2.length = n ∧
      ∀ k, k < i → ∃ v, evaluate s (xmin + k * ((xmax - xmin) / ((n - 1 : Nat) : Rat))) = .ok (v, s) ∧ r.2[k]? = some v)
    ⟨rfl, by simp, fun k hk => by omega⟩ (by
      rintro i ⟨t, ys⟩ hi ⟨h1, h2, h3⟩
      simp only at h1 h2 h3
      subst h1
      unfold sampleStep
      rw [fdiv_ok hn1, bind_ok]
      have ex : (1 - (i : Rat) / ((n : Rat) - 1)) * xmin + (i : Rat) / ((n : Rat) - 1) * xmax
          = xmin + i * ((xmax - xmin) / ((n - 1 : Nat) : Rat)) := by rw [hc]; field_simp; ring
      rw [ex]
      obtain ⟨v, ev⟩ := evaluate_total g hne (xmin + i * ((xmax - xmin) / ((n - 1 : Nat) : Rat)))
      simp only
      rw [ev, bind_ok, wr_ok (by omega), bind_ok]
      refine ⟨_, rfl, rfl, by simpa using h2, ?_⟩
      intro k hk
      rcases Nat.lt_or_eq_of_le (Nat.lt_succ_iff.1 hk) with h | h
      · obtain ⟨v', e', hv'⟩ := h3 k h
        exact ⟨v', e', by simp only; rw [List.getElem?_set_ne (by omega)]; exact hv'⟩
      · subst h
        exact ⟨v, ev, by simp only; rw [List.getElem?_set_self (by omega)]⟩)
  simp only at h1 h2 h3
  subst h1
  exact ⟨ys, e, h2, h3⟩

/-- For data whose first argument is less than its last one and at least two samples the call succeeds.
The table covers the interval from the first to the last argument, and its values are the values of the
monotone cubic interpolant of the data at the equidistant nodes. -/
theorem build_samples {sqrt : Rat → Rat} (hr : IsRoot sqrt) (c1 c2 : Bool) (fl : Flags) {xv yv : List Rat}
    (hl : xv.length = yv.length) {a b : Rat} (ha : xv.head? = some a) (hb : xv.getLast? = some b) (hab : a < b)
    {samples : Int} (hs : 2 ≤ samples) :
    ∃ s t, construct sqrt c1 c2 fl xv yv = .ok s ∧ build sqrt c1 c2 fl xv yv samples = .ok t ∧ t.Proper ∧
      t.xmin = a ∧ t.xmax = b ∧ (t.ys.length : Int) = samples ∧
      ∀ k, k < t.ys.length → ∃ v, evaluate s (t.node k) = .ok (v, s) ∧ t.ys[k]? = some v ∧ t.eval (t.node k) = .ok v := by
  obtain ⟨s, e, hd, g, _⟩ := construct_good hr c1 c2 fl hl
  obtain ⟨n, rfl⟩ : ∃ n : Nat, samples = n := ⟨samples.toNat, by omega⟩
  have hn : 2 ≤ n := by omega
  have hne : 0 < s.data.length := by
    rcases Nat.eq_zero_or_pos s.data.length with h0 | h0
    · exfalso
      have h0' : s.data = [] := List.eq_nil_of_length_eq_zero h0
      cases xv with
      | nil => simp at ha
      | cons x xs =>
        cases yv with
        | nil => simp at hl
        | cons y ys =>
          obtain ⟨s', e', _, hm⟩ := construct_data hr c1 c2 fl hl
          rw [e] at e'
          cases e'
          have hx : find x s.data ≠ none := by
            rw [hd, find_fold]
            unfold lastValue
            simp
          rw [h0'] at hx
          exact hx rfl
    · exact h0
  have r0 : rd xv 0 = .ok a := rd_of_getElem? (by rw [← List.head?_eq_getElem?]; exact ha)
  have r1 : rd xv (xv.length - 1) = .ok b := rd_of_getElem? (by rw [← List.getLast?_eq_getElem?]; exact hb)
  obtain ⟨ys, ey, hy, hv⟩ := sampleStep_ok g hne a b hn
  obtain ⟨t, et⟩ := (Interp.uniform_new a b ys).2 ⟨hab, by omega⟩
  obtain ⟨hp, t1, t2, t3, _, _⟩ := Interp.uniform_new_proper et
  refine ⟨s, t, e, ?_, hp, t1, t2, by rw [t3, hy], ?_⟩
  · unfold build
    rw [e, bind_ok, if_neg (by omega), r0, bind_ok, r1, bind_ok, Int.toNat_natCast]
    have : (((n : Int) : Rat) - 1) = (n : Rat) - 1 := by push_cast; ring
    rw [this, ey, bind_ok]
    exact et
  · intro k hk
    rw [t3, hy] at hk
    obtain ⟨v, ev, hv'⟩ := hv k hk
    have hnode : t.node k = a + k * ((b - a) / ((n - 1 : Nat) : Rat)) := by
      unfold Interp.UTable.node
      rw [t1, t2, t3, hy]
    refine ⟨v, by rw [hnode]; exact ev, by rw [t3]; exact hv', ?_⟩
    exact Interp.uniform_node t hp k v (by rw [t3]; exact hv')

/-- All other input is rejected. -/
theorem build_succeeds_only {sqrt : Rat → Rat} (c1 c2 : Bool) (fl : Flags) {xv yv : List Rat} {samples : Int}
    {t : Interp.UTable} (h : build sqrt c1 c2 fl xv yv samples = .ok t) :
    xv.length = yv.length ∧ 2 ≤ samples ∧ ∃ a b, xv.head? = some a ∧ xv.getLast? = some b ∧ a < b := by
  unfold build at h
  obtain ⟨s, e, h⟩ := bind_eq_ok.1 h
  have hl : xv.length = yv.length := by
    by_contra hn
    rw [construct_rejects sqrt c1 c2 fl hn] at e
    cases e
  split at h
  · cases h
  · rename_i hneg
    obtain ⟨a, ea, h⟩ := bind_eq_ok.1 h
    obtain ⟨b, eb, h⟩ := bind_eq_ok.1 h
    obtain ⟨r, er, h⟩ := bind_eq_ok.1 h
    obtain ⟨h1, h2⟩ := (Interp.uniform_new a b r.2).1 ⟨t, h⟩
    rw [rd_eq_ok] at ea eb
    refine ⟨hl, ?_, a, b, by rw [List.head?_eq_getElem?]; exact ea, by rw [List.getLast?_eq_getElem?]; exact eb, h1⟩
    by_contra hlt
    have : samples = 0 ∨ samples = 1 := by omega
    rcases this with rfl | rfl
    · rw [show ((0 : Int)).toNat = 0 from rfl, loop_zero] at er
      cases er
      simp at h2
    · rw [show ((1 : Int)).toNat = 1 from rfl, loop_succ, loop_zero, bind_ok] at er
      simp [sampleStep, fdiv] at er

/-- Evaluation of a uniform table whose values never decrease is monotone on the whole line. -/
theorem uniform_monotone {t : Interp.UTable} (ht : t.Proper) (hm : t.ys.Pairwise (· ≤ ·)) {x y u v : Rat} (hxy : x ≤ y)
    (hu : t.eval x = .ok u) (hv : t.eval y = .ok v) : u ≤ v := by
  obtain ⟨j, hj, j1, j2⟩ := Interp.uniform_covered t ht x
  obtain ⟨k, hk, k1, k2⟩ := Interp.uniform_covered t ht y
  have hle : ∀ {i i' : Nat} {p q : Rat}, i ≤ i' → t.ys[i]? = some p → t.ys[i']? = some q → p ≤ q := by
    intro i i' p q hii hp hq
    obtain ⟨l1, e1⟩ := List.getElem?_eq_some_iff.1 hp
    obtain ⟨l2, e2⟩ := List.getElem?_eq_some_iff.1 hq
    rcases Nat.lt_or_eq_of_le hii with h | h
    · rw [← e1, ← e2]; exact List.pairwise_iff_getElem.1 hm i i' l1 l2 h
    · subst h; rw [← e1, ← e2]
  have hc : t.clamp x ≤ t.clamp y := by
    have := ht.dom
    unfold Interp.UTable.clamp
    split <;> split <;> (try split) <;> (try split) <;> linarith
  have gx0 := List.getElem?_eq_getElem (l := t.ys) (i := j) (by omega)
  have gx1 := List.getElem?_eq_getElem (l := t.ys) (i := j + 1) hj
  have gy0 := List.getElem?_eq_getElem (l := t.ys) (i := k) (by omega)
  have gy1 := List.getElem?_eq_getElem (l := t.ys) (i := k + 1) hk
  have hstep : 0 < (t.xmax - t.xmin) / ((t.ys.length - 1 : Nat) : Rat) := by
    have h2 := ht.two
    have : 0 < t.ys.length - 1 := by omega
    have : (0 : Rat) < ((t.ys.length - 1 : Nat) : Rat) := by exact_mod_cast this
    exact div_pos (by have := ht.dom; linarith) this
  have hnode : ∀ {i i' : Nat}, i ≤ i' → t.node i ≤ t.node i' := by
    intro i i' h
    have : (i : Rat) ≤ i' := by exact_mod_cast h
    unfold Interp.UTable.node
    nlinarith
  have same : ∀ {i : Nat} (hi : i + 1 < t.ys.length), t.node i ≤ t.clamp x → t.clamp x ≤ t.node (i + 1) →
      t.node i ≤ t.clamp y → t.clamp y ≤ t.node (i + 1) → u ≤ v := by
    intro i hi a1 a2 b1 b2
    have g0 := List.getElem?_eq_getElem (l := t.ys) (i := i) (by omega)
    have g1 := List.getElem?_eq_getElem (l := t.ys) (i := i + 1) hi
    obtain ⟨w, u', w0, w1, cx, eu, evu, _, _⟩ := Interp.uniform_eval t ht x i _ _ g0 g1 a1 a2
    obtain ⟨w', v', w0', w1', cy, ev, evv, _, _⟩ := Interp.uniform_eval t ht y i _ _ g0 g1 b1 b2
    rw [hu] at evu; cases evu
    rw [hv] at evv; cases evv
    have h01 := hle (Nat.le_succ i) g0 g1
    have hn : t.node i < t.node (i + 1) := by
      unfold Interp.UTable.node
      push_cast
      linarith
    have hw : w ≤ w' := by
      by_contra hlt
      have := mul_pos (sub_pos.2 (not_le.1 hlt)) (sub_pos.2 hn)
      nlinarith
    rw [eu, ev]
    nlinarith [mul_nonneg (sub_nonneg.2 hw) (sub_nonneg.2 h01)]
  rcases Nat.lt_trichotomy j k with h | h | h
  · obtain ⟨w, u', _, _, _, _, evu, _, hiu⟩ := Interp.uniform_eval t ht x j _ _ gx0 gx1 j1 j2
    obtain ⟨w', v', _, _, _, _, evv, lov, _⟩ := Interp.uniform_eval t ht y k _ _ gy0 gy1 k1 k2
    rw [hu] at evu; cases evu
    rw [hv] at evv; cases evv
    rw [max_eq_right (hle (Nat.le_succ j) gx0 gx1)] at hiu
    rw [min_eq_left (hle (Nat.le_succ k) gy0 gy1)] at lov
    exact hiu.trans ((hle (by omega : j + 1 ≤ k) gx1 gy0).trans lov)
  · subst h
    exact same hj j1 j2 k1 k2
  · have h1 := hnode (by omega : k + 1 ≤ j)
    have e1 : t.clamp x = t.node j := by linarith
    have e2 : t.clamp y = t.node j := by linarith
    refine same hj j1 j2 (by rw [e2]) (by rw [e2]; exact hnode (Nat.le_succ j))

/-- For increasing arguments and values that never decrease, the table never decreases either, and it
starts with the first and ends with the last value. -/
theorem build_monotone {sqrt : Rat → Rat} (hr : IsRoot sqrt) (c1 c2 : Bool) (fl : Flags) {xv yv : List Rat}
    {samples : Int} {t : Interp.UTable} (h : build sqrt c1 c2 fl xv yv samples = .ok t)
    {s : Interp Rat} (hc : construct sqrt c1 c2 fl xv yv = .ok s) (hm : NonDecreasing (fVector s)) {x y u v : Rat} (hxy : x ≤ y)
    (hu : t.eval x = .ok u) (hv : t.eval y = .ok v) : u ≤ v := by
  obtain ⟨hl, hs, a, b, ha, hb, hab⟩ := build_succeeds_only c1 c2 fl h
  obtain ⟨s', t', e1, e2, hp, t1, t2, t3, hk⟩ := build_samples hr c1 c2 fl hl ha hb hab hs
  rw [hc] at e1; cases e1
  rw [h] at e2; cases e2
  refine uniform_monotone hp ?_ hxy hu hv
  rw [List.pairwise_iff_getElem]
  intro i j hi hj hij
  obtain ⟨p, ep, gp, _⟩ := hk i hi
  obtain ⟨q, eq, gq, _⟩ := hk j hj
  rw [List.getElem?_eq_getElem hi, Option.some.injEq] at gp
  rw [List.getElem?_eq_getElem hj, Option.some.injEq] at gq
  rw [gp, gq]
  have hre : Reachable sqrt s := ⟨c1, c2, fl, xv, yv, [], s, hc, rfl⟩
  have hne : xVector s ≠ [] := by
    intro he
    rw [evaluate_empty he] at ep
    cases ep
  refine (evaluate_monotone hr hre hne).1 hm _ _ _ _ ?_ ep eq
  have h2 := hp.two
  have hstep : 0 ≤ (t.xmax - t.xmin) / ((t.ys.length - 1 : Nat) : Rat) :=
    div_nonneg (by have := hp.dom; linarith) (Nat.cast_nonneg _)
  have : (i : Rat) ≤ j := by exact_mod_cast hij.le
  unfold Interp.UTable.node
  nlinarith

/-- A concrete case: three samples of two chords. -/
example : ∃ t, build (fun y => y + 1) true true ⟨true, true, true, true, true, true⟩ [0, 1, 4] [0, 1, 3] 3 = .ok t ∧
    t.xmin = 0 ∧ t.xmax = 4 ∧ t.ys.head? = some 0 ∧ t.ys.getLast? = some 3 := by
  refine ⟨⟨0, 4, 2, [0, 47 / 27, 3], .closestValue, .closestValue⟩, ?_, rfl, rfl, rfl, rfl⟩
  decide +kernel

/-- One sample: zero divided by zero. -/
example : build (fun y => y + 1) true true ⟨true, true, true, true, true, true⟩ [0, 1, 4] [0, 1, 3] 1 = .error .nonFinite := by
  decide +kernel

end Opm.UniformMonotone
