import Verif.Model.DeckTables
import Verif.Spec.DeckTables
import Verif.Props.Interp
/-!
# Filling in missing values
-/

namespace Opm.Deck
open Opm Interp

theorem mapM_ok {α β : Type} {f : α → M β} {g : α → β} : ∀ {l : List α}, (∀ x ∈ l, f x = .ok (g x)) → l.mapM f = .ok (l.map g)
  | [], _ => rfl
  | x :: l, h => by
    rw [List.mapM_cons, h x (by simp), mapM_ok (l := l) (fun y hy => h y (by simp [hy]))]
    rfl

theorem split_at {α : Type} (l : List α) (i : Nat) (hi : i < l.length) : l = l.take i ++ l[i] :: l.drop (i + 1) := by simp

theorem filter_rank {α : Type} {p : α → Bool} {l : List α} {i : Nat} {a : α} (h : l[i]? = some a) (hp : p a = true) :
    (l.filter p)[((l.take i).filter p).length]? = some a := by
  obtain ⟨hi, rfl⟩ := List.getElem?_eq_some_iff.1 h
  have e : l = l.take i ++ l[i] :: l.drop (i + 1) := by simp
  have e2 : l.filter p = (l.take i).filter p ++ l[i] :: (l.drop (i + 1)).filter p := by
    conv => lhs; rw [e]
    rw [List.filter_append, List.filter_cons, if_pos hp]
  rw [e2]
  simp

theorem rank_next {α : Type} {p : α → Bool} {l : List α} {i j : Nat} {a : α} (h : l[i]? = some a) (hp : p a = true) (hij : i < j)
    (hn : ∀ k b, i < k → k < j → l[k]? = some b → p b = false) : ((l.take j).filter p).length = ((l.take i).filter p).length + 1 := by
  obtain ⟨hi, rfl⟩ := List.getElem?_eq_some_iff.1 h
  have e : l.take j = l.take i ++ l[i] :: (l.take j).drop (i + 1) := by
    apply List.ext_getElem?
    intro k
    rw [List.getElem?_append]
    by_cases hk : k < i
    · rw [if_pos (by simp; omega), List.getElem?_take, List.getElem?_take, if_pos (by omega), if_pos hk]
    · rw [if_neg (by simp; omega)]
      have hl : (l.take i).length = i := by simp; omega
      rw [hl]
      by_cases hk2 : k = i
      · subst hk2
        simp [hij, hi]
      · obtain ⟨m, rfl⟩ : ∃ m, k = i + 1 + m := ⟨k - (i + 1), by omega⟩
        have : i + 1 + m - i = m + 1 := by omega
        rw [this, List.getElem?_cons_succ, List.getElem?_drop]
  rw [e, List.filter_append, List.filter_cons, if_pos hp]
  have : ((l.take j).drop (i + 1)).filter p = [] := by
    rw [List.filter_eq_nil_iff]
    intro b hb
    obtain ⟨k, hk⟩ := List.mem_iff_getElem?.1 hb
    rw [List.getElem?_drop, List.getElem?_take] at hk
    split at hk
    · simp [hn (i + 1 + k) b (by omega) (by omega) hk]
    · cases hk
  simp [this]

theorem chord_line (x1 y1 x2 y2 x : Rat) : chord x1 y1 x2 y2 x = line x1 y1 x2 y2 x := by
  unfold chord line
  ring

section
variable {xs col : List Rat}

theorem zip_get (hlen : col.length = xs.length) {i : Nat} {y : Rat} (h : col[i]? = some y) : ∃ x, xs[i]? = some x ∧ (xs.zip col)[i]? = some (x, y) := by
  obtain ⟨hi, rfl⟩ := List.getElem?_eq_some_iff.1 h
  exact ⟨xs[i], List.getElem?_eq_getElem (by omega), by simp [hi, show i < xs.length by omega]⟩

theorem zip_fst_sublist : ∀ (xs col : List Rat), ((xs.zip col).map Prod.fst).Sublist xs
  | [], _ => by simp
  | _ :: _, [] => by simp
  | x :: xs, c :: col => by simpa using zip_fst_sublist xs col

theorem known_sorted (hm : xs.Pairwise (· < ·)) : ((knownRows xs col).map Prod.fst).Pairwise (· < ·) := by
  unfold knownRows
  have h1 : ((xs.zip col).map Prod.fst).Pairwise (· < ·) := hm.sublist (zip_fst_sublist xs col)
  exact h1.sublist ((List.filter_sublist).map _)

theorem known_iff (hlen : col.length = xs.length) : knownRows xs col = [] ↔ ∀ i y, ¬HasValue col i y := by
  unfold knownRows
  rw [List.filter_eq_nil_iff]
  constructor
  · intro h i y ⟨h1, h2⟩
    obtain ⟨x, -, hx⟩ := zip_get hlen h1
    exact h (x, y) (List.mem_of_getElem? hx) (by simpa using h2)
  · intro h p hp
    obtain ⟨i, hi⟩ := List.mem_iff_getElem?.1 hp
    rw [List.getElem?_zip_eq_some] at hi
    have := h i p.2
    simp only [HasValue, hi.2, true_and] at this
    simpa using this

theorem fillValue_ok (hm : xs.Pairwise (· < ·)) (h1 : (knownRows xs col).length ≠ 1) (p : Rat × Rat) : ∃ v, fillValue (knownRows xs col) p.1 p.2 = .ok v := by
  unfold fillValue
  split
  · split
    · exact ⟨_, rfl⟩
    · rename_i hk
      have h2 : 2 ≤ ((knownRows xs col).map Prod.fst).length := by
        have := List.length_pos_iff.2 hk
        rw [List.length_map]
        omega
      obtain ⟨i, hi, he⟩ := exists_ext (dir_of_lt (known_sorted (col := col) hm)) h2 p.1
      have hl : ((knownRows xs col).map Prod.fst).length = ((knownRows xs col).map Prod.snd).length := by simp
      exact ⟨_, interp_on (dir_of_lt (known_sorted hm)) (by omega) hi he (List.getElem?_eq_getElem (by omega)) (List.getElem?_eq_getElem hi)
        (List.getElem?_eq_getElem (by omega)) (List.getElem?_eq_getElem (by omega))⟩
  · exact ⟨_, rfl⟩

/-- What an interpolated value is. -/
theorem fillValue_line (hlen : col.length = xs.length) (hm : xs.Pairwise (· < ·)) {i j : Nat} {yi yj xi xj : Rat} (hij : i < j) (hi : HasValue col i yi) (hj : HasValue col j yj)
    (hn : ∀ k, i < k → k < j → NoValue col k) (hxi : xs[i]? = some xi) (hxj : xs[j]? = some xj) {k : Nat} {xk : Rat} (hk : NoValue col k) (hxk : xs[k]? = some xk)
    (hc : (i < k ∧ k < j) ∨ (k < i ∧ ∀ l y, l < i → ¬HasValue col l y) ∨ (j < k ∧ ∀ l y, j < l → ¬HasValue col l y)) :
    fillValue (knownRows xs col) xk (-1) = .ok (chord xi yi xj yj xk) := by
  have zi : (xs.zip col)[i]? = some (xi, yi) := by simp [List.getElem?_zip_eq_some, hxi, hi.1]
  have zj : (xs.zip col)[j]? = some (xj, yj) := by simp [List.getElem?_zip_eq_some, hxj, hj.1]
  have pi : (fun p : Rat × Rat => decide (p.2 ≠ -1)) (xi, yi) = true := by simpa using hi.2
  have pj : (fun p : Rat × Rat => decide (p.2 ≠ -1)) (xj, yj) = true := by simpa using hj.2
  have ki := filter_rank (p := fun p : Rat × Rat => decide (p.2 ≠ -1)) zi pi
  have kj := filter_rank (p := fun p : Rat × Rat => decide (p.2 ≠ -1)) zj pj
  have nx := rank_next (p := fun p : Rat × Rat => decide (p.2 ≠ -1)) zi pi hij (fun l b h1 h2 hb => by
    rw [List.getElem?_zip_eq_some] at hb
    have := hn l h1 h2
    unfold NoValue at this
    rw [this] at hb
    simp only [Option.some.injEq] at hb
    simp [← hb.2])
  rw [nx] at kj
  have hne : knownRows xs col ≠ [] := fun h => (known_iff hlen).1 h i yi hi
  unfold fillValue
  rw [if_pos rfl, if_neg hne]
  have lt : ∀ (a b : Nat) (xa xb : Rat), xs[a]? = some xa → xs[b]? = some xb → a < b → xa < xb := by
    intro a b xa xb ha hb hab
    rw [List.pairwise_iff_getElem] at hm
    obtain ⟨h1, rfl⟩ := List.getElem?_eq_some_iff.1 ha
    obtain ⟨h3, rfl⟩ := List.getElem?_eq_some_iff.1 hb
    exact hm a b h1 h3 hab
  have hxx := lt i j xi xj hxi hxj hij
  generalize hr : ((List.take i (xs.zip col)).filter (fun p : Rat × Rat => decide (p.2 ≠ -1))).length = r at ki kj
  have a1 : ((knownRows xs col).map Prod.fst)[r]? = some xi := by rw [List.getElem?_map]; unfold knownRows; rw [ki]; rfl
  have a2 : ((knownRows xs col).map Prod.fst)[r + 1]? = some xj := by rw [List.getElem?_map]; unfold knownRows; rw [kj]; rfl
  have b1 : ((knownRows xs col).map Prod.snd)[r]? = some yi := by rw [List.getElem?_map]; unfold knownRows; rw [ki]; rfl
  have b2 : ((knownRows xs col).map Prod.snd)[r + 1]? = some yj := by rw [List.getElem?_map]; unfold knownRows; rw [kj]; rfl
  have s := dir_of_lt (known_sorted (col := col) hm)
  have hb := (List.getElem?_eq_some_iff.1 a2).1
  rw [chord_line]
  refine interp_on s (by simp) hb ?_ a1 a2 b1 b2
  rcases hc with ⟨c1, c2⟩ | ⟨c1, c2⟩ | ⟨c1, c2⟩
  · have l1 := lt i k xi xk hxi hxk c1
    have l2 := lt k j xk xj hxk hxj c2
    refine ⟨fun a _ ha => ?_, fun b _ hb => ?_⟩
    · rw [a1] at ha
      cases ha
      linarith
    · rw [a2] at hb
      cases hb
      linarith
  · have l1 := lt k i xk xi hxk hxi c1
    have r0 : r = 0 := by
      rw [← hr, List.length_eq_zero_iff, List.filter_eq_nil_iff]
      intro p hp
      obtain ⟨l, hl⟩ := List.mem_iff_getElem?.1 hp
      rw [List.getElem?_take] at hl
      split at hl
      · rw [List.getElem?_zip_eq_some] at hl
        have := c2 l p.2 (by omega)
        simp only [HasValue, hl.2, true_and] at this
        simpa using this
      · cases hl
    refine ⟨fun a h => by omega, fun b _ hb => ?_⟩
    rw [a2] at hb
    cases hb
    linarith
  · have l1 := lt j k xj xk hxj hxk c1
    have hlast : ((knownRows xs col).map Prod.fst).length = r + 2 := by
      rw [List.length_map]
      unfold knownRows
      obtain ⟨hjl, ej⟩ := List.getElem?_eq_some_iff.1 zj
      have e := split_at (xs.zip col) j hjl
      have e3 : ((xs.zip col).drop (j + 1)).filter (fun p : Rat × Rat => decide (p.2 ≠ -1)) = [] := by
        rw [List.filter_eq_nil_iff]
        intro p hp
        obtain ⟨l, hl⟩ := List.mem_iff_getElem?.1 hp
        rw [List.getElem?_drop, List.getElem?_zip_eq_some] at hl
        have := c2 (j + 1 + l) p.2 (by omega)
        simp only [HasValue, hl.2, true_and] at this
        simpa using this
      rw [e, List.filter_append, List.filter_cons, ej, if_pos pj, e3, List.length_append, nx, hr]
      rfl
    refine ⟨fun a _ ha => ?_, fun b h => by omega⟩
    rw [a1] at ha
    cases ha
    linarith

theorem fillColumn_ok (hlen : col.length = xs.length) (hm : xs.Pairwise (· < ·)) (h1 : (knownRows xs col).length ≠ 1) :
    ∃ col', fillColumn xs col = .ok col' ∧ Filled xs col col' := by
  choose g hg using fillValue_ok (xs := xs) (col := col) hm h1
  refine ⟨(xs.zip col).map g, mapM_ok (fun p _ => hg p), ?_⟩
  have at_ : ∀ (i : Nat) (y : Rat), col[i]? = some y → ∃ x, xs[i]? = some x ∧ ((xs.zip col).map g)[i]? = some (g (x, y)) := by
    intro i y h
    obtain ⟨x, hx, hz⟩ := zip_get hlen h
    exact ⟨x, hx, by rw [List.getElem?_map, hz]; rfl⟩
  refine ⟨by simp [hlen], ?_, ?_, ?_⟩
  · rintro i y ⟨h, hy⟩
    obtain ⟨x, -, e⟩ := at_ i y h
    have := hg (x, y)
    unfold fillValue at this
    rw [if_neg hy] at this
    rw [e, ← Except.ok.inj this]
  · intro h y hy
    have hk := (known_iff hlen).2 h
    obtain ⟨p, hp, rfl⟩ := List.mem_map.1 hy
    have := hg p
    unfold fillValue at this
    obtain ⟨i, hi⟩ := List.mem_iff_getElem?.1 hp
    rw [List.getElem?_zip_eq_some] at hi
    have h2 : p.2 = -1 := by
      have := h i p.2
      simp only [HasValue, hi.2, true_and] at this
      simpa using this
    rw [if_pos h2, if_pos hk] at this
    exact (Except.ok.inj this).symm
  · intro i j yi yj xi xj hij hi hj hn hxi hxj k xk hk hxk hc
    obtain ⟨x, hx, e⟩ := at_ k (-1) hk
    rw [hxk] at hx
    cases hx
    have := hg (xk, -1)
    rw [fillValue_line hlen hm hij hi hj hn hxi hxj hk hxk hc] at this
    rw [e, ← Except.ok.inj this]

end

/-- Filling in all columns but the first. -/
theorem insertDefaults_ok {ncol : Nat} {t : List (List Rat)} {xs : List Rat} (h0 : t[0]? = some xs) (hn : t.length = ncol) (hlen : ∀ col ∈ t, col.length = xs.length)
    (hm : xs.Pairwise (· < ·)) (h1 : ∀ col ∈ t.tail, (knownRows xs col).length ≠ 1) :
    ∃ t', insertDefaultValues ncol t = .ok t' ∧ t'.length = ncol ∧ t'[0]? = some xs ∧ ∀ k col, 0 < k → t[k]? = some col → ∃ col', t'[k]? = some col' ∧ Filled xs col col' := by
  unfold insertDefaultValues
  rw [rd_of_getElem? h0, bind_ok]
  have key : ∀ n, n + 1 ≤ ncol → ∃ t', loop n (fun k t => do
      let col ← rd t (k + 1)
      let col ← fillColumn xs col
      wr t (k + 1) col) t = .ok t' ∧ t'.length = ncol ∧ t'[0]? = some xs ∧ (∀ k col, 0 < k → k ≤ n → t[k]? = some col → ∃ col', t'[k]? = some col' ∧ Filled xs col col') ∧
        ∀ k, n < k → t'[k]? = t[k]? := by
    intro n
    induction n with
    | zero => exact fun _ => ⟨t, rfl, hn, h0, fun k col h1 h2 => by omega, fun _ _ => rfl⟩
    | succ n ih =>
      intro hle
      obtain ⟨t', e, k1, k2, k3, k4⟩ := ih (by omega)
      have hin : n + 1 < t.length := by omega
      have hcol : t[n + 1]? = some t[n + 1] := List.getElem?_eq_getElem hin
      have hmem : t[n + 1] ∈ t.tail := by
        have : t.tail[n]? = some t[n + 1] := by rw [List.getElem?_tail]; exact hcol
        exact List.mem_of_getElem? this
      obtain ⟨col', e2, hF⟩ := fillColumn_ok (hlen _ (List.getElem_mem hin)) hm (h1 _ hmem)
      rw [loop_succ, e, bind_ok, rd_of_getElem? ((k4 (n + 1) (by omega)).trans hcol), bind_ok, e2, bind_ok, wr_ok (by omega)]
      refine ⟨_, rfl, by simpa using k1, by rw [List.getElem?_set_ne (by omega)]; exact k2, ?_, ?_⟩
      · intro k col hk hk2 hc
        by_cases he : k = n + 1
        · subst he
          rw [hcol] at hc
          cases hc
          exact ⟨col', by rw [List.getElem?_set_self (by omega)], hF⟩
        · rw [List.getElem?_set_ne (fun h => he h.symm)]
          exact k3 k col hk (by omega) hc
      · intro k hk
        rw [List.getElem?_set_ne (by omega)]
        exact k4 k (by omega)
  have hpos : 1 ≤ ncol := by
    have := (List.getElem?_eq_some_iff.1 h0).1
    omega
  obtain ⟨t', e, k1, k2, k3, -⟩ := key (ncol - 1) (by omega)
  refine ⟨t', e, k1, k2, fun k col hk hc => k3 k col hk ?_ hc⟩
  have := (List.getElem?_eq_some_iff.1 hc).1
  omega

end Opm.Deck
