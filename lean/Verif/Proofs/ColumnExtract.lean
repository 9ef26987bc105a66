import Verif.Spec.ColumnExtract
import Verif.Proofs.Graph
import Mathlib.Data.List.Chain
import Mathlib.Data.List.Perm.Basic
import Mathlib.Data.List.Nodup
import Mathlib.Tactic.Ring
/-!
# Columns of a grid: helper proofs
-/

namespace Opm.ColumnExtract
open Opm Graph

variable {g : ColGrid}

theorem kIndex_eq (c : Nat) : g.kIndex c = g.k c := rfl

theorem index_ok (h : g.Ok) {c : Nat} (hc : c < g.topo.nc) : g.index c = .ok (g.cart c) := by
  unfold ColGrid.index ColGrid.cart
  cases e : g.globalCell with
  | none => rfl
  | some l =>
    simp only
    have := h.global l e
    rw [rd_ok (by omega)]
    congr 1
    rw [List.getD_eq_getElem?_getD, List.getElem?_eq_getElem (by omega)]
    rfl

theorem sides_lt (h : g.topo.Valid) {f : Nat} (hf : f < g.topo.nf) : ∃ a b, g.topo.Sides f a b := by
  have := h.fcLen
  exact ⟨g.topo.faceCells[2 * f]'(by omega), g.topo.faceCells[2 * f + 1]'(by omega), List.getElem?_eq_getElem _, List.getElem?_eq_getElem _⟩

/-- `neighbours` decides adjacency. -/
theorem neighbours_ok (h : g.Ok) {c0 c1 : Nat} (h0 : c0 < g.topo.nc) (hne : c0 ≠ c1) : ∃ r, neighbours g c0 c1 = .ok r ∧ (r = true ↔ g.Adjacent c0 c1) := by
  have hv := h.valid
  obtain ⟨b, hb⟩ : ∃ b, g.topo.cellFacepos[c0]? = some b := ⟨_, ia_get hv.csr (by omega)⟩
  obtain ⟨e, he⟩ : ∃ e, g.topo.cellFacepos[c0 + 1]? = some e := ⟨_, ia_get hv.csr (by omega)⟩
  have hend := ia_get hv.csr (i := g.topo.nc) le_rfl
  have hle : e ≤ g.topo.cellFacepos.getD g.topo.nc 0 := by
    have h1 := ia_mono hv.csr (i := c0 + 1) (j := g.topo.nc) (by omega) le_rfl
    have h2 := ia_get hv.csr (i := c0 + 1) (by omega)
    rw [he] at h2
    cases h2
    exact h1
  have hlen := hv.csr.bound _ hend
  unfold neighbours forRange
  rw [rd_of_getElem? hb, bind_ok, rd_of_getElem? he, bind_ok]
  obtain ⟨r, er, hr⟩ := loop_inv (n := e - b) (s := false) (f := fun k (r : Bool) =>
      if r then .ok true
      else do
        let f ← rd g.topo.cellFaces (b + k)
        let x ← rd g.topo.faceCells (2 * f)
        if x = (c1 : Int) then .ok true
        else do
          let y ← rd g.topo.faceCells (2 * f + 1)
          .ok (decide (y = (c1 : Int))))
    (fun k (r : Bool) => r = true ↔ ∃ t f x y, t < k ∧ g.topo.cellFaces[b + t]? = some f ∧ g.topo.Sides f x y ∧ (x = (c1 : Int) ∨ y = (c1 : Int)))
    (by simp) (by
      intro k r hk hr
      by_cases hr1 : r = true
      · rw [if_pos hr1]
        refine ⟨true, rfl, ?_⟩
        obtain ⟨t, f, x, y, h1, h2⟩ := hr.1 hr1
        simp only [true_iff]
        exact ⟨t, f, x, y, by omega, h2⟩
      · rw [if_neg hr1]
        obtain ⟨f, hf⟩ : ∃ f, g.topo.cellFaces[b + k]? = some f := ⟨_, List.getElem?_eq_getElem (by omega)⟩
        have hfl : f < g.topo.nf := hv.csr.range _ _ _ hend (by omega) hf
        obtain ⟨x, y, hs⟩ := sides_lt hv hfl
        rw [rd_of_getElem? hf, bind_ok, rd_of_getElem? hs.1, bind_ok]
        have key : (∃ t f x y, t < k + 1 ∧ g.topo.cellFaces[b + t]? = some f ∧ g.topo.Sides f x y ∧ (x = (c1 : Int) ∨ y = (c1 : Int))) ↔ (x = (c1 : Int) ∨ y = (c1 : Int)) := by
          constructor
          · rintro ⟨t, f', x', y', h1, h2, h3, h4⟩
            by_cases ht : t < k
            · exact absurd (hr.2 ⟨t, f', x', y', ht, h2, h3, h4⟩) hr1
            · obtain rfl : t = k := by omega
              rw [hf] at h2
              cases h2
              have e1 := h3.1; rw [hs.1] at e1; cases e1
              have e2 := h3.2; rw [hs.2] at e2; cases e2
              exact h4
          · intro h4
            exact ⟨k, f, x, y, by omega, hf, hs, h4⟩
        by_cases hx : x = (c1 : Int)
        · rw [if_pos hx]
          exact ⟨true, rfl, by rw [key]; simp [hx]⟩
        · rw [if_neg hx, rd_of_getElem? hs.2, bind_ok]
          exact ⟨_, rfl, by rw [key]; simp [hx]⟩)
  refine ⟨r, er, ?_⟩
  rw [hr]
  constructor
  · rintro ⟨t, f, x, y, h1, h2, h3, h4⟩
    have hh : g.topo.HasFace c0 f := ⟨b, e, b + t, hb, he, by omega, by omega, h2⟩
    have ha := (hv.agree c0 f x y h3).1 hh
    refine ⟨f, ?_⟩
    rcases ha with rfl | rfl
    · rcases h4 with h4 | rfl
      · exact absurd (by exact_mod_cast h4) hne
      · exact Or.inl h3
    · rcases h4 with rfl | h4
      · exact Or.inr h3
      · exact absurd (by exact_mod_cast h4) hne
  · rintro ⟨f, hs | hs⟩
    · obtain ⟨p, q, t, hp, hq, h1, h2, h3⟩ := (hv.agree c0 f _ _ hs).2 (Or.inl rfl)
      rw [hb] at hp; cases hp
      rw [he] at hq; cases hq
      exact ⟨t - b, f, _, _, by omega, by rw [show b + (t - b) = t by omega]; exact h3, hs, Or.inr rfl⟩
    · obtain ⟨p, q, t, hp, hq, h1, h2, h3⟩ := (hv.agree c0 f _ _ hs).2 (Or.inr rfl)
      rw [hb] at hp; cases hp
      rw [he] at hq; cases hq
      exact ⟨t - b, f, _, _, by omega, by rw [show b + (t - b) = t by omega]; exact h3, hs, Or.inl rfl⟩

/-! ## Splitting a list at places without adjacency -/

/-- The parts `ps` of `l`: maximal runs of adjacent elements. -/
structure Runs (R : Nat → Nat → Prop) (l : List Nat) (ps : List (List Nat)) : Prop where
  flat : ps.flatten = l
  nonempty : [] ∉ ps
  chain : ∀ p ∈ ps, p.IsChain R
  apart : ps.IsChain (fun a b => ∀ x ∈ a.getLast?, ∀ y ∈ b.head?, ¬ R x y)

theorem Runs.extend {R : Nat → Nat → Prop} {l cur : List Nat} {news : List (List Nat)} {x y : Nat} (h : Runs R l (news ++ [cur])) (hx : cur.getLast? = some x) (hr : R x y) :
    Runs R (l ++ [y]) (news ++ [cur ++ [y]]) := by
  have hne : cur ≠ [] := by rintro rfl; cases hx
  obtain ⟨h1, h2, h3, h4⟩ := h
  refine ⟨?_, ?_, ?_, ?_⟩
  · rw [← h1]; simp
  · intro hm
    rcases List.mem_append.1 hm with hm | hm
    · exact h2 (List.mem_append.2 (Or.inl hm))
    · simp at hm
  · intro p hp
    rcases List.mem_append.1 hp with hp | hp
    · exact h3 p (List.mem_append.2 (Or.inl hp))
    · obtain rfl : p = cur ++ [y] := by simpa using hp
      refine List.isChain_append.2 ⟨h3 cur (by simp), List.isChain_singleton _, ?_⟩
      intro a ha b hb
      rw [hx] at ha
      cases ha
      simp at hb
      subst hb
      exact hr
  · obtain ⟨k1, k2, k3⟩ := List.isChain_append.1 h4
    refine List.isChain_append.2 ⟨k1, List.isChain_singleton _, ?_⟩
    intro a ha b hb
    simp at hb
    subst hb
    intro u hu v hv
    refine k3 a ha cur (by simp) u hu v ?_
    cases cur with
    | nil => exact absurd rfl hne
    | cons c cs => simpa using hv

theorem Runs.cut {R : Nat → Nat → Prop} {l cur : List Nat} {news : List (List Nat)} {x y : Nat} (h : Runs R l (news ++ [cur])) (hx : cur.getLast? = some x) (hr : ¬ R x y) :
    Runs R (l ++ [y]) (news ++ [cur] ++ [[y]]) := by
  obtain ⟨h1, h2, h3, h4⟩ := h
  refine ⟨?_, ?_, ?_, ?_⟩
  · rw [← h1]; simp
  · intro hm
    rcases List.mem_append.1 hm with hm | hm
    · exact h2 hm
    · simp at hm
  · intro p hp
    rcases List.mem_append.1 hp with hp | hp
    · exact h3 p hp
    · obtain rfl : p = [y] := by simpa using hp
      exact List.isChain_singleton _
  · refine List.isChain_append.2 ⟨h4, List.isChain_singleton _, ?_⟩
    intro a ha b hb
    simp at ha hb
    subst ha
    subst hb
    intro u hu v hv
    rw [hx] at hu
    cases hu
    simp at hv
    subst hv
    exact hr

theorem infix_cons_append {a b : Nat} {p q : List Nat} (h : [a, b] <:+: p ++ q) : [a, b] <:+: p ∨ [a, b] <:+: q ∨ (a ∈ p.getLast? ∧ b ∈ q.head?) := by
  induction p with
  | nil => exact Or.inr (Or.inl h)
  | cons c p ih =>
    rw [List.cons_append, List.infix_cons_iff] at h
    rcases h with h | h
    · cases p with
      | nil =>
        rw [List.nil_append] at h
        obtain ⟨t, ht⟩ := h
        simp at ht
        obtain ⟨rfl, rfl⟩ := ht
        exact Or.inr (Or.inr ⟨by simp, by simp⟩)
      | cons d p =>
        obtain ⟨t, ht⟩ := h
        simp at ht
        obtain ⟨rfl, rfl, rfl⟩ := ht
        exact Or.inl ⟨[], p, by simp⟩
    · rcases ih h with h | h | ⟨h1, h2⟩
      · exact Or.inl (List.infix_cons h)
      · exact Or.inr (Or.inl h)
      · refine Or.inr (Or.inr ⟨?_, h2⟩)
        cases p with
        | nil => cases h1
        | cons d p => simpa using h1

theorem chain_infix {R : Nat → Nat → Prop} {p : List Nat} {a b : Nat} (h : p.IsChain R) (hi : [a, b] <:+: p) : R a b := by
  have := h.infix hi
  simpa using this

theorem infix_flatten {ps : List (List Nat)} {p : List Nat} (hp : p ∈ ps) : p <:+: ps.flatten := by
  obtain ⟨s, t, rfl⟩ := List.append_of_mem hp
  exact ⟨s.flatten, t.flatten, by simp⟩

/-- Elements that follow each other in the list do so in one of the runs exactly if they are adjacent. -/
theorem Runs.joined {R : Nat → Nat → Prop} {l : List Nat} {ps : List (List Nat)} (h : Runs R l ps) {a b : Nat} :
    (∃ p ∈ ps, [a, b] <:+: p) ↔ [a, b] <:+: l ∧ R a b := by
  obtain ⟨rfl, h2, h3, h4⟩ := h
  constructor
  · rintro ⟨p, hp, hi⟩
    exact ⟨hi.trans (infix_flatten hp), chain_infix (h3 p hp) hi⟩
  · rintro ⟨hi, hr⟩
    induction ps with
    | nil => simp at hi
    | cons p ps ih =>
      rw [List.flatten_cons] at hi
      rcases infix_cons_append hi with h | h | ⟨g1, g2⟩
      · exact ⟨p, by simp, h⟩
      · obtain ⟨q, hq, hi'⟩ := ih (fun hm => h2 (List.mem_cons_of_mem _ hm)) (fun q hq => h3 q (List.mem_cons_of_mem _ hq)) h4.of_cons h
        exact ⟨q, List.mem_cons_of_mem _ hq, hi'⟩
      · exfalso
        cases ps with
        | nil => simp at g2
        | cons q ps =>
          have hq : q ≠ [] := by rintro rfl; exact h2 (by simp)
          have g3 : b ∈ q.head? := by
            cases q with
            | nil => exact absurd rfl hq
            | cons c q => simpa using g2
          exact (List.isChain_cons_cons.1 h4).1 a g1 b g3 hr

/-- `splitColumn` finds the runs. -/
theorem splitColumn_ok (h : g.Ok) {col : List Nat} (hne : col ≠ []) (hn : col.Nodup) (hc : ∀ c ∈ col, c < g.topo.nc) :
    ∃ news rest, splitColumn g col = .ok (news, rest) ∧ Runs g.Adjacent col (news ++ [rest]) := by
  have hpos : 0 < col.length := List.length_pos_iff.2 hne
  unfold splitColumn forRange
  obtain ⟨r, e, h1, h2⟩ := loop_inv (n := col.length - 1) (s := ((0, []) : Nat × List (List Nat))) (f := fun k (s : Nat × List (List Nat)) => do
      let c0 ← rd col (1 + k - 1)
      let c1 ← rd col (1 + k)
      let n ← neighbours g c0 c1
      if n then .ok s
      else .ok (1 + k, s.2 ++ [(col.drop s.1).take (1 + k - s.1)]))
    (fun k (s : Nat × List (List Nat)) => s.1 < k + 1 ∧ Runs g.Adjacent (col.take (k + 1)) (s.2 ++ [(col.drop s.1).take (k + 1 - s.1)]))
    (by
      refine ⟨by simp, ?_⟩
      cases col with
      | nil => exact absurd rfl hne
      | cons c cs =>
        refine ⟨by simp, by simp, ?_, by simp⟩
        intro p hp
        obtain rfl : p = [c] := by simpa using hp
        exact List.isChain_singleton _)
    (by
      rintro k ⟨first, news⟩ hk ⟨h1, h2⟩
      simp only at h1 h2 ⊢
      rw [rd_ok (show 1 + k - 1 < col.length by omega), bind_ok, rd_ok (show 1 + k < col.length by omega), bind_ok]
      have hdiff : col[1 + k - 1]'(by omega) ≠ col[1 + k]'(by omega) := by
        intro he
        have := (List.Nodup.getElem_inj_iff hn).1 he
        omega
      obtain ⟨n, en, hiff⟩ := neighbours_ok h (hc _ (List.getElem_mem (show 1 + k - 1 < col.length by omega))) hdiff
      rw [en, bind_ok]
      have hlast : ((col.drop first).take (k + 1 - first)).getLast? = some (col[1 + k - 1]'(by omega)) := by
        rw [List.getLast?_eq_getElem?, List.length_take, List.length_drop, List.getElem?_take_of_lt (by omega), List.getElem?_drop]
        rw [show first + (min (k + 1 - first) (col.length - first) - 1) = 1 + k - 1 by omega]
        exact List.getElem?_eq_getElem _
      have htake : col.take (k + 1 + 1) = col.take (k + 1) ++ [col[1 + k]'(by omega)] := by
        rw [List.take_add_one, List.getElem?_eq_getElem (by omega)]
        simp [Nat.add_comm]
      by_cases hb : n = true
      · rw [if_pos hb]
        refine ⟨_, rfl, by simp only; omega, ?_⟩
        have := h2.extend hlast (hiff.1 hb)
        rw [htake]
        have e2 : (col.drop first).take (k + 1 + 1 - first) = (col.drop first).take (k + 1 - first) ++ [col[1 + k]'(by omega)] := by
          rw [show k + 1 + 1 - first = k + 1 - first + 1 by omega, List.take_add_one, List.getElem?_drop, show first + (k + 1 - first) = 1 + k by omega,
            List.getElem?_eq_getElem (by omega)]
          rfl
        simp only
        rw [e2]
        exact this
      · rw [if_neg hb]
        refine ⟨_, rfl, by simp only; omega, ?_⟩
        have := h2.cut hlast (y := col[1 + k]'(by omega)) (fun hadj => hb (hiff.2 hadj))
        rw [htake]
        have e2 : (col.drop (1 + k)).take (k + 1 + 1 - (1 + k)) = [col[1 + k]'(by omega)] := by
          rw [show k + 1 + 1 - (1 + k) = 0 + 1 by omega, List.take_add_one, List.getElem?_drop, Nat.add_zero, List.getElem?_eq_getElem (by omega)]
          rfl
        simp only
        rw [e2, show 1 + k - first = k + 1 - first by omega]
        exact this)
  obtain ⟨first, news⟩ := r
  rw [e, bind_ok]
  refine ⟨news, col.drop first, rfl, ?_⟩
  simp only at h1 h2
  rw [show col.length - 1 + 1 = col.length by omega, List.take_length, List.take_of_length_le (by rw [List.length_drop])] at h2
  exact h2

/-- `splitAll`: what remains of the columns, and the parts split off, are all the runs. -/
theorem splitAll_ok (h : g.Ok) {columns : List (List Nat)} (hok : ∀ col ∈ columns, col ≠ [] ∧ col.Nodup ∧ ∀ c ∈ col, c < g.topo.nc) :
    ∃ parts, splitAll g columns = .ok (parts.map Prod.snd, parts.flatMap Prod.fst) ∧ List.Forall₂ (fun col (p : List (List Nat) × List Nat) => Runs g.Adjacent col (p.1 ++ [p.2])) columns parts := by
  suffices hh : ∀ (a b : List (List Nat)), ∃ parts, columns.foldlM (fun (s : List (List Nat) × List (List Nat)) col => do
      let r ← splitColumn g col
      .ok (s.1 ++ [r.2], s.2 ++ r.1)) (a, b) = .ok (a ++ parts.map Prod.snd, b ++ parts.flatMap Prod.fst) ∧
      List.Forall₂ (fun col (p : List (List Nat) × List Nat) => Runs g.Adjacent col (p.1 ++ [p.2])) columns parts by
    obtain ⟨parts, e, hp⟩ := hh [] []
    exact ⟨parts, e, hp⟩
  induction columns with
  | nil => exact fun a b => ⟨[], by simp [List.foldlM], List.Forall₂.nil⟩
  | cons col cols ih =>
    intro a b
    obtain ⟨h1, h2, h3⟩ := hok col (by simp)
    obtain ⟨news, rest, e, hr⟩ := splitColumn_ok h h1 h2 h3
    obtain ⟨parts, e', hp⟩ := ih (fun c hc => hok c (List.mem_cons_of_mem _ hc)) (a ++ [rest]) (b ++ news)
    refine ⟨(news, rest) :: parts, ?_, List.Forall₂.cons hr hp⟩
    rw [List.foldlM_cons, e, bind_ok, bind_ok, e']
    simp

/-! ## Gathering the cells of a column -/

/-- Number of the column of a cell. -/
def ColGrid.col (g : ColGrid) (c : Nat) : Nat := g.i c + g.j c * g.nx

theorem jcart (n : Nat) : (n - n / g.nx / g.ny * g.nx * g.ny) / g.nx = n / g.nx % g.ny := by
  have h1 : n / g.nx / g.ny * g.nx * g.ny = g.nx * (g.ny * (n / g.nx / g.ny)) := by ring
  rw [h1, Nat.sub_mul_div_of_le]
  · have := Nat.div_add_mod (n / g.nx) g.ny
    omega
  · calc g.nx * (g.ny * (n / g.nx / g.ny)) ≤ g.nx * (n / g.nx) := Nat.mul_le_mul_left _ (Nat.mul_div_le _ _)
      _ ≤ n := Nat.mul_div_le _ _

theorem col_eq_iff (h : g.Ok) {c c' : Nat} : g.col c = g.col c' ↔ g.SameColumn c c' := by
  have h1 : g.i c < g.nx := Nat.mod_lt _ h.nx
  have h2 : g.i c' < g.nx := Nat.mod_lt _ h.nx
  unfold ColGrid.col ColGrid.SameColumn
  constructor
  · intro e
    have e1 : (g.i c + g.j c * g.nx) % g.nx = (g.i c' + g.j c' * g.nx) % g.nx := by rw [e]
    rw [Nat.add_mul_mod_self_right, Nat.add_mul_mod_self_right, Nat.mod_eq_of_lt h1, Nat.mod_eq_of_lt h2] at e1
    refine ⟨e1, ?_⟩
    rw [e1] at e
    exact Nat.eq_of_mul_eq_mul_right h.nx (by omega)
  · rintro ⟨e1, e2⟩
    rw [e1, e2]

theorem k_inj (h : g.Ok) {c c' : Nat} (hc : c < g.topo.nc) (hc' : c' < g.topo.nc) (hs : g.SameColumn c c') (hk : g.k c = g.k c') : c = c' := by
  apply h.inj c c' hc hc'
  obtain ⟨e1, e2⟩ := hs
  unfold ColGrid.i at e1
  unfold ColGrid.j at e2
  unfold ColGrid.k at hk
  have h1 := Nat.div_add_mod (g.cart c) g.nx
  have h2 := Nat.div_add_mod (g.cart c') g.nx
  have h3 := Nat.div_add_mod (g.cart c / g.nx) g.ny
  have h4 := Nat.div_add_mod (g.cart c' / g.nx) g.ny
  have : g.cart c / g.nx = g.cart c' / g.nx := by rw [← h3, ← h4, hk, e2]
  rw [← h1, ← h2, this, e1]

/-- The columns found among the first `n` cells. -/
structure Gathered (g : ColGrid) (n : Nat) (s : List (Nat × Nat) × List (List Nat)) (keys : List Nat) : Prop where
  cols : s.2 = keys.map (fun q => (List.range n).filter (fun c => g.col c = q))
  nodup : keys.Nodup
  lookup : ∀ q, s.1.lookup q = if q ∈ keys then some (keys.idxOf q) else none
  keys : ∀ q, q ∈ keys ↔ ∃ c, c < n ∧ g.col c = q

theorem Gathered.step (h : g.Ok) {n : Nat} {s : List (Nat × Nat) × List (List Nat)} {keys : List Nat} (hs : Gathered g n s keys) (hn : n < g.topo.nc) :
    ∃ s' keys', gatherStep g n s = .ok s' ∧ Gathered g (n + 1) s' keys' := by
  obtain ⟨h1, h2, h3, h4⟩ := hs
  unfold gatherStep nmod ndiv
  have hx := h.nx
  have hy := h.ny
  rw [index_ok h hn, bind_ok, if_neg (by omega), bind_ok, if_neg (by omega), bind_ok, if_neg (by omega), bind_ok, if_neg (by omega), bind_ok, jcart]
  have hcol : g.cart n % g.nx + g.cart n / g.nx % g.ny * g.nx = g.col n := rfl
  rw [hcol, h3]
  have hfil : ∀ q, (List.range (n + 1)).filter (fun c => g.col c = q) = (List.range n).filter (fun c => g.col c = q) ++ if g.col n = q then [n] else [] := by
    intro q
    rw [List.range_succ, List.filter_append]
    congr 1
    by_cases hq : g.col n = q <;> simp [hq]
  by_cases hm : g.col n ∈ keys
  · rw [if_pos hm]
    simp only
    have hlt : keys.idxOf (g.col n) < keys.length := List.idxOf_lt_length_iff.2 hm
    have hg : s.2[keys.idxOf (g.col n)]? = some ((List.range n).filter (fun c => g.col c = g.col n)) := by
      rw [h1, List.getElem?_map, List.getElem?_eq_getElem hlt, List.getElem_idxOf hlt]
      rfl
    have hlen : s.2.length = keys.length := by rw [h1, List.length_map]
    rw [rd_of_getElem? hg, bind_ok, wr_ok (by omega), bind_ok]
    refine ⟨_, keys, rfl, ?_, h2, h3, ?_⟩
    · simp only
      apply List.ext_getElem?
      intro t
      rw [List.getElem?_set, List.getElem?_map]
      by_cases ht : keys.idxOf (g.col n) = t
      · subst ht
        rw [if_pos rfl, if_pos (by omega), List.getElem?_eq_getElem hlt, List.getElem_idxOf hlt]
        simp only [Option.map_some]
        rw [hfil, if_pos rfl]
      · rw [if_neg ht, h1, List.getElem?_map]
        by_cases htl : t < keys.length
        · rw [List.getElem?_eq_getElem htl]
          simp only [Option.map_some]
          rw [hfil, if_neg, List.append_nil]
          intro he
          exact ht (by rw [he]; exact h2.idxOf_getElem _ htl)
        · rw [List.getElem?_eq_none (by omega)]
          rfl
    · intro q
      rw [h4]
      constructor
      · rintro ⟨c, hc, e⟩
        exact ⟨c, by omega, e⟩
      · rintro ⟨c, hc, e⟩
        rcases Nat.lt_succ_iff_lt_or_eq.1 hc with hc | rfl
        · exact ⟨c, hc, e⟩
        · rw [e] at hm
          exact (h4 q).1 hm
  · rw [if_neg hm]
    simp only
    rw [rd_of_getElem? (x := []) (by simp), bind_ok, wr_ok (by simp), bind_ok]
    have hlen : s.2.length = keys.length := by rw [h1, List.length_map]
    have hno : ∀ c, c < n → g.col c ≠ g.col n := fun c hc e => hm ((h4 _).2 ⟨c, hc, e⟩)
    refine ⟨_, keys ++ [g.col n], rfl, ?_, ?_, ?_, ?_⟩
    · simp only
      rw [List.set_append_right _ _ (le_refl _), Nat.sub_self, List.set_cons_zero, List.map_append, List.nil_append]
      congr 1
      · rw [h1]
        apply List.map_congr_left
        intro q hq
        rw [hfil, if_neg, List.append_nil]
        rintro rfl
        exact hm hq
      · simp only [List.map_cons, List.map_nil]
        rw [hfil, if_pos rfl]
        rw [List.filter_eq_nil_iff.2 (by intro c hc; simpa using hno c (List.mem_range.1 hc))]
        rfl
    · rw [List.nodup_append]
      refine ⟨h2, by simp, ?_⟩
      intro a ha b hb e
      simp at hb
      subst hb
      subst e
      exact hm ha
    · intro q
      simp only [List.lookup_cons]
      by_cases hq : q = g.col n
      · subst hq
        simp only [beq_self_eq_true]
        rw [if_pos (by simp), List.idxOf_append_of_notMem hm, hlen]
        simp
      · have : (q == g.col n) = false := by simpa using hq
        rw [this]
        simp only
        rw [h3]
        by_cases hq' : q ∈ keys
        · rw [if_pos hq', if_pos (by simp [hq']), List.idxOf_append_of_mem hq']
        · rw [if_neg hq', if_neg (by simp [hq', hq])]
    · intro q
      rw [List.mem_append, List.mem_singleton, h4]
      constructor
      · rintro (⟨c, hc, e⟩ | rfl)
        · exact ⟨c, by omega, e⟩
        · exact ⟨n, by omega, rfl⟩
      · rintro ⟨c, hc, e⟩
        rcases Nat.lt_succ_iff_lt_or_eq.1 hc with hc | rfl
        · exact Or.inl ⟨c, hc, e⟩
        · exact Or.inr e.symm

theorem gather_ok (h : g.Ok) : ∃ s keys, gather g [] = .ok s ∧ Gathered g g.topo.nc s keys := by
  unfold gather
  obtain ⟨s, e, keys, hk⟩ := loop_inv (n := g.topo.nc) (f := gatherStep g) (s := (([], []) : List (Nat × Nat) × List (List Nat)))
    (fun n (s : List (Nat × Nat) × List (List Nat)) => ∃ keys, Gathered g n s keys) ⟨[], by simp, by simp, by simp, by simp⟩ (by
      rintro n s hn ⟨keys, hs⟩
      obtain ⟨s', keys', e, hs'⟩ := hs.step h hn
      exact ⟨s', e, keys', hs'⟩)
  exact ⟨s, keys, e, hk⟩

/-! ## The whole function -/

/-- In a list sorted by `k`, elements without others between them follow each other. -/
theorem sorted_next {k : Nat → Nat} {l : List Nat} (hs : l.Pairwise (fun a b => k a < k b)) {c c' : Nat} :
    [c, c'] <:+: l ↔ c ∈ l ∧ c' ∈ l ∧ k c < k c' ∧ ∀ x ∈ l, ¬ (k c < k x ∧ k x < k c') := by
  constructor
  · rintro ⟨s, t, rfl⟩
    refine ⟨by simp, by simp, ?_, ?_⟩
    · simp only [List.append_assoc, List.cons_append, List.nil_append] at hs
      have := (List.pairwise_append.1 hs).2.1
      exact (List.pairwise_cons.1 this).1 c' (by simp)
    · intro x hx
      simp only [List.append_assoc, List.cons_append, List.nil_append] at hs hx
      obtain ⟨_, p2, p3⟩ := List.pairwise_append.1 hs
      obtain ⟨p4, p5⟩ := List.pairwise_cons.1 p2
      obtain ⟨p6, _⟩ := List.pairwise_cons.1 p5
      rcases List.mem_append.1 hx with hx | hx
      · have := p3 x hx c (by simp)
        omega
      · simp only [List.mem_cons] at hx
        rcases hx with rfl | rfl | hx
        · omega
        · omega
        · have := p6 x hx
          omega
  · rintro ⟨h1, h2, h3, h4⟩
    obtain ⟨s, t, rfl⟩ := List.append_of_mem h1
    obtain ⟨_, p2, p3⟩ := List.pairwise_append.1 hs
    obtain ⟨p4, p5⟩ := List.pairwise_cons.1 p2
    have h5 : c' ∈ t := by
      rcases List.mem_append.1 h2 with h | h
      · have := p3 c' h c (by simp)
        omega
      · simp only [List.mem_cons] at h
        rcases h with rfl | h
        · omega
        · exact h
    cases t with
    | nil => cases h5
    | cons x t =>
      have : x = c' := by
        by_contra hne
        have hx := p4 x (by simp)
        have hm : c' ∈ t := by
          rcases List.mem_cons.1 h5 with e | h
          · exact absurd e.symm hne
          · exact h
        exact h4 x (by simp) ⟨hx, (List.pairwise_cons.1 p5).1 c' hm⟩
      subst this
      exact ⟨s, t, by simp⟩

theorem forall₂_map_left {α β γ : Type} {f : α → β} {R : β → γ → Prop} {l : List α} {m : List γ} (h : List.Forall₂ R (l.map f) m) : List.Forall₂ (fun a c => R (f a) c) l m := by
  simpa using h

theorem perm_parts (parts : List (List (List Nat) × List Nat)) : (parts.map Prod.snd ++ parts.flatMap Prod.fst).Perm (parts.flatMap (fun p => p.1 ++ [p.2])) := by
  induction parts with
  | nil => simp
  | cons p ps ih =>
    simp only [List.map_cons, List.flatMap_cons, List.cons_append]
    have h1 : (p.2 :: (ps.map Prod.snd ++ (p.1 ++ ps.flatMap Prod.fst))).Perm (p.2 :: (p.1 ++ (ps.map Prod.snd ++ ps.flatMap Prod.fst))) := by
      refine List.Perm.cons _ ?_
      rw [← List.append_assoc, ← List.append_assoc]
      exact List.Perm.append_right _ List.perm_append_comm
    refine h1.trans ?_
    refine (List.Perm.cons _ (List.Perm.append_left _ ih)).trans ?_
    rw [List.append_assoc]
    exact (List.perm_middle (a := p.2) (l₁ := p.1) (l₂ := ps.flatMap (fun p => p.1 ++ [p.2]))).symm

theorem mem_parts {l : List Nat} {f : Nat → List Nat} {R : List Nat → List (List Nat) → Prop} {parts : List (List (List Nat) × List Nat)}
    (h : List.Forall₂ (fun q (p : List (List Nat) × List Nat) => R (f q) (p.1 ++ [p.2])) l parts) :
    (∀ p ∈ parts.flatMap (fun p => p.1 ++ [p.2]), ∃ q ∈ l, ∃ ps, R (f q) ps ∧ p ∈ ps ∧ ∀ x ∈ ps, x ∈ parts.flatMap (fun p => p.1 ++ [p.2])) ∧
    ∀ q ∈ l, ∃ ps, R (f q) ps ∧ ∀ x ∈ ps, x ∈ parts.flatMap (fun p => p.1 ++ [p.2]) := by
  induction h with
  | nil => simp
  | cons hr _ ih =>
    rename_i q p l parts _
    obtain ⟨i1, i2⟩ := ih
    simp only [List.flatMap_cons]
    constructor
    · intro x hx
      rcases List.mem_append.1 hx with hx | hx
      · exact ⟨q, by simp, _, hr, hx, fun y hy => List.mem_append.2 (Or.inl hy)⟩
      · obtain ⟨q', hq', ps, h1, h2, h3⟩ := i1 x hx
        exact ⟨q', List.mem_cons_of_mem _ hq', ps, h1, h2, fun y hy => List.mem_append.2 (Or.inr (h3 y hy))⟩
    · intro q' hq'
      rcases List.mem_cons.1 hq' with rfl | hq'
      · exact ⟨_, hr, fun y hy => List.mem_append.2 (Or.inl hy)⟩
      · obtain ⟨ps, h1, h3⟩ := i2 q' hq'
        exact ⟨ps, h1, fun y hy => List.mem_append.2 (Or.inr (h3 y hy))⟩

theorem flatten_parts {l : List Nat} {f : Nat → List Nat} {R : Nat → Nat → Prop} {parts : List (List (List Nat) × List Nat)}
    (h : List.Forall₂ (fun q (p : List (List Nat) × List Nat) => Runs R (f q) (p.1 ++ [p.2])) l parts) :
    (parts.flatMap (fun p => p.1 ++ [p.2])).flatten = l.flatMap f := by
  induction h with
  | nil => simp
  | cons hr _ ih =>
    rw [List.flatMap_cons, List.flatten_append, ih, hr.flat, List.flatMap_cons]

theorem extractColumn_ok (h : g.Ok) {sort : (Nat → Nat) → List Nat → List Nat} (hsort : Sorts sort) : ∃ cols, extractColumn sort g [] = .ok cols ∧ Stacks g cols := by
  obtain ⟨s, keys, e, hg⟩ := gather_ok h
  unfold extractColumn
  rw [e, bind_ok, hg.cols, List.map_map]
  obtain ⟨f, hf⟩ : ∃ f : Nat → List Nat, f = (sort g.kIndex) ∘ (fun q => (List.range g.topo.nc).filter (fun c => g.col c = q)) := ⟨_, rfl⟩
  rw [← hf]
  have hperm : ∀ q, (f q).Perm ((List.range g.topo.nc).filter (fun c => g.col c = q)) := fun q => by rw [hf]; exact (hsort _ _).1
  have hmem : ∀ q c, c ∈ f q ↔ c < g.topo.nc ∧ g.col c = q := fun q c => by rw [(hperm q).mem_iff]; simp
  have hnd : ∀ q, (f q).Nodup := fun q => (hperm q).nodup_iff.2 (List.nodup_range.filter _)
  have hstrict : ∀ q, (f q).Pairwise (fun a b => g.k a < g.k b) := by
    intro q
    have h1 : (f q).Pairwise (fun a b => g.k a ≤ g.k b) := by rw [hf]; exact (hsort g.kIndex _).2
    refine ((h1.and (hnd q)).imp_of_mem ?_)
    intro a b ha hb hab
    rcases Nat.lt_or_ge (g.k a) (g.k b) with hl | hl
    · exact hl
    · obtain ⟨a1, a2⟩ := (hmem q a).1 ha
      obtain ⟨b1, b2⟩ := (hmem q b).1 hb
      exact absurd (k_inj h a1 b1 ((col_eq_iff h).1 (by rw [a2, b2])) (by have := hab.1; omega)) hab.2
  obtain ⟨parts, e2, hp⟩ := splitAll_ok h (columns := keys.map f) (by
    intro col hcol
    obtain ⟨q, hq, rfl⟩ := List.mem_map.1 hcol
    refine ⟨?_, hnd q, fun c hc => ((hmem q c).1 hc).1⟩
    obtain ⟨c, hc, ec⟩ := (hg.keys q).1 hq
    intro hn
    have := (hmem q c).2 ⟨hc, ec⟩
    rw [hn] at this
    cases this)
  rw [e2, bind_ok]
  refine ⟨_, rfl, ?_⟩
  have hp' := forall₂_map_left hp
  have hperm2 := perm_parts parts
  obtain ⟨hm1, hm2⟩ := mem_parts (f := f) (R := Runs g.Adjacent) hp'
  have hmm : ∀ p, p ∈ parts.map Prod.snd ++ parts.flatMap Prod.fst ↔ p ∈ parts.flatMap (fun p => p.1 ++ [p.2]) := fun p => hperm2.mem_iff
  constructor
  · refine hperm2.flatten.trans ?_
    rw [flatten_parts hp']
    refine (List.perm_ext_iff_of_nodup ?_ List.nodup_range).2 ?_
    · rw [List.nodup_flatMap]
      refine ⟨fun q _ => hnd q, hg.nodup.imp ?_⟩
      intro q q' hne c hc hc'
      exact hne (((hmem q c).1 hc).2.symm.trans ((hmem q' c).1 hc').2)
    · intro c
      rw [List.mem_flatMap, List.mem_range]
      constructor
      · rintro ⟨q, _, hc⟩
        exact ((hmem q c).1 hc).1
      · intro hc
        exact ⟨g.col c, (hg.keys _).2 ⟨c, hc, rfl⟩, (hmem _ c).2 ⟨hc, rfl⟩⟩
  · intro hn
    obtain ⟨q, _, ps, hr, hx, _⟩ := hm1 [] ((hmm _).1 hn)
    exact hr.nonempty hx
  · intro col hcol
    obtain ⟨q, _, ps, hr, hx, _⟩ := hm1 col ((hmm _).1 hcol)
    have hi : col <:+: f q := by rw [← hr.flat]; exact infix_flatten hx
    refine ((hstrict q).sublist hi.sublist).imp_of_mem ?_
    intro a b ha hb hab
    refine ⟨(col_eq_iff h).1 ?_, hab⟩
    rw [((hmem q a).1 (hi.subset ha)).2, ((hmem q b).1 (hi.subset hb)).2]
  · intro c c' hc hc'
    have hrun : (∃ col ∈ parts.map Prod.snd ++ parts.flatMap Prod.fst, [c, c'] <:+: col) ↔ [c, c'] <:+: f (g.col c) ∧ g.Adjacent c c' := by
      constructor
      · rintro ⟨col, hcol, hi⟩
        obtain ⟨q, _, ps, hr, hx, _⟩ := hm1 col ((hmm _).1 hcol)
        have := hr.joined.1 ⟨col, hx, hi⟩
        have hcq := ((hmem q c).1 (this.1.subset (by simp))).2
        rw [hcq]
        exact this
      · intro hi
        obtain ⟨ps, hr, hall⟩ := hm2 (g.col c) ((hg.keys _).2 ⟨c, hc, rfl⟩)
        obtain ⟨p, hp, hi'⟩ := hr.joined.2 hi
        exact ⟨p, (hmm p).2 (hall p hp), hi'⟩
    rw [hrun, sorted_next (hstrict _)]
    constructor
    · rintro ⟨⟨_, h2, h3, h4⟩, h5⟩
      refine ⟨(col_eq_iff h).1 ((hmem _ c').1 h2).2.symm, h3, ?_, h5⟩
      intro x hx hsx
      exact h4 x ((hmem _ x).2 ⟨hx, ((col_eq_iff h).2 hsx).symm⟩)
    · rintro ⟨h1, h2, h3, h4⟩
      refine ⟨⟨(hmem _ c).2 ⟨hc, rfl⟩, (hmem _ c').2 ⟨hc', ((col_eq_iff h).2 h1).symm⟩, h2, ?_⟩, h4⟩
      intro x hx
      obtain ⟨x1, x2⟩ := (hmem _ x).1 hx
      exact h3 x x1 ((col_eq_iff h).1 x2.symm)

end Opm.ColumnExtract
