import Verif.Model.Dfs
import Verif.Proofs.Graph
import Mathlib.Data.List.Perm.Subperm
/-! # Correctness of the component colouring -/

namespace Opm.Dfs
open Opm Opm.Graph

/-! ### Small facts -/

/-- Function update. -/
def upd {β : Type _} (f : Nat → β) (v : Nat) (x : β) : Nat → β := fun u => if u = v then x else f u

@[simp] theorem upd_self {β : Type _} (f : Nat → β) (v : Nat) (x : β) : upd f v x v = x := by simp [upd]
theorem upd_ne {β : Type _} (f : Nat → β) {v u : Nat} (x : β) (h : u ≠ v) : upd f v x u = f u := by simp [upd, h]

/-- Sum of `f 0, …, f (n-1)`. -/
def sumTo (f : Nat → Nat) : Nat → Nat
  | 0 => 0
  | n + 1 => sumTo f n + f n

theorem sumTo_le (f : Nat → Nat) (n B : Nat) (h : ∀ v, v < n → f v ≤ B) : sumTo f n ≤ n * B := by
  induction n with
  | zero => simp [sumTo]
  | succ n ih =>
    have := ih (fun v hv => h v (by omega))
    have := h n (by omega)
    simp only [sumTo, Nat.succ_mul]; omega

theorem sumTo_congr (f g : Nat → Nat) (n : Nat) (h : ∀ v, v < n → f v = g v) : sumTo f n = sumTo g n := by
  induction n with
  | zero => rfl
  | succ n ih =>
    simp only [sumTo]
    rw [ih (fun v hv => h v (by omega)), h n (by omega)]

theorem sumTo_upd (f : Nat → Nat) (n v x : Nat) (hv : v < n) : sumTo (upd f v x) n + f v = sumTo f n + x := by
  induction n with
  | zero => omega
  | succ n ih =>
    simp only [sumTo]
    by_cases h : v = n
    · subst h
      rw [sumTo_congr (upd f v x) f v (fun u hu => upd_ne _ _ (by omega)), upd_self]; omega
    · have := ih (by omega)
      rw [upd_ne _ _ (by omega)]; omega

theorem le_sumTo (f : Nat → Nat) (n : Nat) (h : ∀ v, v < n → 0 < f v) : n ≤ sumTo f n := by
  induction n with
  | zero => omega
  | succ n ih =>
    have := ih (fun v hv => h v (by omega))
    have := h n (by omega)
    simp only [sumTo]; omega

theorem nodup_length_le {l : List Nat} {n : Nat} (hn : l.Nodup) (h : ∀ v ∈ l, v < n) : l.length ≤ n := by
  have : l ⊆ List.range n := fun v hv => List.mem_range.2 (h v hv)
  simpa using (hn.subperm this).length_le

theorem mem_of_full {l : List Nat} {n : Nat} (hn : l.Nodup) (h : ∀ v ∈ l, v < n) (hl : n ≤ l.length)
    {v : Nat} (hv : v < n) : v ∈ l := by
  rcases Classical.em (v ∈ l) with h1 | h1
  · exact h1
  · exfalso
    have : (v :: l).length ≤ n := nodup_length_le (List.nodup_cons.2 ⟨h1, hn⟩) (by
      intro u hu
      rcases List.mem_cons.1 hu with rfl | hu
      · exact hv
      · exact h u hu)
    simp at this; omega

/-! ### The invariant -/

section
variable {n : Nat} {ia ja : List Nat}

/-- Concrete state against abstract colours, counters and stack (top first). -/
structure Rep (n : Nat) (col : Nat → Int) (cnt : Nat → Nat) (stk : List Nat) (s : State) : Prop where
  clen : n ≤ s.color.length
  wlen : 2 * n ≤ s.work.length
  col : ∀ v : Nat, v < n → s.color[v]? = some (col v)
  cnt : ∀ v : Nat, v < n → s.work[n + v]? = some (cnt v : Int)
  sp : s.sp = stk.length
  stk : s.work.take stk.length = stk.reverse.map (fun v : Nat => (v : Int))

/-- Facts that hold throughout the treatment of one seed `i` with colour `nc`;
`col0` are the colours before. -/
structure Base (n : Nat) (ia ja : List Nat) (col0 : Nat → Int) (nc i : Nat)
    (col : Nat → Int) (stk : List Nat) : Prop where
  lt : ∀ v ∈ stk, v < n
  reach : ∀ v ∈ stk, Reach ia ja i v
  fin : ∀ v, v < n → col v = nc → Reach ia ja i v
  colr : ∀ v, v < n → col v = -1 ∨ (col v = -2 ∧ v ∈ stk) ∨ 0 ≤ col v
  stkc : ∀ v ∈ stk, col v < 0 ∨ col v = nc
  old : ∀ v, v < n → 0 ≤ col0 v → col v = col0 v
  new : ∀ v, v < n → 0 ≤ col v → col v = col0 v ∨ col v = nc
  oldlt : ∀ v, v < n → col0 v < nc
  seedc : col i ≠ -1
  before : ∀ v, v < i → 0 ≤ col0 v

/-- Normal operation. -/
structure Norm (n : Nat) (ia ja : List Nat) (nc : Nat) (col : Nat → Int) (cnt : Nat → Nat)
    (stk : List Nat) : Prop where
  nodup : stk.Nodup
  tailc : ∀ v ∈ stk.tail, col v = -2
  topc : ∀ c, stk.head? = some c → col c = -1 ∨ col c = -2 ∨ (col c = nc ∧ cnt c = 0)
  taild : ∀ v ∈ stk.tail, cnt v < (adj ia ja v).length
  cntr : ∀ v, v < n → cnt v ≤ (adj ia ja v).length
  unv : ∀ v, v < n → col v = -1 → v ∉ stk → cnt v = (adj ia ja v).length
  fin0 : ∀ v, v < n → col v = nc → cnt v = 0
  clo : ∀ v, v < n → v ∈ stk ∨ col v = nc → ∀ (k : Nat) w, cnt v ≤ k → (adj ia ja v)[k]? = some w →
    col w ≠ -1 ∨ w ∈ stk

/-- Nothing is unvisited any more: the stack only shrinks. -/
structure Drain (n : Nat) (ia : List Nat) (col : Nat → Int) (cnt : Nat → Nat) (stk : List Nat) : Prop where
  vis : ∀ v, v < n → col v ≠ -1
  cntr : ∀ v, v < n → ia.getD v 0 + cnt v ≤ ia.getD n 0
  len : stk.length ≤ n

/-- What one seed achieves. -/
structure Done (n : Nat) (ia ja : List Nat) (col0 : Nat → Int) (nc i : Nat) (col : Nat → Int)
    (cnt : Nat → Nat) : Prop where
  base : Base n ia ja col0 nc i col []
  unv : ∀ v, v < n → col v = -1 → cnt v = (adj ia ja v).length
  clo : ∀ v, v < n → col v = nc → ∀ w ∈ adj ia ja v, col w ≠ -1
  cntr : ∀ u, u < n → col u = -1 → ∀ v, v < n → cnt v ≤ (adj ia ja v).length

/-- Bound used by the measure. -/
def big (n : Nat) (ja : List Nat) : Nat := 2 * (n * ja.length) + n + 2

/-- The phases of the inner loop with the measure. -/
inductive Phase (n : Nat) (ia ja : List Nat) (nc : Nat) (col : Nat → Int) (cnt : Nat → Nat) :
    List Nat → Nat → Prop
  | norm {stk} {m} (h : Norm n ia ja nc col cnt stk) (hm : big n ja + 2 * sumTo cnt n + stk.length ≤ m) :
      Phase n ia ja nc col cnt stk m
  | dup {w rest} {m} (h : Norm n ia ja nc col cnt (w :: rest)) (hc : col w = -2) (h0 : cnt w = 0)
      (hl : rest.length + 2 ≤ n) (hm : big n ja + 2 * sumTo cnt n + rest.length + 2 ≤ m) :
      Phase n ia ja nc col cnt (w :: w :: rest) m
  | over {w rest} {m} (h : Drain n ia col cnt (w :: rest)) (h0 : cnt w = 0)
      (hm : 2 * sumTo cnt n + rest.length + 2 ≤ m) : Phase n ia ja nc col cnt (w :: w :: rest) m
  | drain {stk} {m} (h : Drain n ia col cnt stk) (hm : 2 * sumTo cnt n + stk.length ≤ m) :
      Phase n ia ja nc col cnt stk m

/-- The loop invariant. -/
def Inv (n : Nat) (ia ja : List Nat) (col0 : Nat → Int) (nc i : Nat) (L : Nat × Nat) (m : Nat) (s : State) : Prop :=
  ∃ col cnt stk, Rep n col cnt stk s ∧ Base n ia ja col0 nc i col stk ∧ Phase n ia ja nc col cnt stk m ∧
    (s.color.length, s.work.length) = L

/-- The postcondition of the loop. -/
def Post (n : Nat) (ia ja : List Nat) (col0 : Nat → Int) (nc i : Nat) (L : Nat × Nat) (s : State) : Prop :=
  ∃ col cnt, Rep n col cnt [] s ∧ Done n ia ja col0 nc i col cnt ∧ (s.color.length, s.work.length) = L

/-! ### Representation lemmas -/

theorem rep_top {col : Nat → Int} {cnt : Nat → Nat} {c : Nat} {rest : List Nat} {s : State}
    (h : Rep n col cnt (c :: rest) s) : s.work[s.sp - 1]? = some (c : Int) := by
  have h1 := h.stk
  have h2 : (s.work.take (c :: rest).length)[rest.length]? = some (c : Int) := by
    rw [h1]; simp
  rw [List.getElem?_take, if_pos (by simp)] at h2
  rw [h.sp]; simpa using h2

theorem rep_dec {col : Nat → Int} {cnt : Nat → Nat} {stk : List Nat} {s : State} {c x : Nat}
    (h : Rep n col cnt stk s) (hc : c < n) (hl : stk.length ≤ n) :
    Rep n col (upd cnt c x) stk { s with work := s.work.set (n + c) (x : Int) } where
  clen := h.clen
  wlen := by simpa using h.wlen
  col := h.col
  cnt := by
    intro v hv
    by_cases hvc : v = c
    · subst hvc
      have := h.wlen
      simp only [upd_self]
      rw [List.getElem?_set_self (by omega)]
    · simp only
      rw [List.getElem?_set_ne (by omega), upd_ne _ _ hvc]; exact h.cnt v hv
  sp := h.sp
  stk := by
    simp only
    rw [List.take_set_of_le (by omega)]; exact h.stk

theorem rep_pop {col : Nat → Int} {cnt : Nat → Nat} {c : Nat} {rest : List Nat} {s : State} {x : Int}
    (h : Rep n col cnt (c :: rest) s) (hc : c < n) :
    Rep n (upd col c x) cnt rest { s with color := s.color.set c x, sp := s.sp - 1 } where
  clen := by simpa using h.clen
  wlen := h.wlen
  col := by
    intro v hv
    by_cases hvc : v = c
    · subst hvc
      have := h.clen
      simp only [upd_self]
      rw [List.getElem?_set_self (by omega)]
    · simp only
      rw [List.getElem?_set_ne (by omega), upd_ne _ _ hvc]; exact h.col v hv
  cnt := h.cnt
  sp := by simp [h.sp]
  stk := by
    have h1 := congrArg (List.take rest.length) h.stk
    rw [List.take_take, Nat.min_eq_left (by simp)] at h1
    simp only [h1, List.reverse_cons, List.map_append]
    rw [List.take_left' (by simp)]

theorem rep_color {col : Nat → Int} {cnt : Nat → Nat} {stk : List Nat} {s : State} {c : Nat} {x : Int}
    (h : Rep n col cnt stk s) (hc : c < n) :
    Rep n (upd col c x) cnt stk { s with color := s.color.set c x } where
  clen := by simpa using h.clen
  wlen := h.wlen
  col := by
    intro v hv
    by_cases hvc : v = c
    · subst hvc
      have := h.clen
      simp only [upd_self]
      rw [List.getElem?_set_self (by omega)]
    · simp only
      rw [List.getElem?_set_ne (by omega), upd_ne _ _ hvc]; exact h.col v hv
  cnt := h.cnt
  sp := h.sp
  stk := h.stk

theorem rep_push {col : Nat → Int} {cnt : Nat → Nat} {stk : List Nat} {s : State} {w : Nat}
    (h : Rep n col cnt stk s) (hl : stk.length < n) :
    Rep n col cnt (w :: stk) { s with work := s.work.set s.sp (w : Int), sp := s.sp + 1 } where
  clen := h.clen
  wlen := by simpa using h.wlen
  col := h.col
  cnt := by
    intro v hv
    simp only
    rw [h.sp, List.getElem?_set_ne (by omega)]; exact h.cnt v hv
  sp := by simp [h.sp]
  stk := by
    have := h.wlen
    simp only [h.sp, List.length_cons]
    rw [take_set_self _ _ _ (by omega), h.stk]; simp

/-- Pushing onto a stack that already has `n` entries overwrites the counter of vertex `0`. -/
theorem rep_push_over {col : Nat → Int} {cnt : Nat → Nat} {stk : List Nat} {s : State} {w : Nat}
    (h : Rep n col cnt stk s) (hl : stk.length = n) (hn : 0 < n) :
    Rep n col (upd cnt 0 w) (w :: stk) { s with work := s.work.set s.sp (w : Int), sp := s.sp + 1 } where
  clen := h.clen
  wlen := by simpa using h.wlen
  col := h.col
  cnt := by
    intro v hv
    have := h.wlen
    simp only
    by_cases hv0 : v = 0
    · subst hv0
      rw [h.sp, hl, Nat.add_zero, List.getElem?_set_self (by omega), upd_self]
    · rw [h.sp, hl, List.getElem?_set_ne (by omega), upd_ne _ _ hv0]; exact h.cnt v hv
  sp := by simp [h.sp]
  stk := by
    have := h.wlen
    simp only [h.sp, List.length_cons]
    rw [take_set_self _ _ _ (by omega), h.stk]; simp

/-! ### The effect of one iteration -/

theorem step_zero {col : Nat → Int} {cnt : Nat → Nat} {c : Nat} {rest : List Nat} {s : State} (nc : Nat)
    (h : Rep n col cnt (c :: rest) s) (hc : c < n) (h0 : cnt c = 0) :
    step n ia ja nc s = .ok ({ s with color := s.color.set c (nc : Int), sp := s.sp - 1 }, true) := by
  have hcl := h.clen
  have hsp : s.sp ≠ 0 := by rw [h.sp]; simp
  have hcn := h.cnt c hc
  unfold step
  rw [if_neg hsp, rd_of_getElem? (rep_top h), bind_ok,
    rdI_of_getElem? (n := n + c) (by push_cast; rfl) hcn, bind_ok, h0]
  simp only [Int.natCast_zero, gt_iff_lt, Int.lt_irrefl, if_false]
  rw [wrI_ok (n := c) rfl (by omega), bind_ok]

theorem step_child {col : Nat → Int} {cnt : Nat → Nat} {c k w : Nat} {rest : List Nat} {s : State} (nc : Nat)
    (wf : WF n ia ja) (h : Rep n col cnt (c :: rest) s) (hc : c < n) (hk : cnt c = k + 1)
    (hw : ja[ia.getD c 0 + k]? = some w) (hwn : w < n) :
    (col w ≠ -1 → step n ia ja nc s = .ok ({ s with work := s.work.set (n + c) (k : Int) }, true)) ∧
    (col w = -1 → s.sp < s.work.length →
      step n ia ja nc s = .ok ({ color := s.color.set c (-2), work := (s.work.set (n + c) (k : Int)).set s.sp (w : Int), sp := s.sp + 1 }, true)) := by
  have hcl := h.clen
  have hwl := h.wlen
  have hsp : s.sp ≠ 0 := by rw [h.sp]; simp
  have hcn := h.cnt c hc
  have hcol := h.col w hwn
  have hpre : ∀ r, step n ia ja nc s = r ↔ (do
      let work ← wrI s.work ((n : Int) + c) (k : Int)
      if col w = UNVISITED then do
        let work ← wr work s.sp (w : Int)
        let color ← wrI s.color c VISITED
        .ok ({ color := color, work := work, sp := s.sp + 1 }, true)
      else .ok ({ s with work := work }, true)) = r := by
    intro r
    unfold step
    rw [if_neg hsp, rd_of_getElem? (rep_top h), bind_ok,
      rdI_of_getElem? (n := n + c) (by push_cast; rfl) hcn, bind_ok, hk]
    rw [if_pos (by omega), rdI_of_getElem? (n := c) rfl (ia_get wf (by omega)), bind_ok,
      rdI_of_getElem? (n := ia.getD c 0 + k) (by push_cast; omega) hw, bind_ok]
    simp only [rd_of_getElem? hcol]
    have : ((k + 1 : Nat) : Int) - 1 = (k : Int) := by omega
    rw [this]
    rfl
  constructor
  · intro hne
    rw [hpre, wrI_ok (n := n + c) (by push_cast; rfl) (by omega), bind_ok, if_neg (show ¬ col w = UNVISITED from hne)]
  · intro he hlt
    rw [hpre, wrI_ok (n := n + c) (by push_cast; rfl) (by omega), bind_ok, if_pos (show col w = UNVISITED from he),
      wr_ok (by simpa using hlt), bind_ok, wrI_ok (n := c) rfl (by omega), bind_ok]
    rfl

/-! ### Preservation -/

theorem base_pop {col0 col : Nat → Int} {nc i c : Nat} {rest : List Nat}
    (h : Base n ia ja col0 nc i col (c :: rest)) : Base n ia ja col0 nc i (upd col c nc) rest where
  lt := fun v hv => h.lt v (List.mem_cons_of_mem _ hv)
  reach := fun v hv => h.reach v (List.mem_cons_of_mem _ hv)
  fin := by
    intro v hv hc
    by_cases hvc : v = c
    · subst hvc; exact h.reach v (List.mem_cons_self ..)
    · rw [upd_ne _ _ hvc] at hc; exact h.fin v hv hc
  colr := by
    intro v hv
    by_cases hvc : v = c
    · subst hvc; right; right; simp
    · rw [upd_ne _ _ hvc]
      rcases h.colr v hv with h1 | ⟨h1, h2⟩ | h1
      · exact .inl h1
      · rcases List.mem_cons.1 h2 with h3 | h3
        · exact absurd h3 hvc
        · exact .inr (.inl ⟨h1, h3⟩)
      · exact .inr (.inr h1)
  stkc := by
    intro v hv
    by_cases hvc : v = c
    · subst hvc; right; simp
    · rw [upd_ne _ _ hvc]; exact h.stkc v (List.mem_cons_of_mem _ hv)
  old := by
    intro v hv h0
    by_cases hvc : v = c
    · subst hvc
      have h1 := h.old v hv h0
      have h2 := h.stkc v (List.mem_cons_self ..)
      have h3 := h.oldlt v hv
      omega
    · rw [upd_ne _ _ hvc]; exact h.old v hv h0
  new := by
    intro v hv h0
    by_cases hvc : v = c
    · subst hvc; right; simp
    · rw [upd_ne _ _ hvc] at h0 ⊢; exact h.new v hv h0
  oldlt := h.oldlt
  seedc := by
    by_cases hvc : i = c
    · subst hvc; simp
    · rw [upd_ne _ _ hvc]; exact h.seedc
  before := h.before

theorem base_push {col0 col : Nat → Int} {nc i c w : Nat} {rest : List Nat}
    (h : Base n ia ja col0 nc i col (c :: rest)) (hcc : col c < 0) (hw : w < n) (hcw : col w = -1)
    (he : Edge ia ja c w) : Base n ia ja col0 nc i (upd col c (-2)) (w :: c :: rest) where
  lt := by
    intro v hv
    rcases List.mem_cons.1 hv with rfl | hv
    · exact hw
    · exact h.lt v hv
  reach := by
    intro v hv
    rcases List.mem_cons.1 hv with rfl | hv
    · exact (h.reach c (List.mem_cons_self ..)).tail he
    · exact h.reach v hv
  fin := by
    intro v hv hc
    by_cases hvc : v = c
    · subst hvc; exact h.reach v (List.mem_cons_self ..)
    · rw [upd_ne _ _ hvc] at hc; exact h.fin v hv hc
  colr := by
    intro v hv
    by_cases hvc : v = c
    · subst hvc; right; left; simp
    · rw [upd_ne _ _ hvc]
      rcases h.colr v hv with h1 | ⟨h1, h2⟩ | h1
      · exact .inl h1
      · exact .inr (.inl ⟨h1, List.mem_cons_of_mem _ h2⟩)
      · exact .inr (.inr h1)
  stkc := by
    intro v hv
    by_cases hvc : v = c
    · subst hvc; left; simp
    · rw [upd_ne _ _ hvc]
      rcases List.mem_cons.1 hv with rfl | hv
      · left; omega
      · exact h.stkc v hv
  old := by
    intro v hv h0
    by_cases hvc : v = c
    · subst hvc
      have h1 := h.old v hv h0
      omega
    · rw [upd_ne _ _ hvc]; exact h.old v hv h0
  new := by
    intro v hv h0
    by_cases hvc : v = c
    · subst hvc; simp at h0
    · rw [upd_ne _ _ hvc] at h0 ⊢; exact h.new v hv h0
  oldlt := h.oldlt
  seedc := by
    by_cases hvc : i = c
    · subst hvc; simp
    · rw [upd_ne _ _ hvc]; exact h.seedc
  before := h.before

/-- Finishing the top vertex. -/
theorem norm_pop {nc c : Nat} {col : Nat → Int} {cnt : Nat → Nat} {rest : List Nat}
    (h : Norm n ia ja nc col cnt (c :: rest)) (h0 : cnt c = 0) :
    Norm n ia ja nc (upd col c nc) cnt rest where
  nodup := (List.nodup_cons.1 h.nodup).2
  tailc := by
    intro v hv
    have hv' : v ∈ rest := List.mem_of_mem_tail hv
    have hvc : v ≠ c := fun e => (List.nodup_cons.1 h.nodup).1 (e ▸ hv')
    rw [upd_ne _ _ hvc]; exact h.tailc v hv'
  topc := by
    intro d hd
    have hv' : d ∈ rest := List.mem_of_mem_head? hd
    have hvc : d ≠ c := fun e => (List.nodup_cons.1 h.nodup).1 (e ▸ hv')
    rw [upd_ne _ _ hvc]; exact .inr (.inl (h.tailc d hv'))
  taild := fun v hv => h.taild v (List.mem_of_mem_tail hv)
  cntr := h.cntr
  unv := by
    intro v hv hcv hns
    by_cases hvc : v = c
    · subst hvc; simp at hcv
    · rw [upd_ne _ _ hvc] at hcv
      exact h.unv v hv hcv (by simp [hvc, hns])
  fin0 := by
    intro v hv hcv
    by_cases hvc : v = c
    · subst hvc; exact h0
    · rw [upd_ne _ _ hvc] at hcv; exact h.fin0 v hv hcv
  clo := by
    intro v hv hor k w hk hw
    have hor' : v ∈ c :: rest ∨ col v = nc := by
      by_cases hvc : v = c
      · left; simp [hvc]
      · rw [upd_ne _ _ hvc] at hor
        rcases hor with h1 | h1
        · left; simp [h1]
        · exact .inr h1
    by_cases hwc : w = c
    · subst hwc; left; simp
    · rw [upd_ne _ _ hwc]
      rcases h.clo v hv hor' k w hk hw with h1 | h1
      · exact .inl h1
      · rcases List.mem_cons.1 h1 with h2 | h2
        · exact absurd h2 hwc
        · exact .inr h2

/-- Looking at an edge to a vertex that has been seen. -/
theorem norm_skip {nc c k w : Nat} {col : Nat → Int} {cnt : Nat → Nat} {rest : List Nat}
    (h : Norm n ia ja nc col cnt (c :: rest)) (hc : c < n) (hk : cnt c = k + 1)
    (hw : (adj ia ja c)[k]? = some w) (hcw : col w ≠ -1) :
    Norm n ia ja nc col (upd cnt c k) (c :: rest) where
  nodup := h.nodup
  tailc := h.tailc
  topc := by
    intro d hd
    obtain rfl : c = d := by simpa using hd
    rcases h.topc c rfl with h1 | h1 | ⟨_, h1⟩
    · exact .inl h1
    · exact .inr (.inl h1)
    · omega
  taild := by
    intro v hv
    have hvc : v ≠ c := fun e => (List.nodup_cons.1 h.nodup).1 (e ▸ hv)
    rw [upd_ne _ _ hvc]; exact h.taild v hv
  cntr := by
    intro v hv
    by_cases hvc : v = c
    · subst hvc; have := h.cntr v hv; rw [upd_self]; omega
    · rw [upd_ne _ _ hvc]; exact h.cntr v hv
  unv := by
    intro v hv hcv hns
    have hvc : v ≠ c := fun e => hns (e ▸ List.mem_cons_self ..)
    rw [upd_ne _ _ hvc]; exact h.unv v hv hcv hns
  fin0 := by
    intro v hv hcv
    have h1 := h.fin0 v hv hcv
    by_cases hvc : v = c
    · subst hvc; omega
    · rw [upd_ne _ _ hvc]; exact h1
  clo := by
    intro v hv hor j x hj hx
    by_cases hvc : v = c
    · subst hvc
      rw [upd_self] at hj
      by_cases hjk : j = k
      · subst hjk
        rw [hw] at hx; cases hx
        exact .inl hcw
      · exact h.clo v hv hor j x (by omega) hx
    · rw [upd_ne _ _ hvc] at hj; exact h.clo v hv hor j x hj hx

/-- Descending to an unvisited child. -/
theorem norm_push {nc c k w : Nat} {col : Nat → Int} {cnt : Nat → Nat} {rest : List Nat}
    (h : Norm n ia ja nc col cnt (c :: rest)) (hc : c < n) (hk : cnt c = k + 1) (hw : w < n)
    (hcw : col w = -1) (hwc : w ≠ c)
    (hadj : (adj ia ja c)[k]? = some w) : Norm n ia ja nc (upd col c (-2)) (upd cnt c k) (w :: c :: rest) where
  nodup := by
    refine List.nodup_cons.2 ⟨?_, h.nodup⟩
    intro hm
    rcases List.mem_cons.1 hm with h1 | h1
    · exact hwc h1
    · have := h.tailc w h1; omega
  tailc := by
    intro v hv
    by_cases hvc : v = c
    · subst hvc; simp
    · rw [upd_ne _ _ hvc]
      rcases List.mem_cons.1 hv with h1 | h1
      · exact absurd h1 hvc
      · exact h.tailc v h1
  topc := by
    intro d hd
    obtain rfl : w = d := by simpa using hd
    left; rw [upd_ne _ _ hwc]; exact hcw
  taild := by
    intro v hv
    by_cases hvc : v = c
    · subst hvc; rw [upd_self]
      exact (List.getElem?_eq_some_iff.1 hadj).1
    · rw [upd_ne _ _ hvc]
      rcases List.mem_cons.1 hv with h1 | h1
      · exact absurd h1 hvc
      · exact h.taild v h1
  cntr := by
    intro v hv
    by_cases hvc : v = c
    · subst hvc; have := h.cntr v hv; rw [upd_self]; omega
    · rw [upd_ne _ _ hvc]; exact h.cntr v hv
  unv := by
    intro v hv hcv hns
    have hvc : v ≠ c := fun e => hns (e ▸ List.mem_cons_of_mem _ (List.mem_cons_self ..))
    rw [upd_ne _ _ hvc] at hcv ⊢
    exact h.unv v hv hcv (fun e => hns (List.mem_cons_of_mem _ e))
  fin0 := by
    intro v hv hcv
    by_cases hvc : v = c
    · subst hvc; simp at hcv
    · rw [upd_ne _ _ hvc] at hcv ⊢; exact h.fin0 v hv hcv
  clo := by
    intro v hv hor j x hj hx
    have mono : (col x ≠ -1 ∨ x ∈ c :: rest) → upd col c (-2) x ≠ -1 ∨ x ∈ w :: c :: rest := by
      rintro (h1 | h1)
      · left
        by_cases hxc : x = c
        · subst hxc; simp
        · rw [upd_ne _ _ hxc]; exact h1
      · right; exact List.mem_cons_of_mem _ h1
    by_cases hvc : v = c
    · subst hvc
      rw [upd_self] at hj
      by_cases hjk : j = k
      · subst hjk
        rw [hadj] at hx; cases hx
        right; exact List.mem_cons_self ..
      · exact mono (h.clo v hv (.inl (List.mem_cons_self ..)) j x (by omega) hx)
    · rw [upd_ne _ _ hvc] at hj
      by_cases hvw : v = w
      · subst hvw
        have := h.unv v hv hcw (by
          intro hm
          rcases List.mem_cons.1 hm with h1 | h1
          · exact hvc h1
          · have := h.tailc v h1; omega)
        have h2 := (List.getElem?_eq_some_iff.1 hx).1
        omega
      · rw [upd_ne _ _ hvc] at hor
        refine mono (h.clo v hv ?_ j x hj hx)
        rcases hor with h1 | h1
        · rcases List.mem_cons.1 h1 with h2 | h2
          · exact absurd h2 hvw
          · exact .inl h2
        · exact .inr h1

/-- Meeting the self connection of an unvisited top vertex, as its last edge. -/
theorem norm_self {nc c : Nat} {col : Nat → Int} {cnt : Nat → Nat} {rest : List Nat}
    (h : Norm n ia ja nc col cnt (c :: rest)) (hc : c < n) (hk : cnt c = 1)
    (hadj : (adj ia ja c)[0]? = some c) : Norm n ia ja nc (upd col c (-2)) (upd cnt c 0) (c :: rest) where
  nodup := h.nodup
  tailc := by
    intro v hv
    have hvc : v ≠ c := fun e => (List.nodup_cons.1 h.nodup).1 (e ▸ hv)
    rw [upd_ne _ _ hvc]; exact h.tailc v hv
  topc := by
    intro d hd
    obtain rfl : c = d := by simpa using hd
    right; left; simp
  taild := by
    intro v hv
    have hvc : v ≠ c := fun e => (List.nodup_cons.1 h.nodup).1 (e ▸ hv)
    rw [upd_ne _ _ hvc]; exact h.taild v hv
  cntr := by
    intro v hv
    by_cases hvc : v = c
    · subst hvc; rw [upd_self]; omega
    · rw [upd_ne _ _ hvc]; exact h.cntr v hv
  unv := by
    intro v hv hcv hns
    have hvc : v ≠ c := fun e => hns (e ▸ List.mem_cons_self ..)
    rw [upd_ne _ _ hvc] at hcv ⊢
    exact h.unv v hv hcv hns
  fin0 := by
    intro v hv hcv
    by_cases hvc : v = c
    · subst hvc; rw [upd_self]
    · rw [upd_ne _ _ hvc] at hcv ⊢; exact h.fin0 v hv hcv
  clo := by
    intro v hv hor j x hj hx
    have mono : (col x ≠ -1 ∨ x ∈ c :: rest) → upd col c (-2) x ≠ -1 ∨ x ∈ c :: rest := by
      rintro (h1 | h1)
      · left
        by_cases hxc : x = c
        · subst hxc; simp
        · rw [upd_ne _ _ hxc]; exact h1
      · exact .inr h1
    by_cases hvc : v = c
    · subst hvc
      by_cases hj0 : j = 0
      · subst hj0; rw [hadj] at hx; cases hx; right; exact List.mem_cons_self ..
      · exact mono (h.clo v hv (.inl (List.mem_cons_self ..)) j x (by omega) hx)
    · rw [upd_ne _ _ hvc] at hj hor
      exact mono (h.clo v hv hor j x hj hx)

theorem ja_of_adj (wf : WF n ia ja) {c k w : Nat} (hc : c < n) (h : (adj ia ja c)[k]? = some w) :
    ja[ia.getD c 0 + k]? = some w := by
  rw [← adj_get wf hc (List.getElem?_eq_some_iff.1 h).1]; exact h

theorem start_bound (wf : WF n ia ja) (h : ∀ v, v < n → 0 < (adj ia ja v).length) :
    ia.getD 0 0 + n ≤ ia.getD n 0 := by
  have : ∀ r, r ≤ n → ia.getD 0 0 + r ≤ ia.getD r 0 := by
    intro r
    induction r with
    | zero => intro _; omega
    | succ r ih =>
      intro hr
      have h1 := ih (by omega)
      have h2 := h r (by omega)
      rw [adj_length wf (by omega)] at h2
      omega
  exact this n (Nat.le_refl _)

theorem cnt_le (wf : WF n ia ja) {nc : Nat} {col : Nat → Int} {cnt : Nat → Nat} {stk : List Nat}
    (h : Norm n ia ja nc col cnt stk) : ∀ v, v < n → ia.getD v 0 + cnt v ≤ ia.getD n 0 := by
  intro v hv
  have h1 := h.cntr v hv
  rw [adj_length wf hv] at h1
  have h2 := ia_mono wf (show v ≤ v + 1 by omega) (show v + 1 ≤ n from hv)
  have h3 := ia_mono wf (show v + 1 ≤ n from hv) (Nat.le_refl _)
  omega

theorem step_inv (wf : WF n ia ja) (hself : ∀ v, v < n → ∀ k : Nat, (adj ia ja v)[k]? = some v → k = 0)
    {col0 : Nat → Int} {nc i m : Nat} {s : State} {L : Nat × Nat} (h : Inv n ia ja col0 nc i L m s) :
    ∃ s' go, step n ia ja nc s = .ok (s', go) ∧
      (go = true → ∃ m', m' < m ∧ Inv n ia ja col0 nc i L m' s') ∧ (go = false → Post n ia ja col0 nc i L s') := by
  obtain ⟨col, cnt, stk, hrep, hbase, hph, hL⟩ := h
  cases stk with
  | nil =>
    refine ⟨s, false, ?_, by simp, fun _ => ⟨col, cnt, hrep, ?_, hL⟩⟩
    · unfold step; rw [if_pos (by rw [hrep.sp]; rfl)]
    · cases hph with
      | norm hn _ =>
        refine ⟨hbase, fun v hv hc => hn.unv v hv hc (by simp), ?_, fun _ _ _ => hn.cntr⟩
        intro v hv hc w hw
        obtain ⟨k, hk⟩ := List.mem_iff_getElem?.1 hw
        rcases hn.clo v hv (.inr hc) k w (by rw [hn.fin0 v hv hc]; omega) hk with h1 | h1
        · exact h1
        · simp at h1
      | drain hd _ =>
        refine ⟨hbase, fun v hv hc => absurd hc (hd.vis v hv), ?_, fun u hu hc => absurd hc (hd.vis u hu)⟩
        intro v hv hc w hw
        exact hd.vis w (adj_lt wf hv hw)
  | cons c rest =>
    have hc : c < n := hbase.lt c (List.mem_cons_self ..)
    rcases Nat.eq_zero_or_pos (cnt c) with h0 | hpos
    · -- pop
      refine ⟨_, true, step_zero nc hrep hc h0, fun _ => ?_, by simp⟩
      cases hph with
      | norm hn hm =>
        simp only [List.length_cons] at hm
        exact ⟨m - 1, by omega, upd col c nc, cnt, rest, rep_pop hrep hc, base_pop hbase,
          .norm (norm_pop hn h0) (by omega), by simpa using hL⟩
      | dup hn hcc h0' hl hm =>
        rename_i rest
        refine ⟨m - 1, by omega, upd col c nc, cnt, c :: rest, rep_pop hrep hc, base_pop hbase, .norm ?_ (by simp only [List.length_cons]; omega), by simpa using hL⟩
        have hp := norm_pop hn h0
        have hnr := (List.nodup_cons.1 hn.nodup)
        refine ⟨hn.nodup, ?_, ?_, hn.taild, hn.cntr, ?_, hp.fin0, ?_⟩
        · intro v hv
          have hvc : v ≠ c := fun e => hnr.1 (e ▸ hv)
          rw [upd_ne _ _ hvc]; exact hn.tailc v hv
        · intro d hd
          obtain rfl : c = d := by simpa using hd
          right; right; exact ⟨by simp, h0⟩
        · intro v hv hcv hns
          exact hp.unv v hv hcv (fun e => hns (List.mem_cons_of_mem _ e))
        · intro v hv hor k w hk hw
          have hor' : v ∈ rest ∨ upd col c nc v = nc := by
            rcases hor with h1 | h1
            · rcases List.mem_cons.1 h1 with rfl | h2
              · right; simp
              · exact .inl h2
            · exact .inr h1
          rcases hp.clo v hv hor' k w hk hw with h1 | h1
          · exact .inl h1
          · exact .inr (List.mem_cons_of_mem _ h1)
      | over hd h0' hm =>
        rename_i rest
        refine ⟨m - 1, by omega, upd col c nc, cnt, c :: rest, rep_pop hrep hc, base_pop hbase, .drain ⟨?_, hd.cntr, hd.len⟩ (by simp only [List.length_cons]; omega), by simpa using hL⟩
        intro v hv
        by_cases hvc : v = c
        · subst hvc; simp
        · rw [upd_ne _ _ hvc]; exact hd.vis v hv
      | drain hd hm =>
        simp only [List.length_cons] at hm
        refine ⟨m - 1, by omega, upd col c nc, cnt, rest, rep_pop hrep hc, base_pop hbase, .drain ⟨?_, hd.cntr, ?_⟩ (by omega), by simpa using hL⟩
        · intro v hv
          by_cases hvc : v = c
          · subst hvc; simp
          · rw [upd_ne _ _ hvc]; exact hd.vis v hv
        · have := hd.len; simp only [List.length_cons] at this; omega
    · obtain ⟨k, hk⟩ : ∃ k, cnt c = k + 1 := ⟨cnt c - 1, by omega⟩
      have hsum := sumTo_upd cnt n c k hc
      cases hph with
      | dup hn hcc h0' hl hm => omega
      | over hd h0' hm => omega
      | drain hd hm =>
        have hb := hd.cntr c hc
        have hbj := ia_bound wf (Nat.le_refl n)
        have hlt : ia.getD c 0 + k < ja.length := by omega
        have hw := List.getElem?_eq_getElem hlt
        have hwn : ja[ia.getD c 0 + k] < n :=
          wf.range _ _ _ (ia_get wf (Nat.le_refl n)) (show ia.getD c 0 + k < _ by omega) hw
        refine ⟨_, true, (step_child nc wf hrep hc hk hw hwn).1 (hd.vis _ hwn), fun _ => ?_, by simp⟩
        refine ⟨m - 1, by omega, col, upd cnt c k, c :: rest, rep_dec hrep hc hd.len, hbase,
          .drain ⟨hd.vis, ?_, hd.len⟩ (by omega), by simpa using hL⟩
        intro v hv
        by_cases hvc : v = c
        · subst hvc; rw [upd_self]; omega
        · rw [upd_ne _ _ hvc]; exact hd.cntr v hv
      | norm hn hm =>
        have hle := hn.cntr c hc
        have hkl : k < (adj ia ja c).length := by omega
        obtain ⟨w, hadj⟩ : ∃ w, (adj ia ja c)[k]? = some w := ⟨_, List.getElem?_eq_getElem hkl⟩
        have hmem : w ∈ adj ia ja c := List.mem_iff_getElem?.2 ⟨k, hadj⟩
        have hwn : w < n := adj_lt wf hc hmem
        have hstep := step_child nc wf hrep hc hk (ja_of_adj wf hc hadj) hwn
        have hlen : (c :: rest).length ≤ n := nodup_length_le hn.nodup hbase.lt
        by_cases hcw : col w = -1
        · have hcc : col c < 0 := by
            rcases hn.topc c rfl with h1 | h1 | ⟨_, h1⟩
            · omega
            · omega
            · omega
          have hwl := hrep.wlen
          have hbp := base_push hbase hcc hwn hcw ((edge_iff wf hc).2 hmem)
          refine ⟨_, true, hstep.2 hcw (by rw [hrep.sp]; omega), fun _ => ?_, by simp⟩
          by_cases hwc : w = c
          · subst hwc
            have hk0 := hself w hc k hadj
            subst hk0
            have hns := norm_self hn hc hk hadj
            rcases Nat.lt_or_ge (w :: rest).length n with hlt | hge
            · refine ⟨m - 1, by omega, _, _, _,
                rep_color (rep_push (rep_dec hrep hc hlen) hlt) hc, hbp,
                .dup hns (by simp) (by simp) (by simp only [List.length_cons] at hlt; omega)
                  (by simp only [List.length_cons] at hm; omega), by simpa using hL⟩
            · have heq : (w :: rest).length = n := by omega
              have hfull : ∀ v, v < n → v ∈ w :: rest := fun v hv => mem_of_full hn.nodup hbase.lt hge hv
              have hw0 : w ≠ 0 := by
                intro hw0
                subst hw0
                have hs := hbase.seedc
                have hold := hbase.old 0 hc
                have hi : i ≠ 0 := by rintro rfl; exact hs hcw
                have := hbase.before 0 (by omega)
                have := hold this
                omega
              have hcntr : ∀ v, v < n → ia.getD v 0 + upd (upd cnt w 0) 0 w v ≤ ia.getD n 0 := by
                intro v hv
                by_cases hv0 : v = 0
                · subst hv0
                  rw [upd_self]
                  have := start_bound wf (fun v hv => by
                    rcases List.mem_cons.1 (hfull v hv) with h1 | h1
                    · subst h1; omega
                    · have := hn.taild v h1; omega)
                  omega
                · rw [upd_ne _ _ hv0]
                  have := cnt_le wf hns v hv
                  exact this
              refine ⟨m - 1, by omega, _, _, _,
                rep_color (rep_push_over (rep_dec hrep hc hlen) heq (by omega)) hc, hbp,
                .over ⟨?_, ?_, hlen⟩ ?_ ?_, by simpa using hL⟩
              · intro v hv
                by_cases hvw : v = w
                · subst hvw; simp
                · rw [upd_ne _ _ hvw]
                  rcases List.mem_cons.1 (hfull v hv) with h1 | h1
                  · exact absurd h1 hvw
                  · have := hn.tailc v h1; omega
              · exact hcntr
              · rw [upd_ne _ _ hw0, upd_self]
              · have h1 : sumTo (upd (upd cnt w 0) 0 w) n ≤ n * ja.length :=
                  sumTo_le _ _ _ (fun v hv => by
                    have h1 := hcntr v hv
                    have h2 := ia_bound wf (Nat.le_refl n)
                    omega)
                unfold big at hm
                simp only [List.length_cons] at hm heq
                omega
          · have hlt : (c :: rest).length < n := by
              have := nodup_length_le (norm_push hn hc hk hwn hcw hwc hadj).nodup hbp.lt
              simp only [List.length_cons] at this ⊢; omega
            refine ⟨m - 1, by omega, _, _, _,
              rep_color (rep_push (rep_dec hrep hc hlen) hlt) hc, hbp,
              .norm (norm_push hn hc hk hwn hcw hwc hadj)
                (by simp only [List.length_cons] at hm ⊢; omega), by simpa using hL⟩
        · refine ⟨_, true, hstep.1 hcw, fun _ => ?_, by simp⟩
          exact ⟨m - 1, by omega, col, upd cnt c k, c :: rest, rep_dec hrep hc hlen, hbase,
            .norm (norm_skip hn hc hk hadj hcw) (by omega), by simpa using hL⟩

/-! ### The loop over seeds -/

/-- Between two seeds. -/
structure Outer (n : Nat) (ia ja : List Nat) (i nc : Nat) (col : Nat → Int) (cnt : Nat → Nat) : Prop where
  colr : ∀ v, v < n → col v = -1 ∨ (0 ≤ col v ∧ col v < nc)
  before : ∀ v, v < i → 0 ≤ col v
  unv : ∀ v, v < n → col v = -1 → cnt v = (adj ia ja v).length
  clo : ∀ v, v < n → 0 ≤ col v → ∀ w ∈ adj ia ja v, 0 ≤ col w ∧ col w ≤ col v
  conn : ∀ u v, u < n → v < n → 0 ≤ col u → col u = col v → ∃ x, Reach ia ja x u ∧ Reach ia ja x v
  used : ∀ k : Nat, k < nc → ∃ v, v < n ∧ col v = k
  cntr : ∀ u, u < n → col u = -1 → ∀ v, v < n → cnt v ≤ (adj ia ja v).length

theorem seed_ok (wf : WF n ia ja) (hself : ∀ v, v < n → ∀ k : Nat, (adj ia ja v)[k]? = some v → k = 0)
    {fuel i nc : Nat} {col : Nat → Int} {cnt : Nat → Nat} {s : State} {L : Nat × Nat} (hi : i < n)
    (hf : 4 * (n * ja.length) + n + 4 ≤ fuel)
    (hrep : Rep n col cnt [] s) (ho : Outer n ia ja i nc col cnt) (hL : (s.color.length, s.work.length) = L) :
    ∃ s' nc' col' cnt', seed fuel n ia ja i (s, nc) = .ok (s', nc') ∧ Rep n col' cnt' [] s' ∧
      Outer n ia ja (i + 1) nc' col' cnt' ∧ (s'.color.length, s'.work.length) = L := by
  unfold seed
  rw [rd_of_getElem? (hrep.col i hi), bind_ok]
  by_cases hci : col i ≥ 0
  · rw [if_pos hci]
    refine ⟨s, nc, col, cnt, rfl, hrep, ⟨ho.colr, ?_, ho.unv, ho.clo, ho.conn, ho.used, ho.cntr⟩, hL⟩
    intro v hv
    rcases Nat.lt_or_ge v i with h | h
    · exact ho.before v h
    · obtain rfl : v = i := by omega
      exact hci
  · rw [if_neg hci]
    have hcl := hrep.clen
    have hwl := hrep.wlen
    have hsp := hrep.sp
    simp only [List.length_nil] at hsp
    have hci1 : col i = -1 := by rcases ho.colr i hi with h | h <;> omega
    simp only
    rw [wr_ok (by omega), bind_ok, wr_ok (by omega), bind_ok]
    have hrep' := rep_color (c := i) (x := VISITED) (rep_push (w := i) hrep (by simp; omega)) hi
    have hbase : Base n ia ja col nc i (upd col i VISITED) [i] := by
      have hV : VISITED = -2 := rfl
      refine ⟨?_, ?_, ?_, ?_, ?_, ?_, ?_, ?_, ?_, ho.before⟩
      · intro v hv; obtain rfl : v = i := by simpa using hv
        exact hi
      · intro v hv; obtain rfl : v = i := by simpa using hv
        exact .refl
      · intro v hv hc
        by_cases hvi : v = i
        · subst hvi; exact .refl
        · rw [upd_ne _ _ hvi] at hc; rcases ho.colr v hv with h | h <;> omega
      · intro v hv
        by_cases hvi : v = i
        · subst hvi; right; left; simp [hV]
        · rw [upd_ne _ _ hvi]
          rcases ho.colr v hv with h | h
          · exact .inl h
          · exact .inr (.inr h.1)
      · intro v hv; obtain rfl : v = i := by simpa using hv
        left; simp [hV]
      · intro v hv h0
        have hvi : v ≠ i := by rintro rfl; omega
        rw [upd_ne _ _ hvi]
      · intro v hv h0
        by_cases hvi : v = i
        · subst hvi; simp [hV] at h0
        · left; rw [upd_ne _ _ hvi]
      · intro v hv
        rcases ho.colr v hv with h | h <;> omega
      · simp [hV]
    have hnorm : Norm n ia ja nc (upd col i VISITED) cnt [i] := by
      have hV : VISITED = -2 := rfl
      refine ⟨by simp, by simp, ?_, by simp, ?_, ?_, ?_, ?_⟩
      · intro c hc; obtain rfl : i = c := by simpa using hc
        right; left; simp [hV]
      · exact ho.cntr i hi hci1
      · intro v hv hc hns
        have hvi : v ≠ i := by simpa using hns
        rw [upd_ne _ _ hvi] at hc
        exact ho.unv v hv hc
      · intro v hv hc
        by_cases hvi : v = i
        · subst hvi; simp [hV] at hc
        · rw [upd_ne _ _ hvi] at hc; rcases ho.colr v hv with h | h <;> omega
      · intro v hv hor k w hk hw
        have hvi : v = i := by
          by_cases hvi : v = i
          · exact hvi
          · exfalso
            rcases hor with h | h
            · exact hvi (by simpa using h)
            · rw [upd_ne _ _ hvi] at h; rcases ho.colr v hv with h' | h' <;> omega
        subst hvi
        rw [ho.unv v hv hci1] at hk
        have := (List.getElem?_eq_some_iff.1 hw).1
        omega
    have hsum : sumTo cnt n ≤ n * ja.length := sumTo_le _ _ _ (fun v hv => by
      have h1 := hnorm.cntr v hv
      have h2 := cnt_le wf hnorm v hv
      have h3 := ia_bound wf (Nat.le_refl n)
      omega)
    obtain ⟨t, ht, col', cnt', hrept, hd, hLt⟩ := whileFuel_rank (Inv n ia ja col nc i L) (Post n ia ja col nc i L)
      (fun m s h => step_inv wf hself h) (k := fuel)
      ⟨_, _, _, hrep', hbase, .norm hnorm (Nat.le_refl _), by simpa using hL⟩
      (by unfold big; simp only [List.length_singleton]; omega)
    rw [ht, bind_ok]
    have hb := hd.base
    have hcr : ∀ v, v < n → col' v = -1 ∨ (0 ≤ col' v ∧ col' v < (nc + 1 : Nat)) := by
      intro v hv
      rcases hb.colr v hv with h | ⟨_, h⟩ | h
      · exact .inl h
      · simp at h
      · right
        refine ⟨h, ?_⟩
        have h1 := hb.oldlt v hv
        rcases hb.new v hv h with h2 | h2 <;> omega
    have hseed : col' i = nc := by
      rcases hcr i hi with h | ⟨h, _⟩
      · exact absurd h hb.seedc
      · rcases hb.new i hi h with h2 | h2
        · omega
        · exact h2
    refine ⟨t, nc + 1, col', cnt', rfl, hrept, ⟨hcr, ?_, hd.unv, ?_, ?_, ?_, hd.cntr⟩, hLt⟩
    · intro v hv
      rcases Nat.lt_or_ge v i with h | h
      · have h1 := ho.before v h
        rw [hb.old v (by omega) h1]; exact h1
      · obtain rfl : v = i := by omega
        omega
    · intro v hv h0 w hw
      have hwn := adj_lt wf hv hw
      rcases hb.new v hv h0 with h1 | h1
      · have h2 := ho.clo v hv (by omega) w hw
        rw [hb.old w hwn h2.1]
        exact ⟨h2.1, by omega⟩
      · have h2 := hd.clo v hv h1 w hw
        rcases hcr w hwn with h3 | h3
        · exact absurd h3 h2
        · exact ⟨h3.1, by omega⟩
    · intro u v hu hv h0 he
      have hult := hb.oldlt u hu
      have hvlt := hb.oldlt v hv
      rcases hb.new u hu h0 with h1 | h1
      · rcases hb.new v hv (by omega) with h2 | h2
        · exact ho.conn u v hu hv (by omega) (by omega)
        · omega
      · exact ⟨i, hb.fin u hu h1, hb.fin v hv (by omega)⟩
    · intro k hk
      rcases Nat.lt_or_ge k nc with h | h
      · obtain ⟨v, hv, hc⟩ := ho.used k h
        exact ⟨v, hv, by rw [hb.old v hv (by omega)]; exact hc⟩
      · obtain rfl : k = nc := by omega
        exact ⟨i, hi, hseed⟩

theorem init_ok (wf : WF n ia ja) {color work : List Int} (hc : n ≤ color.length) (hw : 2 * n ≤ work.length) :
    ∃ s, init n ia { color := color, work := work, sp := 0 } = .ok s ∧
      Rep n (fun _ => -1) (fun v => (adj ia ja v).length) [] s ∧
      (s.color.length, s.work.length) = (color.length, work.length) := by
  obtain ⟨t, ht, h1, h2, h3, h4, h5⟩ := loop_inv (n := n) (s := ({ color := color, work := work, sp := 0 } : State))
    (f := fun i s => do
      let color ← wr s.color i UNVISITED
      let b ← rd ia (i + 1)
      let a ← rd ia i
      let work ← wr s.work (n + i) ((b : Int) - (a : Int))
      .ok { s with color := color, work := work })
    (fun i t => t.color.length = color.length ∧ t.work.length = work.length ∧ t.sp = 0 ∧
      (∀ v : Nat, v < i → t.color[v]? = some (-1)) ∧
      (∀ v : Nat, v < i → t.work[n + v]? = some (((adj ia ja v).length : Nat) : Int)))
    ⟨rfl, rfl, rfl, by intro v hv; omega, by intro v hv; omega⟩
    (by
      rintro i t hi ⟨h1, h2, h3, h4, h5⟩
      refine ⟨_, by
        rw [wr_ok (by omega), bind_ok, rd_of_getElem? (ia_get wf (show i + 1 ≤ n from hi)), bind_ok,
          rd_of_getElem? (ia_get wf (show i ≤ n by omega)), bind_ok, wr_ok (by omega), bind_ok], ?_⟩
      refine ⟨by simpa using h1, by simpa using h2, h3, ?_, ?_⟩
      · intro v hv
        simp only
        by_cases hvi : v = i
        · subst hvi; rw [List.getElem?_set_self (by omega)]; rfl
        · rw [List.getElem?_set_ne (by omega)]; exact h4 v (by omega)
      · intro v hv
        simp only
        by_cases hvi : v = i
        · subst hvi
          rw [List.getElem?_set_self (by omega), adj_length wf hi]
          have := ia_mono wf (show v ≤ v + 1 by omega) (show v + 1 ≤ n from hi)
          congr 1; omega
        · rw [List.getElem?_set_ne (by omega)]; exact h5 v (by omega))
  exact ⟨t, ht, ⟨by omega, by omega, h4, h5, h3, by simp⟩, by rw [h1, h2]⟩

theorem dfs_main (wf : WF n ia ja) (hself : ∀ v, v < n → ∀ k : Nat, (adj ia ja v)[k]? = some v → k = 0)
    (hsym : ∀ u w, Edge ia ja u w → Edge ia ja w u) {fuel : Nat} {color work : List Int}
    (hf : 4 * (n * ja.length) + n + 4 ≤ fuel) (hc : n ≤ color.length) (hw : 2 * n ≤ work.length) :
    ∃ color' work' nc, dfs fuel n ia ja color work = .ok (color', work', nc) ∧
      color'.length = color.length ∧ work'.length = work.length ∧
      (∀ v : Nat, v < n → ∃ k : Nat, k < nc ∧ color'[v]? = some (k : Int)) ∧
      (∀ k : Nat, k < nc → ∃ v : Nat, v < n ∧ color'[v]? = some (k : Int)) ∧
      (∀ u v : Nat, u < n → v < n → (color'[u]? = color'[v]? ↔ Reach ia ja u v)) := by
  obtain ⟨s, hs, hrep, hL⟩ := init_ok (ja := ja) wf hc hw
  obtain ⟨r, hr, col, cnt, hrep', ho, hL'⟩ := loop_inv (n := n) (s := (s, 0)) (f := seed fuel n ia ja)
    (fun i p => ∃ col cnt, Rep n col cnt [] p.1 ∧ Outer n ia ja i p.2 col cnt ∧
      (p.1.color.length, p.1.work.length) = (color.length, work.length))
    ⟨_, _, hrep, ⟨fun v _ => .inl rfl, by intro v hv; omega, fun v _ _ => rfl, by intro v _ h; simp at h,
      by intro u v _ _ h; simp at h, by intro k hk; simp at hk, fun _ _ _ v _ => Nat.le_refl _⟩, hL⟩
    (by
      rintro i ⟨t, nc⟩ hi ⟨col, cnt, h1, h2, h3⟩
      obtain ⟨s', nc', col', cnt', e1, e2, e3, e4⟩ := seed_ok wf hself hi hf h1 h2 h3
      exact ⟨(s', nc'), e1, col', cnt', e2, e3, e4⟩)
  have hlt : ∀ {u w}, Edge ia ja u w → u < n ∧ w < n := fun {u w} h =>
    ⟨edge_lt wf h, adj_lt wf (edge_lt wf h) ((edge_iff wf (edge_lt wf h)).1 h)⟩
  have hedge : ∀ {u w}, Edge ia ja u w → col u = col w := by
    intro u w h
    obtain ⟨hu, hw⟩ := hlt h
    have h1 := ho.clo u hu (ho.before u hu) w ((edge_iff wf hu).1 h)
    have h2 := ho.clo w hw (ho.before w hw) u ((edge_iff wf hw).1 (hsym _ _ h))
    omega
  have hreach : ∀ {u w}, Reach ia ja u w → col u = col w := by
    intro u w h
    induction h with
    | refl => rfl
    | tail _ he ih => rw [ih, hedge he]
  have hsymr : ∀ {u w}, Reach ia ja u w → Reach ia ja w u := by
    intro u w h
    induction h with
    | refl => exact .refl
    | tail _ he ih => exact Relation.ReflTransGen.head (hsym _ _ he) ih
  have hcol : ∀ v, v < n → ∃ k : Nat, k < r.2 ∧ col v = k := by
    intro v hv
    rcases ho.colr v hv with h | ⟨h1, h2⟩
    · have := ho.before v hv; omega
    · exact ⟨(col v).toNat, by omega, by omega⟩
  refine ⟨r.1.color, r.1.work, r.2, ?_, congrArg Prod.fst hL', congrArg Prod.snd hL', ?_, ?_, ?_⟩
  · unfold dfs
    rw [hs, bind_ok, hr, bind_ok]
  · intro v hv
    obtain ⟨k, hk, hc⟩ := hcol v hv
    exact ⟨k, hk, by rw [hrep'.col v hv, hc]⟩
  · intro k hk
    obtain ⟨v, hv, hc⟩ := ho.used k hk
    exact ⟨v, hv, by rw [hrep'.col v hv, hc]⟩
  · intro u v hu hv
    rw [hrep'.col u hu, hrep'.col v hv, Option.some_inj]
    constructor
    · intro h
      obtain ⟨x, h1, h2⟩ := ho.conn u v hu hv (ho.before u hu) h
      exact (hsymr h1).trans h2
    · exact hreach

end

end Opm.Dfs
