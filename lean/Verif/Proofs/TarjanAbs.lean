import Mathlib.Logic.Relation
import Mathlib.Logic.Function.Basic
import Mathlib.Data.List.Nodup
/-!
# An abstract strong-component machine

Auxiliary construction for C01/C02: the state of `tarjan` with its two stacks and its output as
separate lists.  `Verif/Proofs/Tarjan.lean` shows that the array program simulates this machine.
-/

namespace Opm.TarjanAbs

open Relation Function

structure A where
  comps : List (List Nat)
  path : List Nat
  cst : List Nat
  status : Nat → Int
  time : Nat → Nat
  link : Nat → Nat
  t : Nat

variable (n : Nat) (adj : Nat → List Nat)

def E (u w : Nat) : Prop := w ∈ adj u

abbrev R := ReflTransGen (E adj)

def A.done (a : A) : List Nat := a.comps.flatten

/-- first visit of `c` -/
def visit (c : Nat) (a : A) : A :=
  { a with status := update a.status c (adj c).length
           time := update a.time c a.t
           link := update a.link c a.t
           t := a.t + 1
           cst := c :: a.cst }

/-- the vertices popped when the component of `c` is complete -/
def seg (c : Nat) (cst : List Nat) : List Nat := cst.takeWhile (· ≠ c) ++ [c]

/-- emit the component of `c` -/
def emit (c : Nat) (a : A) : A :=
  { a with comps := a.comps ++ [seg c a.cst]
           cst := (a.cst.dropWhile (· ≠ c)).tail
           status := fun v => if v ∈ seg c a.cst then -2 else a.status v }

/-- pop the control stack and update the parent's link -/
def popPath (c : Nat) (a : A) : A :=
  match a.path.tail with
  | [] => { a with path := [] }
  | p :: r => { a with path := p :: r, link := update a.link p (min (a.link p) (a.link c)) }

/-- look at the next child of `c` -/
def child (c : Nat) (a : A) : A :=
  let w := (adj c).getD (a.status c - 1).toNat 0
  let a1 := { a with status := update a.status c (a.status c - 1) }
  if a1.status w = -1 then { a1 with path := w :: a1.path }
  else if 0 ≤ a1.status w then { a1 with link := update a1.link c (min (a1.link c) (a1.time w)) }
  else a1

def finish (c : Nat) (a : A) : A :=
  popPath c (if a.link c = a.time c then emit c a else a)

/-- Invariant of the machine. -/
structure Inv (a : A) : Prop where
  st_live : ∀ v, v ∈ a.cst ↔ v < n ∧ 0 ≤ a.status v
  st_done : ∀ v, v ∈ a.done ↔ v < n ∧ a.status v = -2
  st_low : ∀ v, v < n → -2 ≤ a.status v
  st_deg : ∀ v ∈ a.cst, a.status v ≤ (adj v).length
  cst_nodup : a.cst.Nodup
  done_nodup : a.done.Nodup
  ne : ∀ C ∈ a.comps, C ≠ []
  scc : ∀ C ∈ a.comps, ∀ u ∈ C, ∀ v : Nat, v ∈ C ↔ R adj u v ∧ R adj v u
  topo : ∀ (i : Nat) C, a.comps[i]? = some C → ∀ v ∈ C, ∀ w, E adj v w →
    ∃ (j : Nat) (D : List Nat), j ≤ i ∧ a.comps[j]? = some D ∧ w ∈ D
  sorted : a.cst.Pairwise (fun x y => a.time y < a.time x)
  tlt : ∀ v ∈ a.cst, a.time v < a.t
  path_nodup : a.path.Nodup
  path_lt : ∀ v ∈ a.path, v < n
  path_notdone : ∀ v ∈ a.path, a.status v ≠ -2
  tail_live : ∀ v ∈ a.path.tail, v ∈ a.cst
  path_sorted : a.path.Pairwise (fun x y => x ∈ a.cst → a.time y < a.time x)
  chain : a.path.IsChain (fun x y => E adj y x)
  processed : ∀ v ∈ a.cst, ∀ (k w : Nat), a.status v ≤ (k : Int) → (adj v)[k]? = some w →
    w ∈ a.cst ∨ w ∈ a.done ∨ a.path.head? = some w
  off_path : ∀ v ∈ a.cst, v ∉ a.path → a.status v = 0 ∧ a.link v < a.time v
  link_le : ∀ v ∈ a.cst, a.link v ≤ a.time v
  link_reach : ∀ v ∈ a.cst, ∃ u ∈ a.cst, a.time u = a.link v ∧ R adj v u
  down : ∀ p ∈ a.path, p ∈ a.cst → ∀ v ∈ a.cst, a.time p ≤ a.time v → R adj p v
  low : ∀ p ∈ a.path, p ∈ a.cst → ∀ v ∈ a.cst, a.time p ≤ a.time v →
    ∀ (k w : Nat), a.status v ≤ (k : Int) → (adj v)[k]? = some w → w ∈ a.cst →
    (∃ q ∈ a.path, q ∈ a.cst ∧ a.time p < a.time q ∧ a.time q ≤ a.time v) ∨ a.link p ≤ a.time w
  owner : ∀ v ∈ a.cst, ∃ p ∈ a.path, p ∈ a.cst ∧ a.time p ≤ a.time v

variable {n adj}

theorem Inv.time_inj {a : A} (h : Inv n adj a) {u v : Nat} (hu : u ∈ a.cst) (hv : v ∈ a.cst)
    (e : a.time u = a.time v) : u = v := by
  by_contra hne
  have := h.sorted
  have hp : ∀ x ∈ a.cst, ∀ y ∈ a.cst, x ≠ y → a.time x ≠ a.time y := by
    have h2 : a.cst.Pairwise (fun x y => a.time x ≠ a.time y) := this.imp (fun h => by omega)
    intro x hx y hy hxy
    obtain ⟨i, hi, rfl⟩ := List.getElem_of_mem hx
    obtain ⟨j, hj, rfl⟩ := List.getElem_of_mem hy
    rw [List.pairwise_iff_getElem] at h2
    rcases Nat.lt_trichotomy i j with hij | hij | hij
    · exact h2 i j hi hj hij
    · subst hij; exact absurd rfl hxy
    · exact (h2 j i hj hi hij).symm
  exact hp u hu v hv hne e

theorem Inv.live_not_done {a : A} (h : Inv n adj a) {v : Nat} (hv : v ∈ a.cst) : v ∉ a.done := by
  intro hd
  have h1 := (h.st_live v).1 hv
  have h2 := (h.st_done v).1 hd
  omega

theorem Inv.done_closed {a : A} (h : Inv n adj a) {v w : Nat} (hv : v ∈ a.done) (e : E adj v w) :
    w ∈ a.done := by
  obtain ⟨C, hC, hvC⟩ := List.mem_flatten.1 hv
  obtain ⟨i, hi⟩ := List.mem_iff_getElem?.1 hC
  obtain ⟨j, D, _, hD, hw⟩ := h.topo i C hi v hvC w e
  exact List.mem_flatten.2 ⟨D, List.mem_iff_getElem?.2 ⟨j, hD⟩, hw⟩

/-- top of path is the newest of the visited path vertices -/
theorem Inv.top_max {a : A} (h : Inv n adj a) {c : Nat} {r : List Nat} (hp : a.path = c :: r)
    (hc : c ∈ a.cst) {q : Nat} (hq : q ∈ a.path) : a.time q ≤ a.time c := by
  have := h.path_sorted
  rw [hp] at this hq
  rcases List.mem_cons.1 hq with rfl | hq
  · exact Nat.le_refl _
  · exact Nat.le_of_lt ((List.pairwise_cons.1 this).1 q hq hc)

/-! ### Initial state -/

/-- the machine at the start of a seed -/
def start (seed : Nat) (a : A) : A := { a with path := [seed], t := 0 }

theorem Inv.idle_cst {a : A} (h : Inv n adj a) (hp : a.path = []) : a.cst = [] := by
  cases hc : a.cst with
  | nil => rfl
  | cons v l =>
    obtain ⟨p, hp', _⟩ := h.owner v (by rw [hc]; exact List.mem_cons_self)
    rw [hp] at hp'
    simp at hp'

theorem inv_start {a : A} (h : Inv n adj a) (hp : a.path = []) {s : Nat} (hs : s < n)
    (hst : a.status s ≠ -2) : Inv n adj (start s a) := by
  have hc := h.idle_cst hp
  have hs1 : s ∉ a.cst := by simp [hc]
  constructor
  case st_live => exact h.st_live
  case st_done => exact h.st_done
  case st_low => exact h.st_low
  case ne => exact h.ne
  case scc => exact h.scc
  case topo => exact h.topo
  case done_nodup => exact h.done_nodup
  all_goals simp [start, hc, hs, hst]

/-- the machine before anything happened -/
def init : A :=
  { comps := [], path := [], cst := [], status := fun _ => -1, time := fun _ => 0,
    link := fun _ => 0, t := 0 }

theorem inv_init : Inv n adj init := by
  constructor <;> simp [init, A.done]

/-! ### First visit -/

theorem inv_visit {a : A} (h : Inv n adj a) {c : Nat} {r : List Nat} (hp : a.path = c :: r)
    (hst : a.status c = -1) : Inv n adj (visit adj c a) := by
  have hcn : c < n := h.path_lt c (by simp [hp])
  have hc0 : c ∉ a.cst := by
    intro hc; have := (h.st_live c).1 hc; omega
  have hcd : c ∉ a.done := by
    intro hc; have := (h.st_done c).1 hc; omega
  have hcr : c ∉ r := by
    have := h.path_nodup; rw [hp] at this; exact (List.nodup_cons.1 this).1
  have hr : ∀ v ∈ r, v ∈ a.cst := by
    intro v hv; exact h.tail_live v (by simp [hp, hv])
  have hne : ∀ v ∈ a.cst, v ≠ c := fun v hv e => hc0 (e ▸ hv)
  have hreach : ∀ p ∈ r, R adj p c := by
    have hch := h.chain
    rw [hp] at hch
    cases r with
    | nil => simp
    | cons q r' =>
      have hqc : E adj q c := by
        rw [List.isChain_cons_cons] at hch; exact hch.1
      intro p hpr
      have hq : q ∈ a.cst := hr q (by simp)
      have hle : a.time p ≤ a.time q := by
        have hs := h.path_sorted
        rw [hp] at hs
        have hs2 := (List.pairwise_cons.1 hs).2
        rcases List.mem_cons.1 hpr with rfl | hpr
        · exact Nat.le_refl _
        · exact Nat.le_of_lt ((List.pairwise_cons.1 hs2).1 p hpr hq)
      have := h.down p (by simp [hp, List.mem_cons.1 hpr]) (hr p hpr) q hq hle
      exact this.tail hqc
  constructor
  case st_live =>
    intro v
    simp only [visit, List.mem_cons]
    by_cases hv : v = c
    · subst hv; simp [hcn]
    · simp [hv, h.st_live v]
  case st_done =>
    intro v
    show v ∈ a.done ↔ _
    simp only [visit]
    by_cases hv : v = c
    · subst hv; simp [hcd]
    · simp [hv, h.st_done v]
  case st_low =>
    intro v hv
    simp only [visit]
    by_cases hv' : v = c
    · subst hv'; simp
      try omega
    · simp [hv', h.st_low v hv]
  case st_deg =>
    intro v hv
    simp only [visit, List.mem_cons] at hv ⊢
    by_cases hv' : v = c
    · subst hv'; simp
    · simp [hv'] at hv ⊢; exact h.st_deg v hv
  case cst_nodup => exact List.nodup_cons.2 ⟨hc0, h.cst_nodup⟩
  case done_nodup => exact h.done_nodup
  case ne => exact h.ne
  case scc => exact h.scc
  case topo => exact h.topo
  case sorted =>
    simp only [visit]
    refine List.pairwise_cons.2 ⟨?_, ?_⟩
    · intro y hy; simp [hne y hy]; exact h.tlt y hy
    · refine h.sorted.imp_of_mem ?_
      intro x y hx hy hxy
      simpa [hne x hx, hne y hy] using hxy
  case tlt =>
    intro v hv
    simp only [visit, List.mem_cons] at hv ⊢
    by_cases hv' : v = c
    · subst hv'; simp
    · simp [hv'] at hv ⊢; have := h.tlt v hv; omega
  case path_nodup => exact h.path_nodup
  case path_lt => exact h.path_lt
  case path_notdone =>
    intro v hv
    simp only [visit]
    by_cases hv' : v = c
    · subst hv'; simp
      try omega
    · simp [hv']; exact h.path_notdone v hv
  case tail_live =>
    intro v hv
    exact List.mem_cons_of_mem _ (h.tail_live v hv)
  case path_sorted =>
    simp only [visit, hp]
    have hs := h.path_sorted
    rw [hp] at hs
    obtain ⟨_, hs2⟩ := List.pairwise_cons.1 hs
    refine List.pairwise_cons.2 ⟨?_, ?_⟩
    · intro y hy _
      simp [hne y (hr y hy)]; exact h.tlt y (hr y hy)
    · refine hs2.imp_of_mem ?_
      intro x y hx hy hxy _
      have := hxy (hr x hx)
      simpa [hne x (hr x hx), hne y (hr y hy)] using this
  case chain => exact h.chain
  case processed =>
    intro v hv k w hk hw
    simp only [visit, List.mem_cons] at hv hk ⊢
    by_cases hv' : v = c
    · subst hv'
      simp at hk
      have : (adj v)[k]? = none := List.getElem?_eq_none hk
      rw [this] at hw; cases hw
    · simp [hv'] at hv hk
      rcases h.processed v hv k w hk hw with h1 | h1 | h1
      · exact Or.inl (Or.inr h1)
      · exact Or.inr (Or.inl h1)
      · exact Or.inr (Or.inr h1)
  case off_path =>
    intro v hv hvp
    simp only [visit, List.mem_cons] at hv hvp ⊢
    have hv' : v ≠ c := by rintro rfl; exact hvp (by simp [hp])
    simp [hv'] at hv ⊢
    exact h.off_path v hv hvp
  case link_le =>
    intro v hv
    simp only [visit, List.mem_cons] at hv ⊢
    by_cases hv' : v = c
    · subst hv'; simp
    · simp [hv'] at hv ⊢; exact h.link_le v hv
  case link_reach =>
    intro v hv
    simp only [visit, List.mem_cons] at hv ⊢
    by_cases hv' : v = c
    · subst hv'; exact ⟨v, Or.inl rfl, by simp, ReflTransGen.refl⟩
    · simp [hv'] at hv
      obtain ⟨u, hu, e, hr⟩ := h.link_reach v hv
      exact ⟨u, Or.inr hu, by simp [hne u hu, hv', e], hr⟩
  case down =>
    intro p hpp hpc v hv hle
    simp only [visit, List.mem_cons] at hpp hpc hv hle
    rw [hp] at hpp
    by_cases hv' : v = c
    · subst hv'
      rcases List.mem_cons.1 hpp with rfl | hpr
      · exact ReflTransGen.refl
      · exact hreach p hpr
    · simp [hv'] at hv
      by_cases hpc' : p = c
      · subst hpc'
        simp [hv'] at hle
        have := h.tlt v hv
        omega
      · simp [hpc'] at hpp hpc
        simp [hv', hpc'] at hle
        exact h.down p (by simp [hp, hpp]) hpc v hv hle
  case low =>
    intro p hpp hpc v hv hle k w hk hw hwc
    simp only [visit, List.mem_cons] at hpp hpc hv hle hk hwc ⊢
    by_cases hv' : v = c
    · subst hv'
      simp at hk
      have : (adj v)[k]? = none := List.getElem?_eq_none hk
      rw [this] at hw; cases hw
    · simp [hv'] at hv hk
      by_cases hpc' : p = c
      · subst hpc'
        simp [hv'] at hle
        have := h.tlt v hv
        omega
      · simp [hpc'] at hpc
        simp [hv', hpc'] at hle
        by_cases hwc' : w = c
        · subst hwc'
          right
          simp [hpc']
          have := h.link_le p hpc
          have := h.tlt p hpc
          omega
        · simp [hwc'] at hwc
          rcases h.low p hpp hpc v hv hle k w hk hw hwc with ⟨q, hq1, hq2, hq3, hq4⟩ | h2
          · left
            exact ⟨q, hq1, Or.inr hq2, by simp [hpc', hne q hq2, hq3], by simp [hv', hne q hq2, hq4]⟩
          · right; simp [hpc', hwc', h2]
  case owner =>
    intro v hv
    simp only [visit, List.mem_cons] at hv ⊢
    by_cases hv' : v = c
    · subst hv'; exact ⟨v, by simp [hp], Or.inl rfl, Nat.le_refl _⟩
    · simp [hv'] at hv
      obtain ⟨p, h1, h2, h3⟩ := h.owner v hv
      exact ⟨p, h1, Or.inr h2, by simp [hne p h2, hv', h3]⟩

/-! ### Looking at a child -/

theorem inv_child {a : A} (h : Inv n adj a) (hadj : ∀ v, v < n → ∀ w ∈ adj v, w < n)
    {c : Nat} {r : List Nat} (hp : a.path = c :: r) (hst : 0 < a.status c) :
    Inv n adj (child adj c a) ∧ (child adj c a).t = a.t := by
  have hcn : c < n := h.path_lt c (by simp [hp])
  have hc : c ∈ a.cst := (h.st_live c).2 ⟨hcn, by omega⟩
  have hdeg := h.st_deg c hc
  obtain ⟨k0, hk0⟩ : ∃ k0 : Nat, a.status c = k0 + 1 := ⟨(a.status c - 1).toNat, by omega⟩
  have hk0lt : k0 < (adj c).length := by omega
  have hw0 : (adj c)[k0]? = some ((adj c)[k0]) := List.getElem?_eq_getElem hk0lt
  have hgetD : (adj c).getD (a.status c - 1).toNat 0 = (adj c)[k0] := by
    have : (a.status c - 1).toNat = k0 := by omega
    rw [this, List.getD_eq_getElem?_getD, hw0]; rfl
  generalize hwdef : (adj c)[k0] = w0 at *
  have hw0n : w0 < n := hadj c hcn w0 (by rw [← hwdef]; exact List.getElem_mem _)
  have hE : E adj c w0 := by
    show w0 ∈ adj c
    rw [← hwdef]; exact List.getElem_mem _
  -- the state after decrementing the counter, except for `processed`
  have hs1 : a.status c - 1 = k0 := by omega
  -- status function after decrement
  have hstat : ∀ v, (0 ≤ update a.status c (a.status c - 1) v ↔ 0 ≤ a.status v) ∧
      (update a.status c (a.status c - 1) v = -2 ↔ a.status v = -2) ∧
      (update a.status c (a.status c - 1) v = -1 ↔ a.status v = -1) := by
    intro v
    by_cases hv : v = c
    · subst hv; simp; omega
    · simp [hv]
  have hsle : ∀ v (k : Int), v ≠ c → (update a.status c (a.status c - 1) v ≤ k ↔ a.status v ≤ k) := by
    intro v k hv; simp [hv]
  -- old or new processed index
  have hproc : ∀ v ∈ a.cst, ∀ (k w : Nat), update a.status c (a.status c - 1) v ≤ (k : Int) →
      (adj v)[k]? = some w → (a.status v ≤ (k : Int)) ∨ (v = c ∧ k = k0 ∧ w = w0) := by
    intro v hv k w hk hw
    by_cases hvc : v = c
    · subst hvc
      simp at hk
      by_cases hkk : k = k0
      · subst hkk
        right
        rw [hw0] at hw
        exact ⟨rfl, rfl, by cases hw; rfl⟩
      · left; omega
    · left; simpa [hvc] using hk
  unfold child
  rw [hgetD]
  simp only
  by_cases hrem : a.status w0 = -1
  · -- push the child
    have hw0c : w0 ∉ a.cst := by intro hh; have := (h.st_live w0).1 hh; omega
    have hw0p : w0 ∉ a.path := by
      rw [hp]
      intro hh
      rcases List.mem_cons.1 hh with rfl | hh
      · omega
      · exact hw0c (h.tail_live w0 (by simp [hp, hh]))
    have hpl : ∀ v ∈ a.path, v ∈ a.cst := by
      intro v hv
      rw [hp] at hv
      rcases List.mem_cons.1 hv with rfl | hv
      · exact hc
      · exact h.tail_live v (by simp [hp, hv])
    rw [if_pos ((hstat w0).2.2.2 hrem)]
    refine ⟨?_, rfl⟩
    constructor
    case st_live => intro v; simp only; rw [h.st_live v, (hstat v).1]
    case st_done => intro v; show v ∈ a.done ↔ _; simp only; rw [h.st_done v, (hstat v).2.1]
    case st_low =>
      intro v hv; simp only
      by_cases hvc : v = c
      · subst hvc; simp; omega
      · simp [hvc, h.st_low v hv]
    case st_deg =>
      intro v hv; simp only at hv ⊢
      by_cases hvc : v = c
      · subst hvc; simp; omega
      · simp [hvc, h.st_deg v hv]
    case cst_nodup => exact h.cst_nodup
    case done_nodup => exact h.done_nodup
    case ne => exact h.ne
    case scc => exact h.scc
    case topo => exact h.topo
    case sorted => exact h.sorted
    case tlt => exact h.tlt
    case path_nodup => exact List.nodup_cons.2 ⟨hw0p, h.path_nodup⟩
    case path_lt => intro v hv; rcases List.mem_cons.1 hv with rfl | hv; exacts [hw0n, h.path_lt v hv]
    case path_notdone =>
      intro v hv; simp only
      rw [Ne, (hstat v).2.1]
      rcases List.mem_cons.1 hv with rfl | hv
      · omega
      · exact h.path_notdone v hv
    case tail_live => intro v hv; exact hpl v hv
    case path_sorted =>
      refine List.pairwise_cons.2 ⟨fun y _ hh => absurd hh hw0c, h.path_sorted⟩
    case chain =>
      simp only
      have := h.chain
      rw [hp] at this ⊢
      rw [List.isChain_cons_cons]
      exact ⟨hE, this⟩
    case processed =>
      intro v hv k w hk hw
      simp only at hv hk ⊢
      rcases hproc v hv k w hk hw with hk' | ⟨_, _, rfl⟩
      · rcases h.processed v hv k w hk' hw with h1 | h1 | h1
        · exact Or.inl h1
        · exact Or.inr (Or.inl h1)
        · left
          rw [hp] at h1; simp at h1; subst h1; exact hc
      · right; right; rfl
    case off_path =>
      intro v hv hvp
      simp only [List.mem_cons, not_or] at hvp ⊢
      have hvc : v ≠ c := by rintro rfl; exact hvp.2 (by simp [hp])
      simp [hvc]
      exact h.off_path v hv hvp.2
    case link_le => exact h.link_le
    case link_reach => exact h.link_reach
    case down =>
      intro p hpp hpc v hv hle
      simp only [List.mem_cons] at hpp
      rcases hpp with rfl | hpp
      · exact absurd hpc hw0c
      · exact h.down p hpp hpc v hv hle
    case low =>
      intro p hpp hpc v hv hle k w hk hw hwc
      simp only [List.mem_cons] at hpp hk hv hle hwc ⊢
      rcases hpp with rfl | hpp
      · exact absurd hpc hw0c
      · rcases hproc v hv k w hk hw with hk' | ⟨_, _, rfl⟩
        · rcases h.low p hpp hpc v hv hle k w hk' hw hwc with ⟨q, hq1, hq2⟩ | h2
          · exact Or.inl ⟨q, Or.inr hq1, hq2⟩
          · exact Or.inr h2
        · exact absurd hwc hw0c
    case owner =>
      intro v hv
      obtain ⟨p, h1, h2⟩ := h.owner v hv
      exact ⟨p, List.mem_cons_of_mem _ h1, h2⟩
  · rw [if_neg (fun hh => hrem ((hstat w0).2.2.1 hh))]
    by_cases hlive : 0 ≤ a.status w0
    · -- live child
      have hw0c : w0 ∈ a.cst := (h.st_live w0).2 ⟨hw0n, hlive⟩
      rw [if_pos ((hstat w0).1.2 hlive)]
      refine ⟨?_, rfl⟩
      have hll : ∀ v, update a.link c (min (a.link c) (a.time w0)) v ≤ a.link v := by
        intro v
        by_cases hvc : v = c
        · subst hvc; simp only [update_self]; exact Nat.min_le_left _ _
        · simp [hvc]
      constructor
      case st_live => intro v; simp only; rw [h.st_live v, (hstat v).1]
      case st_done => intro v; show v ∈ a.done ↔ _; simp only; rw [h.st_done v, (hstat v).2.1]
      case st_low =>
        intro v hv; simp only
        by_cases hvc : v = c
        · subst hvc; simp; omega
        · simp [hvc, h.st_low v hv]
      case st_deg =>
        intro v hv; simp only at hv ⊢
        by_cases hvc : v = c
        · subst hvc; simp; omega
        · simp [hvc, h.st_deg v hv]
      case cst_nodup => exact h.cst_nodup
      case done_nodup => exact h.done_nodup
      case ne => exact h.ne
      case scc => exact h.scc
      case topo => exact h.topo
      case sorted => exact h.sorted
      case tlt => exact h.tlt
      case path_nodup => exact h.path_nodup
      case path_lt => exact h.path_lt
      case path_notdone => intro v hv; simp only; rw [Ne, (hstat v).2.1]; exact h.path_notdone v hv
      case tail_live => exact h.tail_live
      case path_sorted => exact h.path_sorted
      case chain => exact h.chain
      case processed =>
        intro v hv k w hk hw
        simp only at hv hk ⊢
        rcases hproc v hv k w hk hw with hk' | ⟨_, _, rfl⟩
        · exact h.processed v hv k w hk' hw
        · exact Or.inl hw0c
      case off_path =>
        intro v hv hvp
        simp only at hvp ⊢
        have hvc : v ≠ c := by rintro rfl; exact hvp (by simp [hp])
        simp [hvc]
        exact h.off_path v hv hvp
      case link_le => intro v hv; exact Nat.le_trans (hll v) (h.link_le v hv)
      case link_reach =>
        intro v hv
        simp only
        by_cases hvc : v = c
        · subst hvc
          by_cases hmin : a.link v ≤ a.time w0
          · obtain ⟨u, hu, e, hr⟩ := h.link_reach v hv
            exact ⟨u, hu, by simp [e, hmin], hr⟩
          · exact ⟨w0, hw0c, by simp; omega, ReflTransGen.single hE⟩
        · simp [hvc]; exact h.link_reach v hv
      case down => exact h.down
      case low =>
        intro p hpp hpc v hv hle k w hk hw hwc
        simp only at hpp hk hv hle hwc ⊢
        rcases hproc v hv k w hk hw with hk' | ⟨rfl, _, rfl⟩
        · rcases h.low p hpp hpc v hv hle k w hk' hw hwc with h1 | h2
          · exact Or.inl h1
          · exact Or.inr (Nat.le_trans (hll p) h2)
        · by_cases hpv : p = v
          · subst hpv; right; simp only [update_self]; exact Nat.min_le_right _ _
          · left
            have := h.time_inj hpc hv
            exact ⟨v, by simp [hp], hv, by
              rcases Nat.lt_or_ge (a.time p) (a.time v) with h1 | h1
              · exact h1
              · exact absurd (this (by omega)) hpv, Nat.le_refl _⟩
      case owner => exact h.owner
    · -- finished child
      rw [if_neg (fun hh => hlive ((hstat w0).1.1 hh))]
      have hdone : a.status w0 = -2 := by have := h.st_low w0 hw0n; omega
      have hw0d : w0 ∈ a.done := (h.st_done w0).2 ⟨hw0n, hdone⟩
      refine ⟨?_, rfl⟩
      constructor
      case st_live => intro v; simp only; rw [h.st_live v, (hstat v).1]
      case st_done => intro v; show v ∈ a.done ↔ _; simp only; rw [h.st_done v, (hstat v).2.1]
      case st_low =>
        intro v hv; simp only
        by_cases hvc : v = c
        · subst hvc; simp; omega
        · simp [hvc, h.st_low v hv]
      case st_deg =>
        intro v hv; simp only at hv ⊢
        by_cases hvc : v = c
        · subst hvc; simp; omega
        · simp [hvc, h.st_deg v hv]
      case cst_nodup => exact h.cst_nodup
      case done_nodup => exact h.done_nodup
      case ne => exact h.ne
      case scc => exact h.scc
      case topo => exact h.topo
      case sorted => exact h.sorted
      case tlt => exact h.tlt
      case path_nodup => exact h.path_nodup
      case path_lt => exact h.path_lt
      case path_notdone => intro v hv; simp only; rw [Ne, (hstat v).2.1]; exact h.path_notdone v hv
      case tail_live => exact h.tail_live
      case path_sorted => exact h.path_sorted
      case chain => exact h.chain
      case processed =>
        intro v hv k w hk hw
        simp only at hv hk ⊢
        rcases hproc v hv k w hk hw with hk' | ⟨_, _, rfl⟩
        · exact h.processed v hv k w hk' hw
        · exact Or.inr (Or.inl hw0d)
      case off_path =>
        intro v hv hvp
        simp only at hvp ⊢
        have hvc : v ≠ c := by rintro rfl; exact hvp (by simp [hp])
        simp [hvc]
        exact h.off_path v hv hvp
      case link_le => exact h.link_le
      case link_reach => exact h.link_reach
      case down => exact h.down
      case low =>
        intro p hpp hpc v hv hle k w hk hw hwc
        simp only at hpp hk hv hle hwc ⊢
        rcases hproc v hv k w hk hw with hk' | ⟨_, _, rfl⟩
        · exact h.low p hpp hpc v hv hle k w hk' hw hwc
        · exact absurd hw0d (h.live_not_done hwc)
      case owner => exact h.owner

/-! ### Completing a vertex -/

theorem seg_split {c : Nat} {s t : List Nat} (hs : c ∉ s) :
    seg c (s ++ c :: t) = s ++ [c] ∧ ((s ++ c :: t).dropWhile (· ≠ c)).tail = t := by
  unfold seg
  induction s with
  | nil => simp
  | cons x s ih =>
    have hx : x ≠ c := fun e => hs (by simp [e])
    have hs' : c ∉ s := fun e => hs (by simp [e])
    obtain ⟨h1, h2⟩ := ih hs'
    constructor
    · simp [hx] at h1 ⊢
      exact h1
    · simp [hx] at h2 ⊢
      exact h2

/-- The result of completing a root vertex. -/
def emitted (c : Nat) (s t r : List Nat) (a : A) : A :=
  { a with comps := a.comps ++ [s ++ [c]]
           path := r
           cst := t
           status := fun v => if v ∈ s ++ [c] then -2 else a.status v }

theorem inv_emitted {a : A} (h : Inv n adj a) {c : Nat} {s t r : List Nat}
    (hp : a.path = c :: r) (hst : a.status c = 0) (hroot : a.link c = a.time c)
    (hcst : a.cst = s ++ c :: t) (_hs : c ∉ s) : Inv n adj (emitted c s t r a) := by
  have hc : c ∈ a.cst := by simp [hcst]
  have hcn := ((h.st_live c).1 hc).1
  have hsort := h.sorted
  rw [hcst, List.pairwise_append] at hsort
  obtain ⟨_, hsort2, hsort3⟩ := hsort
  obtain ⟨hct, hsortt⟩ := List.pairwise_cons.1 hsort2
  -- the segment consists of the live vertices at least as new as c
  have hsegt : ∀ v ∈ a.cst, (v ∈ s ++ [c] ↔ a.time c ≤ a.time v) := by
    intro v hv
    rw [hcst] at hv
    constructor
    · intro hv'
      rcases List.mem_append.1 hv' with hv' | hv'
      · exact Nat.le_of_lt (hsort3 v hv' c (by simp))
      · simp at hv'; subst hv'; exact Nat.le_refl _
    · intro hle
      rcases List.mem_append.1 hv with hv | hv
      · simp [hv]
      · rcases List.mem_cons.1 hv with rfl | hv
        · simp
        · have := hct v hv; omega
  have hseg_live : ∀ v ∈ s ++ [c], v ∈ a.cst := by
    intro v hv; rw [hcst]
    rcases List.mem_append.1 hv with hv | hv
    · simp [hv]
    · simp at hv; simp [hv]
  have ht_live : ∀ v ∈ t, v ∈ a.cst := by intro v hv; rw [hcst]; simp [hv]
  have ht_time : ∀ v ∈ t, a.time v < a.time c := hct
  have hnd := h.cst_nodup
  have ht_seg : ∀ v ∈ t, v ∉ s ++ [c] := by
    intro v hv hv'
    have := (hsegt v (ht_live v hv)).1 hv'
    have := ht_time v hv
    omega
  have hcase : ∀ v ∈ a.cst, v ∈ s ++ [c] ∨ v ∈ t := by
    intro v hv; rw [hcst] at hv; simp at hv ⊢; tauto
  -- vertices of the segment are fully processed
  have hst0 : ∀ v ∈ s ++ [c], a.status v = 0 := by
    intro v hv
    have hvl := hseg_live v hv
    by_cases hvc : v = c
    · subst hvc; exact hst
    · refine (h.off_path v hvl ?_).1
      intro hvp
      have h1 := h.top_max hp hc hvp
      have h2 := (hsegt v hvl).1 hv
      exact hvc (h.time_inj hvl hc (by omega))
  have hnotpath : ∀ v ∈ s ++ [c], v ≠ c → v ∉ a.path := by
    intro v hv hvc hvp
    have hvl := hseg_live v hv
    have h1 := h.top_max hp hc hvp
    have h2 := (hsegt v hvl).1 hv
    exact hvc (h.time_inj hvl hc (by omega))
  -- closure
  have hclosed : ∀ v ∈ s ++ [c], ∀ w, E adj v w → w ∈ s ++ [c] ∨ w ∈ a.done := by
    intro v hv w hw
    have hvl := hseg_live v hv
    obtain ⟨k, hk⟩ := List.mem_iff_getElem?.1 hw
    have hk0 : a.status v ≤ (k : Int) := by rw [hst0 v hv]; omega
    have key : w ∈ a.cst → w ∈ s ++ [c] := by
      intro hwc
      rcases h.low c (by simp [hp]) hc v hvl ((hsegt v hvl).1 hv) k w hk0 hk hwc with
        ⟨q, hq1, _, hq3, _⟩ | h2
      · have := h.top_max hp hc hq1; omega
      · rw [hroot] at h2; exact (hsegt w hwc).2 h2
    rcases h.processed v hvl k w hk0 hk with h1 | h1 | h1
    · exact Or.inl (key h1)
    · exact Or.inr h1
    · rw [hp] at h1; simp at h1; subst h1; left; simp
  have hreach_closed : ∀ v w, R adj v w → (v ∈ s ++ [c] ∨ v ∈ a.done) → (w ∈ s ++ [c] ∨ w ∈ a.done) := by
    intro v w hr hv
    induction hr with
    | refl => exact hv
    | tail _ he ih =>
      rcases ih with h1 | h1
      · exact hclosed _ h1 _ he
      · exact Or.inr (h.done_closed h1 he)
  have hdone_reach : ∀ v w, R adj v w → v ∈ a.done → w ∈ a.done := by
    intro v w hr hv
    induction hr with
    | refl => exact hv
    | tail _ he ih => exact h.done_closed ih he
  have hseg_done : ∀ v ∈ s ++ [c], v ∉ a.done := fun v hv => h.live_not_done (hseg_live v hv)
  -- every vertex of the segment reaches c
  have hup : ∀ m v, v ∈ s ++ [c] → a.time v ≤ m → R adj v c := by
    intro m
    induction m using Nat.strongRecOn with
    | _ m ih =>
      intro v hv hm
      by_cases hvc : v = c
      · subst hvc; exact ReflTransGen.refl
      · have hvl := hseg_live v hv
        have hlt := (h.off_path v hvl (hnotpath v hv hvc)).2
        obtain ⟨u, hu, e, hr⟩ := h.link_reach v hvl
        have hus : u ∈ s ++ [c] := by
          rcases hreach_closed v u hr (Or.inl hv) with h1 | h1
          · exact h1
          · exact absurd h1 (h.live_not_done hu)
        exact hr.trans (ih (a.time u) (by omega) u hus (Nat.le_refl _))
  have hdown : ∀ v ∈ s ++ [c], R adj c v := by
    intro v hv
    exact h.down c (by simp [hp]) hc v (hseg_live v hv) ((hsegt v (hseg_live v hv)).1 hv)
  have hr_live : ∀ v ∈ r, v ∈ a.cst := fun v hv => h.tail_live v (by simp [hp, hv])
  have hps := h.path_sorted
  rw [hp] at hps
  obtain ⟨hps1, hps2⟩ := List.pairwise_cons.1 hps
  have hr_t : ∀ v ∈ r, v ∈ t := by
    intro v hv
    rcases hcase v (hr_live v hv) with h1 | h1
    · have := (hsegt v (hr_live v hv)).1 h1
      have := hps1 v hv hc
      omega
    · exact h1
  have hdone' : (emitted c s t r a).done = a.done ++ (s ++ [c]) := by
    simp [emitted, A.done]
  constructor
  case st_live =>
    intro v
    simp only [emitted]
    by_cases hv : v ∈ s ++ [c]
    · rw [if_pos hv]
      constructor
      · intro ht; exact absurd hv (ht_seg v ht)
      · rintro ⟨_, h2⟩; omega
    · rw [if_neg hv, ← h.st_live v]
      constructor
      · exact ht_live v
      · intro h1; rcases hcase v h1 with h2 | h2
        · exact absurd h2 hv
        · exact h2
  case st_done =>
    intro v
    rw [hdone', List.mem_append]
    simp only [emitted]
    by_cases hv : v ∈ s ++ [c]
    · rw [if_pos hv]
      have := ((h.st_live v).1 (hseg_live v hv)).1
      simp [hv, this]
    · rw [if_neg hv, ← h.st_done v]
      simp only [hv, or_false]
  case st_low =>
    intro v hv
    simp only [emitted]
    by_cases hv' : v ∈ s ++ [c]
    · rw [if_pos hv']; exact Int.le_refl _
    · rw [if_neg hv']; exact h.st_low v hv
  case st_deg =>
    intro v hv
    simp only [emitted] at hv ⊢
    rw [if_neg (ht_seg v hv)]
    exact h.st_deg v (ht_live v hv)
  case cst_nodup =>
    rw [hcst, List.nodup_append] at hnd
    exact (List.nodup_cons.1 hnd.2.1).2
  case done_nodup =>
    rw [hdone', List.nodup_append]
    refine ⟨h.done_nodup, ?_, ?_⟩
    · rw [hcst] at hnd
      have : (s ++ c :: t) = (s ++ [c]) ++ t := by simp
      rw [this, List.nodup_append] at hnd
      exact hnd.1
    · intro x hx y hy e
      subst e
      exact hseg_done x hy hx
  case ne =>
    intro C hC
    simp only [emitted, List.mem_append, List.mem_singleton] at hC
    rcases hC with hC | rfl
    · exact h.ne C hC
    · simp
  case scc =>
    intro C hC u hu v
    simp only [emitted, List.mem_append, List.mem_singleton] at hC
    rcases hC with hC | rfl
    · exact h.scc C hC u hu v
    · constructor
      · intro hv
        exact ⟨(hup _ u hu (Nat.le_refl _)).trans (hdown v hv),
          (hup _ v hv (Nat.le_refl _)).trans (hdown u hu)⟩
      · rintro ⟨h1, h2⟩
        rcases hreach_closed u v h1 (Or.inl hu) with h3 | h3
        · exact h3
        · exact absurd (hdone_reach v u h2 h3) (hseg_done u hu)
  case topo =>
    intro i C hC v hv w hw
    simp only [emitted] at hC ⊢
    rw [List.getElem?_append] at hC
    split at hC
    · obtain ⟨j, D, hj, hD, hwD⟩ := h.topo i C hC v hv w hw
      exact ⟨j, D, hj, by rw [List.getElem?_append_left (by omega)]; exact hD, hwD⟩
    · have hi : i = a.comps.length ∧ C = s ++ [c] := by
        have := List.mem_of_getElem? hC
        have hlen := (List.getElem?_eq_some_iff.1 hC).1
        simp at hlen this
        exact ⟨by omega, by simpa using this⟩
      obtain ⟨rfl, rfl⟩ := hi
      rcases hclosed v hv w hw with h1 | h1
      · exact ⟨a.comps.length, s ++ [c], Nat.le_refl _, by simp, h1⟩
      · obtain ⟨D, hD, hwD⟩ := List.mem_flatten.1 h1
        obtain ⟨j, hj⟩ := List.mem_iff_getElem?.1 hD
        have hjl := (List.getElem?_eq_some_iff.1 hj).1
        exact ⟨j, D, by omega, by rw [List.getElem?_append_left hjl]; exact hj, hwD⟩
  case sorted => exact hsortt
  case tlt => intro v hv; exact h.tlt v (ht_live v hv)
  case path_nodup => have := h.path_nodup; rw [hp] at this; exact (List.nodup_cons.1 this).2
  case path_lt => intro v hv; exact h.path_lt v (by rw [hp]; exact List.mem_cons_of_mem _ hv)
  case path_notdone =>
    intro v hv
    simp only [emitted] at hv ⊢
    rw [if_neg (ht_seg v (hr_t v hv))]
    exact h.path_notdone v (by rw [hp]; exact List.mem_cons_of_mem _ hv)
  case tail_live => intro v hv; exact hr_t v (List.mem_of_mem_tail hv)
  case path_sorted =>
    refine hps2.imp_of_mem ?_
    intro x y hx _ hxy _
    exact hxy (hr_live x hx)
  case chain =>
    have := h.chain
    rw [hp] at this
    simp only [emitted]
    cases r with
    | nil => exact List.IsChain.nil
    | cons q r' => rw [List.isChain_cons_cons] at this; exact this.2
  case processed =>
    intro v hv k w hk hw
    simp only [emitted] at hv hk
    rw [if_neg (ht_seg v hv)] at hk
    rw [hdone', List.mem_append]
    rcases h.processed v (ht_live v hv) k w hk hw with h1 | h1 | h1
    · rcases hcase w h1 with h2 | h2
      · exact Or.inr (Or.inl (Or.inr h2))
      · exact Or.inl h2
    · exact Or.inr (Or.inl (Or.inl h1))
    · rw [hp] at h1; simp at h1; subst h1
      exact Or.inr (Or.inl (Or.inr (by simp)))
  case off_path =>
    intro v hv hvp
    simp only [emitted] at hv hvp ⊢
    rw [if_neg (ht_seg v hv)]
    refine h.off_path v (ht_live v hv) ?_
    rw [hp]
    intro hh
    rcases List.mem_cons.1 hh with rfl | hh
    · exact ht_seg v hv (by simp)
    · exact hvp hh
  case link_le => intro v hv; exact h.link_le v (ht_live v hv)
  case link_reach =>
    intro v hv
    simp only [emitted] at hv ⊢
    obtain ⟨u, hu, e, hr⟩ := h.link_reach v (ht_live v hv)
    refine ⟨u, ?_, e, hr⟩
    rcases hcase u hu with h1 | h1
    · have h2 := (hsegt u hu).1 h1
      have h3 := h.link_le v (ht_live v hv)
      have h4 := ht_time v hv
      omega
    · exact h1
  case down =>
    intro p hpp hpc v hv hle
    exact h.down p (by rw [hp]; exact List.mem_cons_of_mem _ hpp) (ht_live p hpc) v (ht_live v hv) hle
  case low =>
    intro p hpp hpc v hv hle k w hk hw hwc
    simp only [emitted] at hpp hpc hv hle hk hwc ⊢
    rw [if_neg (ht_seg v hv)] at hk
    rcases h.low p (by rw [hp]; exact List.mem_cons_of_mem _ hpp) (ht_live p hpc) v (ht_live v hv)
      hle k w hk hw (ht_live w hwc) with ⟨q, hq1, hq2, hq3, hq4⟩ | h2
    · left
      have hqr : q ∈ r := by
        rw [hp] at hq1
        rcases List.mem_cons.1 hq1 with rfl | hq1
        · have := ht_time v hv; omega
        · exact hq1
      exact ⟨q, hqr, hr_t q hqr, hq3, hq4⟩
    · exact Or.inr h2
  case owner =>
    intro v hv
    simp only [emitted] at hv ⊢
    obtain ⟨p, h1, h2, h3⟩ := h.owner v (ht_live v hv)
    have hpr : p ∈ r := by
      rw [hp] at h1
      rcases List.mem_cons.1 h1 with rfl | h1
      · have := ht_time v hv; omega
      · exact h1
    exact ⟨p, hpr, hr_t p hpr, h3⟩

theorem finish_root {a : A} (h : Inv n adj a) {c : Nat} {s t r : List Nat}
    (hp : a.path = c :: r) (hroot : a.link c = a.time c)
    (hcst : a.cst = s ++ c :: t) (hs : c ∉ s) : finish c a = emitted c s t r a := by
  unfold finish
  rw [if_pos hroot]
  have he : emit c a = { emitted c s t r a with path := a.path } := by
    obtain ⟨h1, h2⟩ := seg_split (t := t) hs
    simp only [emit, emitted, hcst, h1, h2]
  rw [he]
  unfold popPath
  simp only [hp, List.tail_cons]
  cases r with
  | nil => rfl
  | cons p r' =>
    have hpc : p ∈ a.cst := h.tail_live p (by simp [hp])
    have hlt : a.time p < a.time c := by
      have hps := h.path_sorted
      rw [hp] at hps
      exact (List.pairwise_cons.1 hps).1 p (by simp) (by simp [hcst])
    have hle := h.link_le p hpc
    have : min (a.link p) (a.link c) = a.link p := Nat.min_eq_left (by omega)
    simp only [emitted, this, update_eq_self]

theorem inv_finish {a : A} (h : Inv n adj a) {c : Nat} {r : List Nat}
    (hp : a.path = c :: r) (hst : a.status c = 0) : Inv n adj (finish c a) := by
  have hcn : c < n := h.path_lt c (by simp [hp])
  have hc : c ∈ a.cst := (h.st_live c).2 ⟨hcn, by omega⟩
  by_cases hroot : a.link c = a.time c
  · obtain ⟨s, t, hcst, hs⟩ := List.eq_append_cons_of_mem hc
    rw [finish_root h hp hroot hcst hs]
    exact inv_emitted h hp hst hroot hcst hs
  · have hlt : a.link c < a.time c := Nat.lt_of_le_of_ne (h.link_le c hc) hroot
    obtain ⟨u, hu, eu, hru⟩ := h.link_reach c hc
    obtain ⟨p', hp1, hp2, hp3⟩ := h.owner u hu
    have hp'r : p' ∈ r := by
      rw [hp] at hp1
      rcases List.mem_cons.1 hp1 with rfl | hp1
      · omega
      · exact hp1
    cases r with
    | nil => cases hp'r
    | cons p0 r' =>
      have hps := h.path_sorted
      rw [hp] at hps
      obtain ⟨hps1, hps2⟩ := List.pairwise_cons.1 hps
      obtain ⟨hps3, hps4⟩ := List.pairwise_cons.1 hps2
      have hr_live : ∀ v ∈ p0 :: r', v ∈ a.cst := fun v hv => h.tail_live v (by rw [hp]; exact hv)
      have hp0 := hr_live p0 (by simp)
      have hp0t : a.time p0 < a.time c := hps1 p0 (by simp) hc
      have hp0c : p0 ≠ c := by rintro rfl; omega
      have hnd := h.path_nodup
      rw [hp] at hnd
      have hE : E adj p0 c := by
        have := h.chain; rw [hp, List.isChain_cons_cons] at this; exact this.1
      unfold finish
      rw [if_neg hroot]
      unfold popPath
      simp only [hp, List.tail_cons]
      have hll : ∀ v, update a.link p0 (min (a.link p0) (a.link c)) v ≤ a.link v := by
        intro v
        by_cases hv : v = p0
        · subst hv; simp only [update_self]; exact Nat.min_le_left _ _
        · simp [hv]
      constructor
      case st_live => exact h.st_live
      case st_done => exact h.st_done
      case st_low => exact h.st_low
      case st_deg => exact h.st_deg
      case cst_nodup => exact h.cst_nodup
      case done_nodup => exact h.done_nodup
      case ne => exact h.ne
      case scc => exact h.scc
      case topo => exact h.topo
      case sorted => exact h.sorted
      case tlt => exact h.tlt
      case path_nodup => exact (List.nodup_cons.1 hnd).2
      case path_lt => intro v hv; exact h.path_lt v (by rw [hp]; exact List.mem_cons_of_mem _ hv)
      case path_notdone =>
        intro v hv; exact h.path_notdone v (by rw [hp]; exact List.mem_cons_of_mem _ hv)
      case tail_live => intro v hv; exact hr_live v (List.mem_of_mem_tail hv)
      case path_sorted => exact hps2
      case chain => have := h.chain; rw [hp, List.isChain_cons_cons] at this; exact this.2
      case processed =>
        intro v hv k w hk hw
        rcases h.processed v hv k w hk hw with h1 | h1 | h1
        · exact Or.inl h1
        · exact Or.inr (Or.inl h1)
        · rw [hp] at h1; simp at h1; subst h1; exact Or.inl hc
      case off_path =>
        intro v hv hvp
        simp only at hvp ⊢
        by_cases hvc : v = c
        · subst hvc
          exact ⟨hst, Nat.lt_of_le_of_lt (hll v) hlt⟩
        · have := h.off_path v hv (by
            rw [hp]; intro hh
            rcases List.mem_cons.1 hh with e | hh
            · exact hvc e
            · exact hvp hh)
          exact ⟨this.1, Nat.lt_of_le_of_lt (hll v) this.2⟩
      case link_le => intro v hv; exact Nat.le_trans (hll v) (h.link_le v hv)
      case link_reach =>
        intro v hv
        simp only
        by_cases hvp : v = p0
        · subst hvp
          by_cases hmin : a.link v ≤ a.link c
          · obtain ⟨u', hu', e, hr⟩ := h.link_reach v hv
            exact ⟨u', hu', by simp [e, hmin], hr⟩
          · exact ⟨u, hu, by simp; omega, (ReflTransGen.single hE).trans hru⟩
        · simp [hvp]; exact h.link_reach v hv
      case down =>
        intro p hpp
        exact h.down p (by rw [hp]; exact List.mem_cons_of_mem _ hpp)
      case low =>
        intro p hpp hpc v hv hle k w hk hw hwc
        simp only at hpp hpc hv hle hk hwc ⊢
        rcases h.low p (by rw [hp]; exact List.mem_cons_of_mem _ hpp) hpc v hv hle k w hk hw hwc with
          ⟨q, hq1, hq2, hq3, hq4⟩ | h2
        · rw [hp] at hq1
          rcases List.mem_cons.1 hq1 with rfl | hq1
          · rcases h.low q (by simp [hp]) hq2 v hv hq4 k w hk hw hwc with ⟨q', g1, _, g3, _⟩ | h2
            · have := h.top_max hp hq2 g1; omega
            · by_cases hpp0 : p = p0
              · subst hpp0
                right
                simp only [update_self]
                exact Nat.le_trans (Nat.min_le_right _ _) h2
              · left
                refine ⟨p0, by simp, hp0, ?_, by omega⟩
                rcases List.mem_cons.1 hpp with e | hpp
                · exact absurd e hpp0
                · exact hps3 p hpp hp0
          · exact Or.inl ⟨q, hq1, hq2, hq3, hq4⟩
        · exact Or.inr (Nat.le_trans (hll p) h2)
      case owner =>
        intro v hv
        obtain ⟨p, g1, g2, g3⟩ := h.owner v hv
        rw [hp] at g1
        rcases List.mem_cons.1 g1 with rfl | g1
        · exact ⟨p', hp'r, hp2, by simp only; omega⟩
        · exact ⟨p, g1, g2, g3⟩

/-! ### Termination measure -/

/-- number of unprocessed edges of `v` -/
def rem (adj : Nat → List Nat) (st : Nat → Int) (v : Nat) : Nat :=
  if st v = -1 then (adj v).length else (st v).toNat

def pot (n : Nat) (adj : Nat → List Nat) (a : A) : Nat :=
  2 * ((List.range n).map (rem adj a.status)).sum + a.path.length

theorem sum_map_le {f g : Nat → Nat} (l : List Nat) (h : ∀ v ∈ l, f v ≤ g v) :
    (l.map f).sum ≤ (l.map g).sum := by
  induction l with
  | nil => simp
  | cons x l ih =>
    simp only [List.map_cons, List.sum_cons]
    have := h x (by simp)
    have := ih (fun v hv => h v (by simp [hv]))
    omega

theorem sum_map_lt {f g : Nat → Nat} (l : List Nat) (h : ∀ v ∈ l, f v ≤ g v) {c : Nat} (hc : c ∈ l)
    (hlt : f c < g c) : (l.map f).sum < (l.map g).sum := by
  induction l with
  | nil => cases hc
  | cons x l ih =>
    simp only [List.map_cons, List.sum_cons]
    have h1 := h x (by simp)
    have h2 := sum_map_le l (fun v hv => h v (by simp [hv]))
    rcases List.mem_cons.1 hc with rfl | hc
    · omega
    · have := ih (fun v hv => h v (by simp [hv])) hc
      omega

theorem pot_visit {a : A} {c : Nat} (hst : a.status c = -1) :
    pot n adj (visit adj c a) = pot n adj a := by
  unfold pot
  have : rem adj (visit adj c a).status = rem adj a.status := by
    funext v
    unfold rem visit
    by_cases hv : v = c
    · subst hv; simp [hst]
      try omega
    · simp [hv]
  rw [this]; rfl

theorem pot_child {a : A} {c : Nat} (hcn : c < n) (hst : 0 < a.status c) :
    pot n adj (child adj c a) < pot n adj a := by
  have key : ((List.range n).map (rem adj (update a.status c (a.status c - 1)))).sum
      < ((List.range n).map (rem adj a.status)).sum := by
    refine sum_map_lt _ ?_ (List.mem_range.2 hcn) ?_
    · intro v _
      unfold rem
      by_cases hv : v = c
      · subst hv; simp; split <;> split <;> omega
      · simp [hv]
    · unfold rem; simp; split <;> split <;> omega
  unfold pot child
  simp only
  split
  · simp only [List.length_cons]; omega
  · split <;> simp only <;> omega

theorem pot_finish {a : A} {c : Nat} {r : List Nat} (hp : a.path = c :: r) :
    pot n adj (finish c a) < pot n adj a := by
  have hlen : (finish c a).path.length < a.path.length := by
    unfold finish popPath
    have : (if a.link c = a.time c then emit c a else a).path = a.path := by split <;> rfl
    rw [this, hp]
    cases r <;> simp
  have hs : ((List.range n).map (rem adj (finish c a).status)).sum
      ≤ ((List.range n).map (rem adj a.status)).sum := by
    refine sum_map_le _ ?_
    intro v _
    unfold finish popPath
    have : ∀ v, rem adj (if a.link c = a.time c then emit c a else a).status v ≤ rem adj a.status v := by
      intro v
      split
      · unfold rem emit
        simp only
        by_cases hv : v ∈ seg c a.cst
        · simp [hv]
        · simp [hv]
      · exact Nat.le_refl _
    split <;> exact this v
  unfold pot
  omega

end Opm.TarjanAbs
