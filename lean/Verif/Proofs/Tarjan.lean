import Verif.Model.Tarjan
import Verif.Proofs.Graph
import Verif.Proofs.TarjanAbs
import Mathlib.Data.List.Perm.Subperm
/-!
# `tarjan` simulates the abstract strong-component machine
-/

namespace Opm.Tarjan

open Opm.Graph Opm.TarjanAbs Function

theorem length_comps_le : ∀ (cs : List (List Nat)), (∀ C ∈ cs, C ≠ []) →
    cs.length ≤ cs.flatten.length
  | [], _ => by simp
  | C :: cs, h => by
    have h1 : C ≠ [] := h C (by simp)
    have h2 := length_comps_le cs (fun C hC => h C (by simp [hC]))
    have : 0 < C.length := List.length_pos_of_ne_nil h1
    simp only [List.length_cons, List.flatten_cons, List.length_append]
    omega

/-! ### Representation -/

structure Rep (nv : Nat) (s : St) (a : A) : Prop where
  lv : s.vert.length = nv
  lc : s.comp.length = nv + 1
  ltime : s.time.length = nv
  llink : s.link.length = nv
  lstatus : s.status.length = nv
  hstatus : ∀ v < nv, s.status[v]? = some (a.status v)
  htime : ∀ v < nv, s.time[v]? = some (a.time v)
  hlink : ∀ v < nv, s.link[v]? = some (a.link v)
  vdone : s.vert.take a.done.length = a.done
  vcst : s.vert.drop (nv - a.cst.length) = a.cst
  ccomp : s.comp.take (a.comps.length + 1) = boundaries 0 a.comps
  cpath : s.comp.drop (nv + 1 - a.path.length) = a.path
  hstack : s.stack = (nv : Int) - a.path.length
  hcstack : s.cstack = (nv : Int) - 1 - a.cst.length
  hpos : s.pos = a.done.length
  hcompp : s.compp = a.comps.length + 1
  hncomp : s.ncomp = a.comps.length
  ht : s.t = a.t

variable {nv : Nat} {ia ja : List Nat}

theorem bound_cst {a : A} {adj} (h : Inv nv adj a) : a.done.length + a.cst.length ≤ nv := by
  have hnd : (a.done ++ a.cst).Nodup := by
    rw [List.nodup_append]
    refine ⟨h.done_nodup, h.cst_nodup, ?_⟩
    rintro x hx y hy rfl
    exact h.live_not_done hy hx
  have hsub : (a.done ++ a.cst) ⊆ List.range nv := by
    intro v hv
    rw [List.mem_range]
    rcases List.mem_append.1 hv with hv | hv
    · exact ((h.st_done v).1 hv).1
    · exact ((h.st_live v).1 hv).1
  have := (hnd.subperm hsub).length_le
  simpa using this

theorem bound_path {a : A} {adj} (h : Inv nv adj a) : a.done.length + a.path.length ≤ nv := by
  have hnd : (a.done ++ a.path).Nodup := by
    rw [List.nodup_append]
    refine ⟨h.done_nodup, h.path_nodup, ?_⟩
    rintro x hx y hy rfl
    exact h.path_notdone x hy ((h.st_done x).1 hx).2
  have hsub : (a.done ++ a.path) ⊆ List.range nv := by
    intro v hv
    rw [List.mem_range]
    rcases List.mem_append.1 hv with hv | hv
    · exact ((h.st_done v).1 hv).1
    · exact h.path_lt v hv
  have := (hnd.subperm hsub).length_le
  simpa using this

theorem bound_comps {a : A} {adj} (h : Inv nv adj a) : a.comps.length ≤ a.done.length :=
  length_comps_le _ h.ne

theorem set_update {α : Type _} {l : List α} {f : Nat → α} {c : Nat} {x : α}
    (hl : l.length = nv) (h : ∀ v < nv, l[v]? = some (f v)) :
    ∀ v < nv, (l.set c x)[v]? = some (update f c x v) := by
  intro v hv
  rw [List.getElem?_set]
  by_cases hc : c = v
  · subst hc; simp [hl, hv]
  · simp [hc, h v hv, Ne.symm hc]

/-! ### Steps -/

theorem rep_visit (wf : WF nv ia ja) {s : St} {a : A} (h : Inv nv (adj ia ja) a) (r : Rep nv s a)
    {c : Nat} {p : List Nat} (hp : a.path = c :: p) (hst : a.status c = -1) :
    ∃ s', visit ia c s = .ok s' ∧ Rep nv s' (TarjanAbs.visit (adj ia ja) c a) := by
  have hc : c < nv := h.path_lt c (by simp [hp])
  have hb := bound_cst (inv_visit h hp hst)
  simp only [TarjanAbs.visit, A.done, List.length_cons] at hb
  obtain ⟨i, hi⟩ : ∃ i : Nat, (i : Int) = s.cstack := ⟨nv - 1 - a.cst.length, by rw [r.hcstack]; omega⟩
  have hi' : i = nv - 1 - a.cst.length := by have := r.hcstack; omega
  unfold visit
  rw [rd_of_getElem? (r.hstatus c hc)]
  simp only [bind_ok, hst, REMAINING, beq_self_eq_true, if_true]
  rw [rd_of_getElem? (ia_get wf (i := c + 1) hc), rd_of_getElem? (ia_get wf (i := c) (by omega))]
  simp only [bind_ok]
  rw [wr_ok (by rw [r.lstatus]; exact hc), bind_ok, wr_ok (by rw [r.llink]; exact hc), bind_ok,
    wr_ok (by rw [r.ltime]; exact hc), bind_ok, ← hi, wrI_natCast,
    wr_ok (by rw [r.lv]; omega), bind_ok]
  refine ⟨_, rfl, ?_⟩
  have hdeg : ((ia.getD (c + 1) 0 : Nat) : Int) - (ia.getD c 0 : Nat) = ((adj ia ja c).length : Int) := by
    rw [adj_length wf hc]
    have := ia_mono wf (i := c) (j := c + 1) (by omega) hc
    omega
  constructor
  case lv => simp [r.lv]
  case lc => simp [r.lc]
  case ltime => simp [r.ltime]
  case llink => simp [r.llink]
  case lstatus => simp [r.lstatus]
  case hstatus => rw [hdeg]; exact set_update r.lstatus r.hstatus
  case htime => rw [r.ht]; exact set_update r.ltime r.htime
  case hlink => rw [r.ht]; exact set_update r.llink r.hlink
  case vdone =>
    show (s.vert.set i c).take a.done.length = a.done
    rw [take_set_ge _ _ _ _ (by simp only [A.done]; omega)]
    exact r.vdone
  case vcst =>
    simp only [TarjanAbs.visit, List.length_cons]
    have e : nv - (a.cst.length + 1) = i := by omega
    rw [e, drop_set_self _ _ _ (by rw [r.lv]; omega)]
    have e2 : i + 1 = nv - a.cst.length := by omega
    rw [e2, r.vcst]
  case ccomp => exact r.ccomp
  case cpath => exact r.cpath
  case hstack => exact r.hstack
  case hcstack => simp only [TarjanAbs.visit, List.length_cons]; omega
  case hpos => exact r.hpos
  case hcompp => exact r.hcompp
  case hncomp => exact r.hncomp
  case ht => simp [TarjanAbs.visit, r.ht]

theorem rep_child (wf : WF nv ia ja) {s : St} {a : A} (h : Inv nv (adj ia ja) a) (r : Rep nv s a)
    {c : Nat} {p : List Nat} (hp : a.path = c :: p) (hst : 0 < a.status c) :
    ∃ s', child ia ja c s = .ok s' ∧ Rep nv s' (TarjanAbs.child (adj ia ja) c a) := by
  have hc : c < nv := h.path_lt c (by simp [hp])
  have hcl : c ∈ a.cst := (h.st_live c).2 ⟨hc, by omega⟩
  have hdeg := h.st_deg c hcl
  obtain ⟨k, hk⟩ : ∃ k : Nat, a.status c = k + 1 := ⟨(a.status c - 1).toNat, by omega⟩
  have hkl : k < (adj ia ja c).length := by omega
  have hget : (adj ia ja c)[k]? = some ((adj ia ja c)[k]) := List.getElem?_eq_getElem hkl
  have hinv := (inv_child h (fun v hv w hw => adj_lt wf hv hw) hp hst).1
  have hw : (adj ia ja c)[k] < nv := adj_lt wf hc (List.getElem_mem _)
  unfold TarjanAbs.child at hinv ⊢
  have hgetD : (adj ia ja c).getD (a.status c - 1).toNat 0 = (adj ia ja c)[k] := by
    have : (a.status c - 1).toNat = k := by omega
    rw [this, List.getD_eq_getElem?_getD, hget]; rfl
  rw [hgetD] at hinv ⊢
  generalize (adj ia ja c)[k] = w at *
  rw [adj_get wf hc hkl] at hget
  unfold child
  rw [rd_of_getElem? (r.hstatus c hc)]
  simp only [bind_ok]
  rw [check_ok (by simpa using hst), bind_ok, rd_of_getElem? (ia_get wf (i := c) (by omega)), bind_ok]
  have e1 : ((ia.getD c 0 : Nat) : Int) + a.status c - 1 = ((ia.getD c 0 + k : Nat) : Int) := by omega
  rw [e1, rdI_natCast, rd_of_getElem? hget, bind_ok, wr_ok (by rw [r.lstatus]; exact hc), bind_ok]
  have hstat := set_update (c := c) (x := a.status c - 1) r.lstatus r.hstatus
  rw [rd_of_getElem? (hstat w hw)]
  simp only [bind_ok]
  by_cases h1 : update a.status c (a.status c - 1) w = -1
  · rw [if_pos h1] at hinv
    rw [if_pos (by simpa [REMAINING] using h1), if_pos h1]
    have hb := bound_path hinv
    simp only [List.length_cons, A.done] at hb
    have hbc := bound_comps h
    simp only [A.done] at hbc
    obtain ⟨i, hi⟩ : ∃ i : Nat, (i : Int) = s.stack := ⟨nv - a.path.length, by rw [r.hstack]; omega⟩
    have hi' : i = nv - a.path.length := by have := r.hstack; omega
    rw [← hi, wrI_natCast, wr_ok (by rw [r.lc]; omega), bind_ok]
    refine ⟨_, rfl, ?_⟩
    constructor
    case lv => exact r.lv
    case lc => simp [r.lc]
    case ltime => exact r.ltime
    case llink => exact r.llink
    case lstatus => simp [r.lstatus]
    case hstatus => exact hstat
    case htime => exact r.htime
    case hlink => exact r.hlink
    case vdone => exact r.vdone
    case vcst => exact r.vcst
    case ccomp =>
      simp only
      rw [take_set_ge _ _ _ _ (by omega)]; exact r.ccomp
    case cpath =>
      simp only [List.length_cons]
      have e : nv + 1 - (a.path.length + 1) = i := by omega
      rw [e, drop_set_self _ _ _ (by rw [r.lc]; omega)]
      have e2 : i + 1 = nv + 1 - a.path.length := by omega
      rw [e2, r.cpath]
    case hstack => simp only [List.length_cons]; omega
    case hcstack => exact r.hcstack
    case hpos => exact r.hpos
    case hcompp => exact r.hcompp
    case hncomp => exact r.hncomp
    case ht => exact r.ht
  · rw [if_neg (by simpa [REMAINING] using h1), if_neg h1]
    by_cases h2 : 0 ≤ update a.status c (a.status c - 1) w
    · rw [if_pos (by simpa using h2), if_pos h2]
      rw [rd_of_getElem? (r.hlink c hc), bind_ok, rd_of_getElem? (r.htime w hw), bind_ok,
        wr_ok (by rw [r.llink]; exact hc), bind_ok]
      refine ⟨_, rfl, ?_⟩
      constructor
      case lv => exact r.lv
      case lc => exact r.lc
      case ltime => exact r.ltime
      case llink => simp [r.llink]
      case lstatus => simp [r.lstatus]
      case hstatus => exact hstat
      case htime => exact r.htime
      case hlink => exact set_update r.llink r.hlink
      case vdone => exact r.vdone
      case vcst => exact r.vcst
      case ccomp => exact r.ccomp
      case cpath => exact r.cpath
      case hstack => exact r.hstack
      case hcstack => exact r.hcstack
      case hpos => exact r.hpos
      case hcompp => exact r.hcompp
      case hncomp => exact r.hncomp
      case ht => exact r.ht
    · rw [if_neg (by simpa using h2), if_neg h2]
      have h3 : update a.status c (a.status c - 1) w = -2 := by
        have := h.st_low w hw
        by_cases hwc : w = c
        · subst hwc; simp at h2; omega
        · simp [hwc] at h1 h2 ⊢; omega
      rw [check_ok (by simp [DONE, h3]), bind_ok]
      refine ⟨_, rfl, ?_⟩
      constructor
      case lv => exact r.lv
      case lc => exact r.lc
      case ltime => exact r.ltime
      case llink => exact r.llink
      case lstatus => simp [r.lstatus]
      case hstatus => exact hstat
      case htime => exact r.htime
      case hlink => exact r.hlink
      case vdone => exact r.vdone
      case vcst => exact r.vcst
      case ccomp => exact r.ccomp
      case cpath => exact r.cpath
      case hstack => exact r.hstack
      case hcstack => exact r.hcstack
      case hpos => exact r.hpos
      case hcompp => exact r.hcompp
      case hncomp => exact r.hncomp
      case ht => exact r.ht

/-- The popping loop moves a prefix of the component stack to the output. -/
theorem popComp_spec {c : Nat} {post : List Nat} : ∀ (pre : List Nat) (s : St) (fuel : Nat)
    (f : Nat → Int), c ∉ pre → s.vert.length = nv → s.status.length = nv →
    (∀ v < nv, s.status[v]? = some (f v)) →
    s.vert.drop (nv - (pre.length + 1 + post.length)) = pre ++ c :: post →
    s.cstack = (nv : Int) - 1 - (pre.length + 1 + post.length : Nat) →
    s.pos + (pre.length + 1 + post.length) ≤ nv → (∀ v ∈ pre ++ [c], v < nv) → pre.length < fuel →
    ∃ vert status, popComp fuel nv c s = .ok { s with
        vert := vert, status := status
        cstack := (nv : Int) - 1 - post.length, pos := s.pos + pre.length + 1 } ∧
      vert.length = nv ∧ status.length = nv ∧
      (∀ v < nv, status[v]? = some (if v ∈ pre ++ [c] then -2 else f v)) ∧
      vert.take (s.pos + pre.length + 1) = s.vert.take s.pos ++ (pre ++ [c]) ∧
      vert.drop (nv - post.length) = post := by
  intro pre
  induction pre with
  | nil =>
    intro s fuel f _ hv hs hst hdrop hcs hpos hlt hfuel
    obtain ⟨k, rfl⟩ : ∃ k, fuel = k + 1 := ⟨fuel - 1, by simp at hfuel; omega⟩
    simp only [List.length_nil, List.nil_append] at *
    have hc : c < nv := hlt c (by simp)
    obtain ⟨i, hi⟩ : ∃ i : Nat, (i : Int) = s.cstack + 1 := ⟨nv - (0 + 1 + post.length), by omega⟩
    have hi' : i = nv - (0 + 1 + post.length) := by omega
    rw [← hi'] at hdrop
    unfold popComp
    rw [whileFuel_succ]
    rw [check_ok (by simp; omega), bind_ok, ← hi, rdI_natCast, rd_of_getElem? (get_of_drop hdrop),
      bind_ok, wr_ok (by omega), bind_ok, wr_ok (by omega), bind_ok]
    simp only [bind_ok, bne_self_eq_false, Bool.false_eq_true, if_false]
    have ei : (i : Int) = (nv : Int) - 1 - post.length := by omega
    rw [ei]
    refine ⟨_, _, rfl, ?_, ?_, ?_, ?_, ?_⟩
    · simp [hv]
    · simp [hs]
    · intro v hv'
      have := set_update (c := c) (x := DONE) hs hst v hv'
      rw [this]
      by_cases hvc : v = c
      · subst hvc; simp [DONE]
      · simp [hvc]
    · exact take_set_self _ _ _ (by omega)
    · rw [drop_set_lt _ _ _ _ (by omega)]
      have e : nv - post.length = i + 1 := by omega
      rw [e, drop_succ_of hdrop]
  | cons x pre ih =>
    intro s fuel f hcx hv hs hst hdrop hcs hpos hlt hfuel
    obtain ⟨k, rfl⟩ : ∃ k, fuel = k + 1 := ⟨fuel - 1, by simp at hfuel; omega⟩
    simp only [List.length_cons, List.cons_append] at *
    have hx : x < nv := hlt x (by simp)
    have hxc : x ≠ c := fun e => hcx (by simp [e])
    obtain ⟨i, hi⟩ : ∃ i : Nat, (i : Int) = s.cstack + 1 :=
      ⟨nv - (pre.length + 1 + 1 + post.length), by omega⟩
    have hi' : i = nv - (pre.length + 1 + 1 + post.length) := by omega
    rw [← hi'] at hdrop
    obtain ⟨vert, status, he, h1, h2, h3, h4, h5⟩ := ih
      { s with cstack := (i : Int), status := s.status.set x DONE, vert := s.vert.set s.pos x, pos := s.pos + 1 }
      k (update f x (-2)) (fun e => hcx (by simp [e])) (by simp [hv]) (by simp [hs])
      (set_update hs hst)
      (by
        simp only
        rw [drop_set_lt _ _ _ _ (by omega)]
        have := drop_succ_of hdrop
        rw [← this]; congr 1; omega)
      (by simp only; omega) (by simp only; omega) (fun v hv => hlt v (by simp at hv ⊢; tauto))
      (by omega)
    refine ⟨vert, status, ?_, h1, h2, ?_, ?_, h5⟩
    · unfold popComp at he ⊢
      rw [whileFuel_succ]
      rw [check_ok (by simp; omega), bind_ok, ← hi, rdI_natCast, rd_of_getElem? (get_of_drop hdrop),
        bind_ok, wr_ok (by omega), bind_ok, wr_ok (by omega), bind_ok]
      simp only [bind_ok, bne_iff_ne, ne_eq, hxc, not_false_eq_true, if_true]
      rw [he]
      simp only [Nat.add_assoc, Nat.add_comm 1]
    · intro v hv'
      rw [h3 v hv']
      by_cases hvx : v = x
      · subst hvx; simp
      · simp [hvx]
    · have e : s.pos + (pre.length + 1) + 1 = s.pos + 1 + pre.length + 1 := by omega
      rw [e, h4]
      simp only
      rw [take_set_self _ _ _ (by omega)]
      simp

theorem rep_finish (wf : WF nv ia ja) {s : St} {a : A} (h : Inv nv (adj ia ja) a) (r : Rep nv s a)
    {c : Nat} {p : List Nat} (hp : a.path = c :: p) (hst : a.status c = 0) {fuel : Nat}
    (hfuel : nv < fuel) :
    ∃ s', finish fuel nv c s = .ok s' ∧ Rep nv s' (TarjanAbs.finish c a) := by
  have _ := wf
  have hc : c < nv := h.path_lt c (by simp [hp])
  have hcl : c ∈ a.cst := (h.st_live c).2 ⟨hc, by omega⟩
  have hbp := bound_path h
  have hbc := bound_cst h
  have hbk := bound_comps h
  have hpl : a.path.length = p.length + 1 := by simp [hp]
  have hcp := r.cpath
  rw [hp] at hcp
  have hcp2 := drop_succ_of hcp
  unfold finish closeComp
  rw [rd_of_getElem? (r.hlink c hc), bind_ok, rd_of_getElem? (r.htime c hc), bind_ok]
  by_cases hroot : a.link c = a.time c
  · obtain ⟨pre, post, hcst, hpre⟩ := List.eq_append_cons_of_mem hcl
    have hcl' : a.cst.length = pre.length + 1 + post.length := by simp [hcst]; omega
    obtain ⟨vert, status, he, h1, h2, h3, h4, h5⟩ := popComp_spec (nv := nv) (c := c) (post := post)
      pre s fuel a.status hpre r.lv r.lstatus r.hstatus
      (by rw [← hcl', r.vcst, hcst]) (by rw [r.hcstack, hcl']) (by rw [r.hpos]; omega)
      (by
        intro v hv
        refine ((h.st_live v).1 ?_).1
        rw [hcst]; simp at hv ⊢; tauto)
      (by omega)
    rw [if_pos (by simpa using hroot), he, bind_ok, wr_ok (by simp only [r.lc, r.hcompp]; omega)]
    simp only [bind_ok]
    have hfin := finish_root h hp hroot hcst hpre
    have hdone : (emitted c pre post p a).done = a.done ++ (pre ++ [c]) := by simp [emitted, A.done]
    have hcomp_drop : (s.comp.set s.compp (s.pos + pre.length + 1)).drop (nv + 1 - p.length) = p := by
      rw [drop_set_lt _ _ _ _ (by rw [r.hcompp]; omega)]
      have e : nv + 1 - p.length = nv + 1 - (c :: p).length + 1 := by simp only [List.length_cons]; omega
      rw [e, hcp2]
    have hrep : Rep nv { s with
        vert := vert, status := status, cstack := (nv : Int) - 1 - post.length
        pos := s.pos + pre.length + 1, comp := s.comp.set s.compp (s.pos + pre.length + 1)
        compp := s.compp + 1, ncomp := s.ncomp + 1, stack := s.stack + 1 } (emitted c pre post p a) := by
      constructor
      case lv => exact h1
      case lc => simp [r.lc]
      case ltime => exact r.ltime
      case llink => exact r.llink
      case lstatus => exact h2
      case hstatus => exact h3
      case htime => exact r.htime
      case hlink => exact r.hlink
      case vdone =>
        rw [hdone]
        have e : (a.done ++ (pre ++ [c])).length = s.pos + pre.length + 1 := by
          simp [r.hpos]; omega
        rw [e]
        simp only
        rw [h4, r.hpos, r.vdone]
      case vcst => exact h5
      case ccomp =>
        simp only [emitted, List.length_append, List.length_singleton]
        rw [r.hcompp, take_set_self _ _ _ (by rw [r.lc]; omega), r.ccomp, boundaries_snoc]
        congr 2
        simp [r.hpos, A.done]
        omega
      case cpath => exact hcomp_drop
      case hstack => simp only [emitted]; rw [r.hstack, hpl]; omega
      case hcstack => simp [emitted]
      case hpos => rw [hdone]; simp [r.hpos]; omega
      case hcompp => simp [emitted, r.hcompp]
      case hncomp => simp [emitted, r.hncomp]
      case ht => exact r.ht
    by_cases hlast : s.stack + 1 = (nv : Int)
    · rw [if_neg (by simp [hlast])]
      exact ⟨_, rfl, by rw [hfin]; exact hrep⟩
    · rw [if_pos (by simpa using hlast)]
      cases p with
      | nil => rw [r.hstack] at hlast; simp [hp] at hlast
      | cons q p' =>
        have hq : q ∈ a.cst := h.tail_live q (by simp [hp])
        have hqn := ((h.st_live q).1 hq).1
        have hlt : a.time q < a.time c := by
          have hps := h.path_sorted
          rw [hp] at hps
          exact (List.pairwise_cons.1 hps).1 q (by simp) hcl
        have hle := h.link_le q hq
        have hmin : min (a.link q) (a.link c) = a.link q := Nat.min_eq_left (by omega)
        obtain ⟨i, hi⟩ : ∃ i : Nat, (i : Int) = s.stack + 1 + 1 :=
          ⟨nv + 1 - (q :: p').length, by rw [r.hstack, hpl]; simp at hpl ⊢; omega⟩
        have hi' : i = nv + 1 - (q :: p').length := by
          have := r.hstack; rw [hpl] at this; simp at hpl this ⊢; omega
        rw [← hi, rdI_natCast, rd_of_getElem? (get_of_drop (by rw [hi']; exact hcomp_drop)), bind_ok,
          rd_of_getElem? (r.hlink q hqn), bind_ok, rd_of_getElem? (r.hlink c hc), bind_ok,
          wr_ok (by rw [r.llink]; exact hqn), bind_ok]
        refine ⟨_, rfl, ?_⟩
        rw [hfin, hmin]
        have hset : s.link.set q (a.link q) = s.link := by
          have := r.hlink q hqn
          obtain ⟨hl, he⟩ := List.getElem?_eq_some_iff.1 this
          rw [← he]; exact List.set_getElem_self _
        rw [hset]
        exact hrep
  · rw [if_neg (by simpa using hroot)]
    simp only [bind_ok]
    unfold TarjanAbs.finish TarjanAbs.popPath
    rw [if_neg hroot, hp]
    simp only [List.tail_cons]
    cases p with
    | nil =>
      have : s.stack + 1 = (nv : Int) := by rw [r.hstack, hpl]; simp
      rw [if_neg (by simp [this])]
      refine ⟨_, rfl, ?_⟩
      exact { r with
        cpath := by simp [r.lc]
        hstack := by simp only [List.length_nil]; omega }
    | cons q p' =>
      have hq : q ∈ a.cst := h.tail_live q (by simp [hp])
      have hqn := ((h.st_live q).1 hq).1
      have hne : ¬ (s.stack + 1 = (nv : Int)) := by rw [r.hstack, hpl]; simp at hpl ⊢; omega
      rw [if_pos (by simpa using hne)]
      have hpl2 : (q :: p').length = p'.length + 1 := rfl
      obtain ⟨i, hi⟩ : ∃ i : Nat, (i : Int) = s.stack + 1 + 1 :=
        ⟨nv + 1 - (q :: p').length, by rw [r.hstack, hpl]; simp at hpl ⊢; omega⟩
      have hi' : i = nv + 1 - (q :: p').length := by
        have := r.hstack; rw [hpl] at this; simp at hpl this ⊢; omega
      have hdrop : s.comp.drop i = q :: p' := by
        rw [← hcp2]; congr 1; simp at hi' ⊢; omega
      rw [← hi, rdI_natCast, rd_of_getElem? (get_of_drop hdrop), bind_ok,
        rd_of_getElem? (r.hlink q hqn), bind_ok, rd_of_getElem? (r.hlink c hc), bind_ok,
        wr_ok (by rw [r.llink]; exact hqn), bind_ok]
      refine ⟨_, rfl, ?_⟩
      exact { r with
        llink := by simp [r.llink]
        hlink := set_update r.llink r.hlink
        cpath := by simp only; rw [← hi']; exact hdrop
        hstack := by simp only; rw [r.hstack, hpl, hpl2]; omega }

/-- Everything true between two iterations of the inner loop. -/
structure Good (nv : Nat) (ia ja : List Nat) (s : St) (a : A) : Prop where
  inv : Inv nv (adj ia ja) a
  rep : Rep nv s a

theorem seed_popComp {fuel c : Nat} {s s' : St} (h : popComp fuel nv c s = .ok s') :
    s'.seed = s.seed := by
  unfold popComp at h
  induction fuel generalizing s with
  | zero => cases h
  | succ k ih =>
    rw [whileFuel_succ] at h
    simp only [bind_eq_ok] at h
    obtain ⟨p, ⟨_, _, v, _, st, _, ve, _, hp⟩, h⟩ := h
    cases hp
    simp only at h
    split at h
    · rw [ih h]
    · cases h; rfl

theorem seed_innerStep {fuel : Nat} {s : St} {r} (h : innerStep fuel nv ia ja s = .ok r) :
    r.1.seed = s.seed := by
  unfold innerStep at h
  split at h
  · simp only [bind_eq_ok] at h
    obtain ⟨c, _, st, _, _, _, _, _, s1, h1, s2, h2, h3⟩ := h
    cases h3
    unfold advance at h2
    simp only [bind_eq_ok] at h2
    obtain ⟨_, _, h2⟩ := h2
    have hs1 : s1.seed = s.seed := by
      unfold visit at h1
      simp only [bind_eq_ok] at h1
      obtain ⟨_, _, h1⟩ := h1
      split at h1
      · simp only [bind_eq_ok] at h1
        obtain ⟨_, _, _, _, _, _, _, _, _, _, _, _, h1⟩ := h1
        cases h1; rfl
      · cases h1; rfl
    rw [← hs1]
    split at h2
    · unfold finish at h2
      simp only [bind_eq_ok] at h2
      obtain ⟨s3, h3, h2⟩ := h2
      have hs3 : s3.seed = s1.seed := by
        unfold closeComp at h3
        simp only [bind_eq_ok] at h3
        obtain ⟨_, _, _, _, h3⟩ := h3
        split at h3
        · simp only [bind_eq_ok] at h3
          obtain ⟨s4, h4, _, _, h3⟩ := h3
          cases h3
          have := seed_popComp h4
          exact this
        · cases h3; rfl
      rw [← hs3]
      split at h2
      · simp only [bind_eq_ok] at h2
        obtain ⟨_, _, _, _, _, _, _, _, h2⟩ := h2
        cases h2; rfl
      · cases h2; rfl
    · unfold child at h2
      simp only [bind_eq_ok] at h2
      obtain ⟨_, _, _, _, _, _, _, _, _, _, _, _, h2⟩ := h2
      split at h2
      · simp only [bind_eq_ok] at h2
        obtain ⟨_, _, h2⟩ := h2
        cases h2; rfl
      · split at h2
        · simp only [bind_eq_ok] at h2
          obtain ⟨_, _, _, _, _, _, h2⟩ := h2
          cases h2; rfl
        · simp only [bind_eq_ok] at h2
          obtain ⟨_, _, h2⟩ := h2
          cases h2; rfl
  · cases h; rfl

theorem good_inner (wf : WF nv ia ja) {fuel : Nat} (hfuel : nv < fuel) {s : St} {a : A}
    (g : Good nv ia ja s a) :
    (a.path = [] → innerStep fuel nv ia ja s = .ok (s, false)) ∧
    (a.path ≠ [] → ∃ s' a', innerStep fuel nv ia ja s = .ok (s', true) ∧ Good nv ia ja s' a' ∧
      pot nv (adj ia ja) a' < pot nv (adj ia ja) a ∧
      ((∀ v, a.status v = -2 → a'.status v = -2) ∧ (∀ v, v ∈ a.path ∨ v ∈ a.cst → a'.status v = -2 ∨ v ∈ a'.cst))) := by
  obtain ⟨h, r⟩ := g
  constructor
  · intro hp
    unfold innerStep
    rw [if_neg (by rw [r.hstack, hp]; simp)]
  · intro hp
    obtain ⟨c, p, hp⟩ := List.exists_cons_of_ne_nil hp
    have hbp := bound_path h
    have hpl : a.path.length = p.length + 1 := by simp [hp]
    have hc : c < nv := h.path_lt c (by simp [hp])
    have hcnd := h.path_notdone c (by simp [hp])
    have hlow := h.st_low c hc
    unfold innerStep
    rw [if_pos (by simp [r.hstack, hpl]; omega)]
    obtain ⟨i, hi⟩ : ∃ i : Nat, (i : Int) = s.stack + 1 := ⟨nv + 1 - a.path.length, by rw [r.hstack]; omega⟩
    have hi' : i = nv + 1 - a.path.length := by have := r.hstack; omega
    have hdrop := r.cpath
    rw [← hi', hp] at hdrop
    rw [← hi, rdI_natCast, rd_of_getElem? (get_of_drop hdrop), bind_ok, rd_of_getElem? (r.hstatus c hc),
      bind_ok, check_ok (by simpa [DONE] using hcnd), bind_ok, check_ok (by simpa using hlow), bind_ok]
    -- visit
    obtain ⟨s1, a1, hv1, h1, r1, hp1, hst1, hpot1, hmono1, hcs1⟩ : ∃ s1 a1, visit ia c s = .ok s1 ∧
        Inv nv (adj ia ja) a1 ∧ Rep nv s1 a1 ∧ a1.path = c :: p ∧ 0 ≤ a1.status c ∧
        pot nv (adj ia ja) a1 = pot nv (adj ia ja) a ∧ (∀ v, a.status v = -2 → a1.status v = -2) ∧
        (∀ v, v ∈ a.path ∨ v ∈ a.cst → v ∈ a1.cst) := by
      by_cases hrem : a.status c = -1
      · obtain ⟨s1, e1, r1⟩ := rep_visit wf h r hp hrem
        refine ⟨s1, _, e1, inv_visit h hp hrem, r1, hp, by simp [TarjanAbs.visit], pot_visit hrem, ?_, ?_⟩
        · intro v hv
          have : v ≠ c := by rintro rfl; omega
          simp [TarjanAbs.visit, this, hv]
        · intro v hv
          rw [hp] at hv
          simp only [TarjanAbs.visit, List.mem_cons]
          rcases hv with hv | hv
          swap
          · exact Or.inr hv
          rcases List.mem_cons.1 hv with hv | hv
          · exact Or.inl hv
          · exact Or.inr (h.tail_live v (by simp [hp, hv]))
      · refine ⟨s, a, ?_, h, r, hp, by omega, rfl, fun v hv => hv, ?_⟩
        · unfold visit
          rw [rd_of_getElem? (r.hstatus c hc), bind_ok, if_neg (by simpa [REMAINING] using hrem)]
        · intro v hv
          rw [hp] at hv
          rcases hv with hv | hv
          swap
          · exact hv
          rcases List.mem_cons.1 hv with rfl | hv
          · exact (h.st_live v).2 ⟨hc, by omega⟩
          · exact h.tail_live v (by simp [hp, hv])
    rw [hv1, bind_ok, advance, rd_of_getElem? (r1.hstatus c hc), bind_ok]
    by_cases h0 : a1.status c = 0
    · rw [if_pos (by simpa using h0)]
      obtain ⟨s2, e2, r2⟩ := rep_finish wf h1 r1 hp1 h0 hfuel
      rw [e2, bind_ok]
      have hI := inv_finish h1 hp1 h0
      have hmono : ∀ v, (a1.status v = -2 → (TarjanAbs.finish c a1).status v = -2) ∧
          (0 ≤ a1.status v → 0 ≤ (TarjanAbs.finish c a1).status v ∨ (TarjanAbs.finish c a1).status v = -2) := by
        intro v
        have : (TarjanAbs.finish c a1).status = (if a1.link c = a1.time c then emit c a1 else a1).status := by
          unfold TarjanAbs.finish popPath; split <;> rfl
        rw [this]
        split
        · simp only [emit]
          by_cases hv : v ∈ seg c a1.cst
          · simp [hv]
          · simp only [hv, if_false]; exact ⟨id, Or.inl⟩
        · exact ⟨id, Or.inl⟩
      refine ⟨s2, _, rfl, ⟨hI, r2⟩, ?_, ?_, ?_⟩
      · rw [← hpot1]; exact pot_finish hp1
      · intro v hv; exact (hmono v).1 (hmono1 v hv)
      · intro v hv
        have hl := (h1.st_live v).1 (hcs1 v hv)
        rcases (hmono v).2 hl.2 with h2 | h2
        · exact Or.inr ((hI.st_live v).2 ⟨hl.1, h2⟩)
        · exact Or.inl h2
    · rw [if_neg (by simpa using h0)]
      have hpos : 0 < a1.status c := by omega
      obtain ⟨s2, e2, r2⟩ := rep_child wf h1 r1 hp1 hpos
      rw [e2, bind_ok]
      have hI := (inv_child h1 (fun v hv w hw => adj_lt wf hv hw) hp1 hpos).1
      have hst : (TarjanAbs.child (adj ia ja) c a1).status = update a1.status c (a1.status c - 1) := by
        unfold TarjanAbs.child; simp only; split
        · rfl
        · split <;> rfl
      refine ⟨s2, _, rfl, ⟨hI, r2⟩, ?_, ?_, ?_⟩
      · rw [← hpot1]; exact pot_child hc hpos
      · intro v hv
        have hv1 := hmono1 v hv
        have : v ≠ c := by rintro rfl; omega
        rw [hst]; simp [this, hv1]
      · intro v hv
        have hl := (h1.st_live v).1 (hcs1 v hv)
        right
        refine (hI.st_live v).2 ⟨hl.1, ?_⟩
        rw [hst]
        by_cases hvc : v = c
        · subst hvc; simp; omega
        · simp [hvc, hl.2]

/-- The inner loop runs until the control stack is empty. -/
theorem inner_loop (wf : WF nv ia ja) {fuel : Nat} (hfuel : nv < fuel) :
    ∀ (m k : Nat) (s : St) (a : A), Good nv ia ja s a → pot nv (adj ia ja) a ≤ m → m < k →
    ∃ s' a', whileFuel k (innerStep fuel nv ia ja) s = .ok s' ∧ Good nv ia ja s' a' ∧ a'.path = [] ∧
      s'.seed = s.seed ∧ (∀ v, a.status v = -2 → a'.status v = -2) ∧
      (∀ v, v ∈ a.path ∨ v ∈ a.cst → a'.status v = -2) := by
  intro m
  induction m with
  | zero =>
    intro k s a g hm hk
    obtain ⟨k, rfl⟩ : ∃ k', k = k' + 1 := ⟨k - 1, by omega⟩
    have hp : a.path = [] := by
      unfold pot at hm
      exact List.length_eq_zero_iff.1 (by omega)
    refine ⟨s, a, ?_, g, hp, rfl, fun v hv => hv, ?_⟩
    · rw [whileFuel_succ, (good_inner wf hfuel g).1 hp]; rfl
    · intro v hv; rw [hp, g.inv.idle_cst hp] at hv; simp at hv
  | succ m ih =>
    intro k s a g hm hk
    obtain ⟨k, rfl⟩ : ∃ k', k = k' + 1 := ⟨k - 1, by omega⟩
    by_cases hp : a.path = []
    · refine ⟨s, a, ?_, g, hp, rfl, fun v hv => hv, ?_⟩
      · rw [whileFuel_succ, (good_inner wf hfuel g).1 hp]; rfl
      · intro v hv; rw [hp, g.inv.idle_cst hp] at hv; simp at hv
    · obtain ⟨s1, a1, e1, g1, hpot, hm1, hm2⟩ := (good_inner wf hfuel g).2 hp
      obtain ⟨s2, a2, e2, g2, hp2, hs2, hd2, hc2⟩ := ih k s1 a1 g1 (by omega) (by omega)
      refine ⟨s2, a2, ?_, g2, hp2, ?_, fun v hv => hd2 v (hm1 v hv), ?_⟩
      · rw [whileFuel_succ, e1]; simpa using e2
      · rw [hs2]; exact seed_innerStep e1
      · intro v hv
        rcases hm2 v hv with h1 | h1
        · exact hd2 v h1
        · exact hc2 v (Or.inr h1)

theorem sum_deg (wf : WF nv ia ja) : ((List.range nv).map (fun v => (adj ia ja v).length)).sum ≤ ja.length := by
  have h : ∀ n, n ≤ nv → ((List.range n).map (fun v => (adj ia ja v).length)).sum + ia.getD 0 0 = ia.getD n 0 := by
    intro n
    induction n with
    | zero => simp
    | succ n ih =>
      intro hn
      have := ih (by omega)
      have hm := ia_mono wf (i := n) (j := n + 1) (by omega) hn
      rw [List.range_succ, List.map_append, List.sum_append]
      simp only [List.map_cons, List.map_nil, List.sum_cons, List.sum_nil]
      rw [adj_length wf (by omega)]
      omega
  have := h nv (Nat.le_refl _)
  have := ia_bound wf (i := nv) (Nat.le_refl _)
  omega

theorem pot_le (wf : WF nv ia ja) {a : A} (h : Inv nv (adj ia ja) a) :
    pot nv (adj ia ja) a ≤ 2 * ja.length + a.path.length := by
  have : ((List.range nv).map (rem (adj ia ja) a.status)).sum
      ≤ ((List.range nv).map (fun v => (adj ia ja v).length)).sum := by
    refine sum_map_le _ ?_
    intro v hv
    have hv := List.mem_range.1 hv
    unfold rem
    split
    · exact Nat.le_refl _
    · rcases Int.lt_or_le (a.status v) 0 with h0 | h0
      · have : (a.status v).toNat = 0 := by omega
        rw [this]; exact Nat.zero_le _
      · have := h.st_deg v ((h.st_live v).2 ⟨hv, h0⟩)
        omega
  have := sum_deg wf
  unfold pot
  omega

theorem rep_start {s : St} {a : A} (h : Inv nv (adj ia ja) a) (r : Rep nv s a) (hp : a.path = [])
    {seed : Nat} (hs : seed < nv) (hst : a.status seed ≠ -2) :
    wrI s.comp s.stack seed = .ok (s.comp.set nv seed) ∧
    Rep nv { s with comp := s.comp.set nv seed, stack := s.stack - 1, t := 0 } (start seed a) := by
  have hb := bound_path (inv_start h hp hs hst)
  have hbk := bound_comps h
  have hstk : s.stack = (nv : Int) := by rw [r.hstack, hp]; simp
  simp only [start, A.done, List.length_singleton] at hb hbk
  constructor
  · rw [hstk, wrI_natCast, wr_ok (by rw [r.lc]; omega)]
  · constructor
    case lv => exact r.lv
    case lc => simp [r.lc]
    case ltime => exact r.ltime
    case llink => exact r.llink
    case lstatus => exact r.lstatus
    case hstatus => exact r.hstatus
    case htime => exact r.htime
    case hlink => exact r.hlink
    case vdone => exact r.vdone
    case vcst => exact r.vcst
    case ccomp =>
      simp only [start]
      rw [take_set_ge _ _ _ _ (by omega)]; exact r.ccomp
    case cpath =>
      simp only [start, List.length_singleton]
      have e : nv + 1 - 1 = nv := by omega
      rw [e, drop_set_self _ _ _ (by rw [r.lc]; omega)]
      have : s.comp.drop (nv + 1) = [] := List.drop_eq_nil_of_le (by rw [r.lc]; omega)
      rw [this]
    case hstack => simp [start, hstk]
    case hcstack => exact r.hcstack
    case hpos => exact r.hpos
    case hcompp => exact r.hcompp
    case hncomp => exact r.hncomp
    case ht => rfl

theorem outer_loop (wf : WF nv ia ja) {fuel : Nat} (hfuel : 2 * nv + 2 * ja.length + 2 ≤ fuel)
    {s : St} {a : A} (g : Good nv ia ja s a) (hp : a.path = []) (hseed : s.seed = 0) :
    ∃ s', whileFuel fuel (outerStep fuel nv ia ja) s = .ok s' ∧
      ∃ a', Good nv ia ja s' a' ∧ a'.path = [] ∧ ∀ v < nv, a'.status v = -2 := by
  refine whileFuel_inv
    (fun s => ∃ a, Good nv ia ja s a ∧ a.path = [] ∧ s.seed ≤ nv ∧ ∀ v < s.seed, a.status v = -2)
    _ (fun s => 2 * (nv - s.seed) + (if s.status[s.seed]? = some DONE then 0 else 1)) ?_
    ⟨a, g, hp, by omega, by rw [hseed]; intro v hv; omega⟩ ?_
  · rintro s ⟨a, g, hp, hle, hdone⟩
    unfold outerStep
    by_cases hlt : s.seed < nv
    · rw [if_pos hlt, rd_of_getElem? (g.rep.hstatus _ hlt), bind_ok]
      by_cases hd : a.status s.seed = -2
      · rw [if_pos (by simpa [DONE] using hd)]
        refine ⟨_, true, rfl, fun _ => ⟨⟨a, ⟨g.inv, ?_⟩, hp, hlt, ?_⟩, ?_⟩, by simp⟩
        · exact { g.rep with }
        · intro v hv
          simp only at hv
          rcases Nat.lt_or_ge v s.seed with h | h
          · exact hdone v h
          · obtain rfl : v = s.seed := by omega
            exact hd
        · simp only
          rw [g.rep.hstatus _ hlt, hd]
          have hle1 : (if s.status[s.seed + 1]? = some DONE then 0 else 1) ≤ 1 := by
            by_cases hq : s.status[s.seed + 1]? = some DONE
            · rw [if_pos hq]; omega
            · rw [if_neg hq]; exact Nat.le_refl _
          have : (if some (-2 : Int) = some DONE then 0 else 1) = 0 := by decide
          rw [this]
          omega
      · rw [if_neg (by simpa [DONE] using hd)]
        obtain ⟨hw, hr⟩ := rep_start g.inv g.rep hp hlt hd
        rw [hw, bind_ok]
        simp only
        have hI := inv_start g.inv hp hlt hd
        obtain ⟨s1, a1, e1, g1, hp1, hs1, hm1, hc1⟩ := inner_loop wf (fuel := fuel) (by omega)
          (2 * ja.length + 1) fuel _ _ ⟨hI, hr⟩
          (by have := pot_le wf hI; simpa [start] using this) (by omega)
        rw [e1, bind_ok, check_ok (by
          rw [g1.rep.hcstack, g1.inv.idle_cst hp1]; simp), bind_ok]
        have hsd : a1.status s.seed = -2 := hc1 s.seed (Or.inl (by simp [start]))
        refine ⟨s1, true, rfl, fun _ => ⟨⟨a1, g1, hp1, ?_, ?_⟩, ?_⟩, by simp⟩
        · rw [hs1]; exact hle
        · rw [hs1]; intro v hv; exact hm1 v (hdone v hv)
        · simp only [hs1]
          rw [g1.rep.hstatus _ hlt, hsd, g.rep.hstatus _ hlt]
          simp [DONE, hd]
    · rw [if_neg hlt]
      refine ⟨s, false, rfl, by simp, fun _ => ⟨a, g, hp, ?_⟩⟩
      intro v hv; exact hdone v (by omega)
  · simp only [hseed]; split <;> omega

/-! ### Initialisation -/

theorem clearVector_ok {n : Nat} {v : List Nat} (h : n ≤ v.length) :
    clearVector n v = .ok (List.replicate n 0 ++ v.drop n) := by
  obtain ⟨t, ht, hl, hz, hd⟩ := loop_inv (n := n) (f := fun i v => wr v i 0) (s := v)
    (fun i t => t.length = v.length ∧ t.take i = List.replicate i 0 ∧ t.drop n = v.drop n)
    ⟨rfl, by simp, rfl⟩ (by
      rintro i t hi ⟨hl, ht, hd⟩
      refine ⟨_, wr_ok (by omega), by simp [hl], ?_, ?_⟩
      · rw [take_set_self _ _ _ (by omega), ht, List.replicate_succ']
      · rw [drop_set_lt _ _ _ _ hi, hd])
  unfold clearVector
  rw [ht, ← hz, ← hd, List.take_append_drop]

theorem status_ok {n : Nat} {v : List Int} (h : v.length = n) :
    loop n (fun i v => wr v i REMAINING) v = .ok (List.replicate n REMAINING) := by
  obtain ⟨t, ht, hl, hz⟩ := loop_inv (n := n) (f := fun i v => wr v i REMAINING) (s := v)
    (fun i t => t.length = n ∧ t.take i = List.replicate i REMAINING) ⟨h, by simp⟩ (by
      rintro i t hi ⟨hl, ht⟩
      refine ⟨_, wr_ok (by omega), by simp [hl], ?_⟩
      rw [take_set_self _ _ _ (by omega), ht, List.replicate_succ'])
  rw [ht]
  rw [List.take_of_length_le (by omega)] at hz
  rw [hz]

theorem init_good (ia ja : List Nat) {vert comp work : List Nat} (hv : vert.length = nv)
    (hc : comp.length = nv + 1) (hw : 3 * nv ≤ work.length) :
    ∃ s, init nv vert comp work = .ok s ∧ Good nv ia ja s TarjanAbs.init ∧ s.seed = 0 := by
  unfold init
  have hv' : vert.drop nv = [] := List.drop_eq_nil_of_le (by omega)
  have hc' : comp.drop (nv + 1) = [] := List.drop_eq_nil_of_le (by omega)
  have h3 : List.replicate (3 * nv) 0 ++ work.drop (3 * nv) =
      List.replicate nv 0 ++ (List.replicate nv 0 ++ (List.replicate nv 0 ++ work.drop (3 * nv))) := by
    rw [← List.append_assoc, ← List.append_assoc, ← List.replicate_add, ← List.replicate_add]
    congr 2; omega
  have e1 : (List.replicate (3 * nv) 0 ++ work.drop (3 * nv)).take nv = List.replicate nv 0 := by
    rw [h3, List.take_left' (by simp)]
  have e2 : ((List.replicate (3 * nv) 0 ++ work.drop (3 * nv)).drop nv).take nv = List.replicate nv 0 := by
    rw [h3, List.drop_left' (by simp), List.take_left' (by simp)]
  have e3 : (((List.replicate (3 * nv) 0 ++ work.drop (3 * nv)).drop (2 * nv)).take nv).length = nv := by
    simp; omega
  rw [clearVector_ok hw, bind_ok, clearVector_ok (by omega), bind_ok, clearVector_ok (by omega), bind_ok,
    status_ok (by rw [List.length_map]; exact e3), bind_ok, wr_ok (by simp; omega), bind_ok, e1, e2, hv', hc']
  refine ⟨_, rfl, ⟨inv_init, ?_⟩, rfl⟩
  constructor <;> simp [TarjanAbs.init, A.done, REMAINING, boundaries] <;> try omega
  all_goals
    (intro v hv; rw [List.getElem?_replicate]; simp; omega)

/-- What `tarjan` computes, in one statement. -/
theorem tarjan_main (wf : WF nv ia ja) {vert comp work : List Nat} (hv : vert.length = nv)
    (hc : comp.length = nv + 1) (hw : 3 * nv ≤ work.length) {fuel : Nat}
    (hfuel : 2 * nv + 2 * ja.length + 2 ≤ fuel) :
    ∃ (cs : List (List Nat)) (tail : List Nat), tarjan fuel nv ia ja vert comp work =
        .ok { vert := cs.flatten, comp := boundaries 0 cs ++ tail, ncomp := cs.length } ∧
      cs.flatten.Perm (List.range nv) ∧ (∀ C ∈ cs, C ≠ []) ∧
      (∀ C ∈ cs, ∀ u ∈ C, ∀ v, v ∈ C ↔ Reach ia ja u v ∧ Reach ia ja v u) ∧
      (∀ (i : Nat) C, cs[i]? = some C → ∀ v ∈ C, ∀ w, Edge ia ja v w →
        ∃ (j : Nat) (D : List Nat), j ≤ i ∧ cs[j]? = some D ∧ w ∈ D) := by
  obtain ⟨s0, e0, g0, hs0⟩ := init_good ia ja hv hc hw
  obtain ⟨s, e1, a, g, hp, hall⟩ := outer_loop wf hfuel g0 (by rfl) hs0
  have hinv := g.inv
  have r := g.rep
  have hperm : a.done.Perm (List.range nv) := by
    rw [List.perm_ext_iff_of_nodup hinv.done_nodup List.nodup_range]
    intro v
    rw [hinv.st_done v, List.mem_range]
    exact ⟨fun h => h.1, fun h => ⟨h, hall v h⟩⟩
  have hlen : a.done.length = nv := by simpa using hperm.length_eq
  have hvert : s.vert = a.comps.flatten := by
    have := r.vdone
    rw [hlen, List.take_of_length_le (by rw [r.lv]; omega)] at this
    exact this
  -- edges
  have hER : ∀ u v, Edge ia ja u v ↔ (u < nv ∧ E (adj ia ja) u v) := by
    intro u v
    constructor
    · intro h; exact ⟨edge_lt wf h, (edge_iff wf (edge_lt wf h)).1 h⟩
    · rintro ⟨h1, h2⟩; exact (edge_iff wf h1).2 h2
  have hR : ∀ u v, u < nv → (Reach ia ja u v ↔ R (adj ia ja) u v) := by
    intro u v hu
    constructor
    · intro h
      exact Relation.ReflTransGen.mono (fun x y hxy => ((hER x y).1 hxy).2) _ _ h
    · intro h
      have : Reach ia ja u v ∧ v < nv := by
        induction h with
        | refl => exact ⟨Relation.ReflTransGen.refl, hu⟩
        | tail _ he ih => exact ⟨ih.1.tail ((hER _ _).2 ⟨ih.2, he⟩), adj_lt wf ih.2 he⟩
      exact this.1
  have hRlt : ∀ u v, u < nv → R (adj ia ja) u v → v < nv := by
    intro u v hu h
    induction h with
    | refl => exact hu
    | tail _ he ih => exact adj_lt wf ih he
  have hmem : ∀ C ∈ a.comps, ∀ u ∈ C, u < nv := by
    intro C hC u hu
    have : u ∈ a.done := List.mem_flatten.2 ⟨C, hC, hu⟩
    exact ((hinv.st_done u).1 this).1
  refine ⟨a.comps, s.comp.drop (a.comps.length + 1), ?_, hperm, hinv.ne, ?_, ?_⟩
  · unfold tarjan
    rw [e0, bind_ok, e1, bind_ok, hvert, ← r.ccomp, List.take_append_drop, r.hncomp]
  · intro C hC u hu v
    rw [hinv.scc C hC u hu v]
    have hun := hmem C hC u hu
    constructor
    · rintro ⟨h1, h2⟩
      exact ⟨(hR u v hun).2 h1, (hR v u (hRlt u v hun h1)).2 h2⟩
    · rintro ⟨h1, h2⟩
      have h1' := (hR u v hun).1 h1
      exact ⟨h1', (hR v u (hRlt u v hun h1')).1 h2⟩
  · intro i C hC v hv w hw
    exact hinv.topo i C hC v hv w ((hER v w).1 hw).2


end Opm.Tarjan
