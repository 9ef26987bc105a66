import Verif.Spec.Wells
import Verif.Proofs.Rows
import Mathlib.Tactic.Ring
/-! # Refinement proofs for the wells container -/

namespace Opm.Wells
open Opm

/-! ### Controls -/

structure CRep (np : Nat) (c : Controls) (w : Well) : Prop where
  num : c.num = w.controls.length
  cur : c.current = w.current
  lty : c.type.length = c.cpty
  lta : c.target.length = c.cpty
  hs : w.controls.length ≤ w.slots.length
  hc : w.slots.length ≤ c.cpty
  rows : ∀ r ∈ w.slots, r.length = np
  distr : c.distr = w.slots.flatten ++ List.replicate ((c.cpty - w.slots.length) * np) 0
  types : c.type.take w.controls.length = w.controls.map Prod.fst
  targets : c.target.take w.controls.length = w.controls.map Prod.snd

theorem crep_create (np : Nat) (w : Well) (h1 : w.controls = []) (h2 : w.slots = []) (h3 : w.current = -1) : CRep np controlsCreate w := by
  refine ⟨by rw [h1]; rfl, by rw [h3]; rfl, rfl, rfl, by rw [h1]; simp, by rw [h2]; simp, by rw [h2]; simp, ?_, by rw [h1]; simp, by rw [h1]; simp⟩
  rw [h2]; simp [controlsCreate]

theorem CRep.ldistr {np : Nat} {c : Controls} {w : Well} (h : CRep np c w) : c.distr.length = c.cpty * np := by
  rw [h.distr, List.length_append, length_flatten_rows h.rows, List.length_replicate, ← Nat.add_mul]
  congr 1
  have := h.hc
  omega

theorem controlsReserve_ok (J : Junk) (n np : Nat) (c : Controls) (h1 : c.type.length = c.cpty) (h2 : c.target.length = c.cpty)
    (h3 : c.distr.length = c.cpty * np) (hn : c.cpty ≤ n) :
    controlsReserve J n np c = .ok { c with
      type := c.type ++ List.replicate (n - c.cpty) .bhp
      target := c.target ++ List.replicate (n - c.cpty) (-1)
      distr := c.distr ++ List.replicate (n * np - c.cpty * np) 0
      cpty := n } := by
  unfold controlsReserve
  simp only [Nat.mul_one]
  have hl : ∀ c0 : Controls, c0.type.length = n → c0.target.length = n →
      forRange c.cpty n (fun i c => do
        let ty ← wr c.type i .bhp
        let ta ← wr c.target i (-1)
        .ok { c with type := ty, target := ta }) c0 =
      .ok { c0 with type := bfill c.cpty (n - c.cpty) .bhp c0.type, target := bfill c.cpty (n - c.cpty) (-1) c0.target } := by
    intro c0 l1 l2
    unfold forRange
    obtain ⟨t, ht, rfl⟩ := loop_inv (n := n - c.cpty) (s := c0) (f := fun k (s : Controls) => (do
        let ty ← wr s.type (c.cpty + k) .bhp
        let ta ← wr s.target (c.cpty + k) (-1)
        .ok { s with type := ty, target := ta } : M Controls))
      (fun k t => t = { c0 with type := bfill c.cpty k .bhp c0.type, target := bfill c.cpty k (-1) c0.target })
      (by rw [bfill_zero, bfill_zero])
      (by
        rintro k t hk rfl
        refine ⟨_, by
          simp only
          rw [wr_ok (by rw [length_bfill (by omega)]; omega), bind_ok, wr_ok (by rw [length_bfill (by omega)]; omega), bind_ok], ?_⟩
        rw [bfill_succ (by omega), bfill_succ (by omega)])
    exact ht
  rw [hl _ (by simp) (by simp), bind_ok]
  simp only
  rw [forRange_bfill _ _ _ _ (by simp), bind_ok]
  have e1 := bfill_realloc (junk := J.ct) (l := c.type) (n := n) (v := .bhp) (by omega)
  have e2 := bfill_realloc (junk := J.dbl) (l := c.target) (n := n) (v := -1) (by omega)
  have hmul : c.cpty * np ≤ n * np := Nat.mul_le_mul_right _ hn
  have e3 := bfill_realloc (junk := J.dbl) (l := c.distr) (n := n * np) (v := 0) (by omega)
  rw [h1] at e1
  rw [h2] at e2
  rw [h3] at e3
  rw [e1, e2, e3]

theorem CRep.reserve {np : Nat} {c : Controls} {w : Well} (h : CRep np c w) (J : Junk) (n : Nat) (hn : c.cpty ≤ n) :
    ∃ c', controlsReserve J n np c = .ok c' ∧ CRep np c' w ∧ c'.cpty = n := by
  refine ⟨_, controlsReserve_ok J n np c h.lty h.lta h.ldistr hn, ?_, rfl⟩
  have h1 := h.hs
  have h2 := h.hc
  have h3 := h.lty
  have h4 := h.lta
  refine ⟨h.num, h.cur, by simp; omega, by simp; omega, h.hs, by simp only; omega, h.rows, ?_, ?_, ?_⟩
  · simp only
    rw [h.distr, List.append_assoc, List.replicate_append_replicate, ← Nat.sub_mul, ← Nat.add_mul]
    congr 3
    omega
  · simp only
    rw [List.take_append_of_le_length (by omega)]; exact h.types
  · simp only
    rw [List.take_append_of_le_length (by omega)]; exact h.targets

theorem allocSize_ge (n a c : Nat) : n + a ≤ allocSize n a c ∧ c ≤ allocSize n a c := by
  unfold allocSize
  split
  · split <;> omega
  · omega

theorem CRep.room {np : Nat} {c : Controls} {w : Well} (h : CRep np c w) (J : Junk) :
    ∃ c', controlRoom J np c = .ok c' ∧ CRep np c' w ∧ c'.num < c'.cpty := by
  unfold controlRoom
  split
  · exact ⟨c, rfl, h, by assumption⟩
  · obtain ⟨h1, h2⟩ := allocSize_ge c.num 1 c.cpty
    obtain ⟨c', e, r, hc⟩ := h.reserve J _ h2
    exact ⟨c', e, r, by rw [hc, r.num, ← h.num]; omega⟩

theorem CRep.append {np : Nat} {c : Controls} {w : Well} (h : CRep np c w) (J : Junk) (t : CtrlType) (g : Rat) (d : Option (List Rat))
    (hd : ∀ l, d = some l → np ≤ l.length) :
    ∃ c', appendControl J np t g d c = .ok c' ∧ CRep np c' (w.addControl np t g (d.map (List.take np))) := by
  unfold appendControl
  obtain ⟨c1, e1, r1, hlt⟩ := h.room J
  rw [e1, bind_ok]
  have hs := r1.hs
  have hc := r1.hc
  have hn := r1.num
  have h3 := r1.lty
  have h4 := r1.lta
  have hfl := length_flatten_rows r1.rows
  -- the new distribution table
  have hdist : ∃ D, memcpyOpt c1.distr (c1.num * np) d np = .ok D ∧
      D = (w.addControl np t g (d.map (List.take np))).slots.flatten ++
        List.replicate ((c1.cpty - (w.addControl np t g (d.map (List.take np))).slots.length) * np) 0 := by
    unfold Well.addControl
    simp only
    by_cases hk : w.controls.length < w.slots.length
    · rw [if_pos hk, List.length_set]
      obtain ⟨r, hr⟩ : ∃ r, w.slots[w.controls.length]? = some r := ⟨_, List.getElem?_eq_getElem hk⟩
      have hrl := r1.rows r (List.mem_of_getElem? hr)
      have hpre : ((w.slots.take w.controls.length).flatten).length = w.controls.length * np := by
        rw [length_flatten_rows (fun r hr => r1.rows r (List.mem_of_mem_take hr)), List.length_take, Nat.min_eq_left (by omega)]
      have hset : ∀ v, (w.slots.set w.controls.length v).flatten =
          (w.slots.take w.controls.length).flatten ++ (v ++ (w.slots.drop (w.controls.length + 1)).flatten) := by
        intro v
        rw [List.set_eq_take_append_cons_drop, if_pos hk, List.flatten_append, List.flatten_cons]
      cases d with
      | none =>
        refine ⟨_, rfl, ?_⟩
        rw [hset, hr]
        simp only [Option.map_none, Option.getD_none, Option.getD_some]
        rw [← flatten_split hr]
        exact r1.distr
      | some l =>
        have hl := hd l rfl
        refine ⟨_, ?_, rfl⟩
        show memcpy c1.distr (c1.num * np) l np = _
        rw [r1.distr, flatten_split hr, List.append_assoc, List.append_assoc, hn, memcpy_mid hpre hrl hl, hset]
        simp
    · rw [if_neg hk]
      have hk' : w.controls.length = w.slots.length := by omega
      have hz : List.replicate ((c1.cpty - w.slots.length) * np) (0 : Rat) =
          List.replicate np 0 ++ List.replicate ((c1.cpty - (w.slots.length + 1)) * np) 0 := by
        rw [List.replicate_append_replicate]
        congr 1
        obtain ⟨m, hm⟩ : ∃ m, c1.cpty = w.slots.length + 1 + m := ⟨c1.cpty - (w.slots.length + 1), by omega⟩
        rw [hm, show w.slots.length + 1 + m - w.slots.length = m + 1 by omega, show w.slots.length + 1 + m - (w.slots.length + 1) = m by omega]
        ring
      rw [List.length_append, List.length_singleton, List.flatten_append]
      cases d with
      | none =>
        refine ⟨_, rfl, ?_⟩
        rw [r1.distr, hz]
        simp
      | some l =>
        have hl := hd l rfl
        refine ⟨_, ?_, rfl⟩
        show memcpy c1.distr (c1.num * np) l np = _
        rw [r1.distr, hz, memcpy_mid (by rw [hfl, hn, hk']) (by simp) hl]
        simp
  obtain ⟨D, eD, hD⟩ := hdist
  rw [wr_ok (by omega), bind_ok, wr_ok (by omega), bind_ok, eD, bind_ok]
  refine ⟨_, rfl, ⟨?_, r1.cur, by simpa using h3, by simpa using h4, ?_, ?_, ?_, hD, ?_, ?_⟩⟩
  · unfold Well.addControl; simp [hn]
  · unfold Well.addControl
    simp only
    split <;> simp <;> omega
  · unfold Well.addControl
    simp only
    split
    · simp; omega
    · simp; omega
  · intro r hr
    have hdl : ∀ x, (d.map (List.take np)) = some x → x.length = np := by
      intro x hx
      cases d with
      | none => cases hx
      | some l =>
        cases hx
        have := hd l rfl
        simp; omega
    unfold Well.addControl at hr
    simp only at hr
    split at hr
    · rename_i hk
      rcases List.mem_or_eq_of_mem_set hr with h5 | h5
      · exact r1.rows r h5
      · subst h5
        cases hm : d.map (List.take np) with
        | none =>
          rw [List.getElem?_eq_getElem hk]
          exact r1.rows _ (List.getElem_mem hk)
        | some x => exact hdl x hm
    · rcases List.mem_append.1 hr with h5 | h5
      · exact r1.rows r h5
      · rw [List.mem_singleton] at h5
        subst h5
        cases hm : d.map (List.take np) with
        | none => simp
        | some x => exact hdl x hm
  · unfold Well.addControl
    simp only
    rw [List.length_append, List.length_singleton, hn, take_set_succ (by omega), r1.types]
    simp
  · unfold Well.addControl
    simp only
    rw [List.length_append, List.length_singleton, hn, take_set_succ (by omega), r1.targets]
    simp

theorem getControl_ok {np : Nat} {c : Controls} {w : Well} (h : CRep np c w) (k : Nat) (x : CtrlType × Rat × List Rat)
    (hx : w.obs.controls[k]? = some x) : getControl np c k = .ok x := by
  unfold Well.obs at hx
  simp only at hx
  rw [List.getElem?_map, Option.map_eq_some_iff] at hx
  obtain ⟨⟨a, b⟩, hab, rfl⟩ := hx
  have ha : w.controls[k]? = some a := by
    have := List.getElem?_zip_eq_some.1 hab
    exact this.1
  have hb : w.slots[k]? = some b := (List.getElem?_zip_eq_some.1 hab).2
  have hk := (List.getElem?_eq_some_iff.1 ha).1
  have hfl := length_flatten_rows h.rows
  unfold getControl
  rw [rd_elem (es := w.controls.map Prod.fst) (by rw [List.length_map]; exact h.types) (by rw [List.getElem?_map, ha]; rfl), bind_ok,
    rd_elem (es := w.controls.map Prod.snd) (by rw [List.length_map]; exact h.targets) (by rw [List.getElem?_map, ha]; rfl), bind_ok,
    slice_row h.rows (by rw [h.distr, ← hfl]; exact List.take_left) hb, bind_ok]

/-! ### Wells -/

/-- Number of perforations of the first `k` wells. -/
def start (ws : List Well) (k : Nat) : Nat := ((ws.take k).flatMap Well.cells).length

structure WRep (np : Nat) (s : W) (ws : List Well) : Prop where
  hnp : s.np = np
  nw : s.nw = ws.length
  cap : ws.length ≤ s.wellCpty
  pcap : start ws ws.length ≤ s.perfCpty
  ltype : s.type.length = s.wellCpty
  ldepth : s.depthRef.length = s.wellCpty
  lpos : s.connpos.length = s.wellCpty + 1
  lcells : s.cells.length = s.perfCpty
  rcomp : ∀ w ∈ ws, w.comp.length = np
  rwi : ∀ w ∈ ws, w.wi.length = w.cells.length
  type : s.type.take ws.length = ws.map Well.type
  depth : s.depthRef.take ws.length = ws.map Well.depth
  comp : s.compFrac = (ws.map Well.comp).flatten ++ List.replicate (np * (s.wellCpty - ws.length)) 0
  name : s.name = ws.map Well.name ++ List.replicate (s.wellCpty - ws.length) none
  pos : s.connpos.take (ws.length + 1) = (List.range (ws.length + 1)).map (start ws)
  cells : s.cells.take (start ws ws.length) = ws.flatMap Well.cells
  wi : s.wi = ws.flatMap Well.wi ++ List.replicate (s.perfCpty - start ws ws.length) 0
  ctrls : ∃ C, s.ctrls = C ++ List.replicate (s.wellCpty - ws.length) controlsCreate ∧ C.length = ws.length ∧
    ∀ (i : Nat) c w, C[i]? = some c → ws[i]? = some w → CRep np c w

theorem start_self (ws : List Well) : start ws ws.length = (ws.flatMap Well.cells).length := by
  unfold start; rw [List.take_length]

theorem start_append (ws : List Well) (w : Well) (k : Nat) (hk : k ≤ ws.length) : start (ws ++ [w]) k = start ws k := by
  unfold start
  rw [List.take_append_of_le_length hk]

theorem start_append_self (ws : List Well) (w : Well) : start (ws ++ [w]) (ws.length + 1) = start ws ws.length + w.cells.length := by
  unfold start
  rw [List.take_of_length_le (by simp), List.take_length, List.flatMap_append, List.length_append]
  simp

theorem WRep.posAt {np : Nat} {s : W} {ws : List Well} (h : WRep np s ws) (k : Nat) (hk : k ≤ ws.length) : s.connpos[k]? = some (start ws k) := by
  have : (s.connpos.take (ws.length + 1))[k]? = some (start ws k) := by
    rw [h.pos, List.getElem?_map, List.getElem?_range (by omega)]; rfl
  rw [List.getElem?_take, if_pos (by omega)] at this
  exact this

theorem length_flatMap_wi {ws : List Well} (h : ∀ w ∈ ws, w.wi.length = w.cells.length) :
    (ws.flatMap Well.wi).length = (ws.flatMap Well.cells).length := by
  induction ws with
  | nil => rfl
  | cons w ws ih =>
    rw [List.flatMap_cons, List.flatMap_cons, List.length_append, List.length_append, h w List.mem_cons_self,
      ih (fun w hw => h w (List.mem_cons_of_mem _ hw))]

theorem loop_fill_comp (np w : Nat) (c : List Rat) (h : np * w + np ≤ c.length) :
    loop np (fun p c => wr c (np * w + p) 0) c = .ok (bfill (np * w) np 0 c) := by
  obtain ⟨t, ht, rfl⟩ := loop_inv (n := np) (s := c) (f := fun p c => wr c (np * w + p) 0) (fun k t => t = bfill (np * w) k 0 c) (bfill_zero _ _ _).symm
    (by
      rintro k t hk rfl
      exact ⟨_, wr_ok (by rw [length_bfill (by omega)]; omega), bfill_succ (by omega)⟩)
  exact ht

theorem bfill_bfill {α : Type _} (a k m : Nat) (v : α) (l : List α) (h : a + k + m ≤ l.length) : bfill (a + k) m v (bfill a k v l) = bfill a (k + m) v l := by
  induction m with
  | zero => rw [bfill_zero, Nat.add_zero]
  | succ m ih =>
    rw [← bfill_succ (by rw [length_bfill (by omega)]; omega), ih (by omega), Nat.add_assoc, bfill_succ (by omega), Nat.add_assoc]

theorem WRep.reserveWells {np : Nat} {s : W} {ws : List Well} (h : WRep np s ws) (J : Junk) (n : Nat) (hn : s.wellCpty ≤ n) :
    ∃ s', reserveWells J n s = .ok s' ∧ WRep np s' ws ∧ s'.wellCpty = n ∧ s'.perfCpty = s.perfCpty := by
  unfold Wells.reserveWells
  by_cases hgt : n > s.wellCpty
  · rw [if_pos hgt]
    obtain ⟨C, hC, hCl, hCr⟩ := h.ctrls
    have hcap := h.cap
    have hlt := h.ltype
    have hld := h.ldepth
    have hlp := h.lpos
    have hln : s.name.length = s.wellCpty := by rw [h.name]; simp; omega
    have hlc : s.compFrac.length = np * s.wellCpty := by
      rw [h.comp, List.length_append, length_flatten_rows (n := np) (by
        intro r hr; obtain ⟨w, hw, rfl⟩ := List.mem_map.1 hr; exact h.rcomp w hw), List.length_map, List.length_replicate, Nat.mul_comm ws.length, ← Nat.mul_add]
      congr 1; omega
    have hlk : s.ctrls.length = s.wellCpty := by rw [hC]; simp; omega
    have hmul : np * s.wellCpty ≤ np * n := Nat.mul_le_mul_left _ (by omega)
    unfold initialiseNewWells
    -- the first loop
    have hl : ∃ t, forRange (wellsAllocate J n s).wellCpty n initWell (wellsAllocate J n s) = .ok t ∧
        ∃ P : List Nat, P.length = n + 1 ∧ P.take (s.wellCpty + 1) = s.connpos.take (s.wellCpty + 1) ∧
        t = { wellsAllocate J n s with
          type := bfill s.wellCpty (n - s.wellCpty) .producer (realloc J.wt s.type n)
          depthRef := bfill s.wellCpty (n - s.wellCpty) (-1) (realloc J.dbl s.depthRef n)
          name := bfill s.wellCpty (n - s.wellCpty) none (realloc J.str s.name n)
          compFrac := bfill (np * s.wellCpty) (np * (n - s.wellCpty)) 0 (realloc J.dbl s.compFrac (np * n))
          connpos := P } := by
      unfold forRange
      refine loop_inv (n := n - s.wellCpty) (s := wellsAllocate J n s)
        (fun k t => ∃ P : List Nat, P.length = n + 1 ∧ P.take (s.wellCpty + 1) = s.connpos.take (s.wellCpty + 1) ∧
          t = { wellsAllocate J n s with
            type := bfill s.wellCpty k .producer (realloc J.wt s.type n)
            depthRef := bfill s.wellCpty k (-1) (realloc J.dbl s.depthRef n)
            name := bfill s.wellCpty k none (realloc J.str s.name n)
            compFrac := bfill (np * s.wellCpty) (np * k) 0 (realloc J.dbl s.compFrac (np * n))
            connpos := P }) ?_ ?_
      · refine ⟨(wellsAllocate J n s).connpos, by simp [wellsAllocate], ?_, ?_⟩
        · show (realloc J.nat s.connpos (n + 1)).take _ = _
          exact take_realloc (by omega) (by omega)
        · rw [bfill_zero, bfill_zero, bfill_zero, Nat.mul_zero, bfill_zero]
          unfold wellsAllocate
          rw [Nat.one_mul, h.hnp]
      · rintro k t hk ⟨P, hPl, hPt, rfl⟩
        have hmk : np * s.wellCpty + (np * k + np) ≤ np * n := by
          rw [← Nat.mul_succ, ← Nat.mul_add]
          exact Nat.mul_le_mul_left _ (by omega)
        have hmw : np * (s.wellCpty + k) = np * s.wellCpty + np * k := Nat.mul_add _ _ _
        have hP : P[s.wellCpty + k]? = some P[s.wellCpty + k] := List.getElem?_eq_getElem (by omega)
        have hnp' : (wellsAllocate J n s).np = np := h.hnp
        refine ⟨_, by
          unfold initWell
          simp only
          rw [show (wellsAllocate J n s).wellCpty = s.wellCpty from rfl, hnp',
            wr_ok (by rw [length_bfill (by rw [length_realloc]; omega), length_realloc]; omega), bind_ok,
            wr_ok (by rw [length_bfill (by rw [length_realloc]; omega), length_realloc]; omega), bind_ok,
            wr_ok (by rw [length_bfill (by rw [length_realloc]; omega), length_realloc]; omega), bind_ok,
            loop_fill_comp _ _ _ (by rw [length_bfill (by rw [length_realloc]; omega), length_realloc]; omega), bind_ok,
            rd_of_getElem? hP, bind_ok, wr_ok (by omega), bind_ok], ?_⟩
        refine ⟨P.set (s.wellCpty + k + 1) P[s.wellCpty + k], by simpa using hPl, ?_, ?_⟩
        · rw [List.take_set_of_le (by omega)]; exact hPt
        · rw [bfill_succ (by rw [length_realloc]; omega), bfill_succ (by rw [length_realloc]; omega), bfill_succ (by rw [length_realloc]; omega), hmw,
            bfill_bfill _ _ _ _ _ (by rw [length_realloc]; omega), Nat.mul_succ]
          show _ = W.mk _ (wellsAllocate J n s).np _ _ _ _ _ _ _ _ _ _
          rw [hnp']
          rfl
    obtain ⟨t, et, P, hPl, hPt, rfl⟩ := hl
    rw [et, bind_ok]
    simp only
    rw [show (wellsAllocate J n s).wellCpty = s.wellCpty from rfl, show (wellsAllocate J n s).ctrls = realloc J.ctrl s.ctrls n by
      unfold wellsAllocate; rw [Nat.one_mul], forRange_bfill _ _ _ _ (by simp), bind_ok, bind_ok]
    have e1 := bfill_realloc (junk := J.wt) (l := s.type) (n := n) (v := .producer) (by omega)
    have e2 := bfill_realloc (junk := J.dbl) (l := s.depthRef) (n := n) (v := -1) (by omega)
    have e3 := bfill_realloc (junk := J.str) (l := s.name) (n := n) (v := none) (by omega)
    have e4 := bfill_realloc (junk := J.dbl) (l := s.compFrac) (n := np * n) (v := 0) (by omega)
    have e5 := bfill_realloc (junk := J.ctrl) (l := s.ctrls) (n := n) (v := controlsCreate) (by omega)
    rw [hlt] at e1
    rw [hld] at e2
    rw [hln] at e3
    rw [hlc, ← Nat.mul_sub] at e4
    rw [hlk] at e5
    rw [e1, e2, e3, e4, e5]
    refine ⟨_, rfl, ?_, rfl, rfl⟩
    refine ⟨h.hnp, h.nw, by simp only; omega, h.pcap, by simp; omega, by simp; omega, by simpa using hPl, h.lcells, h.rcomp, h.rwi, ?_, ?_, ?_, ?_, ?_,
      h.cells, h.wi, ?_⟩
    · simp only
      rw [List.take_append_of_le_length (by omega)]; exact h.type
    · simp only
      rw [List.take_append_of_le_length (by omega)]; exact h.depth
    · simp only
      rw [h.comp, List.append_assoc, List.replicate_append_replicate, ← Nat.mul_add]
      congr 3; omega
    · simp only
      rw [h.name, List.append_assoc, List.replicate_append_replicate]
      congr 2; omega
    · simp only
      rw [← h.pos]
      have : ∀ l : List Nat, l.take (ws.length + 1) = (l.take (s.wellCpty + 1)).take (ws.length + 1) := by
        intro l; rw [List.take_take]; congr 1; omega
      rw [this P, this s.connpos, hPt]
    · refine ⟨C, ?_, hCl, hCr⟩
      simp only
      rw [hC, List.append_assoc, List.replicate_append_replicate]
      congr 2; omega
  · rw [if_neg hgt]
    exact ⟨s, rfl, h, by omega, rfl⟩

theorem WRep.reservePerfs {np : Nat} {s : W} {ws : List Well} (h : WRep np s ws) (J : Junk) (n : Nat) (hn : s.perfCpty ≤ n) :
    ∃ s', reservePerfs J n s = .ok s' ∧ WRep np s' ws ∧ s'.perfCpty = n ∧ s'.wellCpty = s.wellCpty := by
  unfold Wells.reservePerfs
  by_cases hgt : n > s.perfCpty
  · rw [if_pos hgt]
    have hlc := h.lcells
    have hpc := h.pcap
    have hlw : s.wi.length = s.perfCpty := by
      rw [h.wi, List.length_append, length_flatMap_wi h.rwi, ← start_self]; simp; omega
    unfold initialiseNewPerfs forRange
    obtain ⟨t, ht, rfl⟩ := loop_inv (n := n - s.perfCpty) (s := perfsAllocate J n s) (f := fun k (t : W) => (do
        let cells ← wr t.cells (s.perfCpty + k) (-1)
        let wi ← wr t.wi (s.perfCpty + k) 0
        .ok { t with cells := cells, wi := wi } : M W))
      (fun k t => t = { perfsAllocate J n s with
        cells := bfill s.perfCpty k (-1) (realloc J.int s.cells n)
        wi := bfill s.perfCpty k 0 (realloc J.dbl s.wi n) })
      (by rw [bfill_zero, bfill_zero]; rfl)
      (by
        rintro k t hk rfl
        refine ⟨_, by
          simp only
          rw [wr_ok (by rw [length_bfill (by rw [length_realloc]; omega), length_realloc]; omega), bind_ok,
            wr_ok (by rw [length_bfill (by rw [length_realloc]; omega), length_realloc]; omega), bind_ok], ?_⟩
        rw [bfill_succ (by rw [length_realloc]; omega), bfill_succ (by rw [length_realloc]; omega)])
    rw [show (perfsAllocate J n s).perfCpty = s.perfCpty from rfl, ht, bind_ok]
    have e1 := bfill_realloc (junk := J.int) (l := s.cells) (n := n) (v := -1) (by omega)
    have e2 := bfill_realloc (junk := J.dbl) (l := s.wi) (n := n) (v := 0) (by omega)
    rw [hlc] at e1
    rw [hlw] at e2
    rw [e1, e2]
    refine ⟨_, rfl, ⟨h.hnp, h.nw, h.cap, by simp only; omega, h.ltype, h.ldepth, h.lpos, by simp; omega, h.rcomp, h.rwi, h.type, h.depth, h.comp, h.name, h.pos,
      ?_, ?_, h.ctrls⟩, rfl, rfl⟩
    · simp only
      rw [List.take_append_of_le_length (by omega)]; exact h.cells
    · simp only
      rw [h.wi, List.append_assoc, List.replicate_append_replicate]
      congr 2; omega
  · rw [if_neg hgt]
    exact ⟨s, rfl, h, by omega, rfl⟩

theorem WRep.reserve {np : Nat} {s : W} {ws : List Well} (h : WRep np s ws) (J : Junk) (n m : Nat) (hn : s.wellCpty ≤ n) (hm : s.perfCpty ≤ m) :
    ∃ s', wellsReserve J n m s = .ok s' ∧ WRep np s' ws ∧ s'.wellCpty = n ∧ s'.perfCpty = m := by
  unfold wellsReserve
  rw [check_ok (by simpa using hn), bind_ok, check_ok (by simpa using hm), bind_ok]
  obtain ⟨s1, e1, r1, c1, p1⟩ := h.reserveWells J n hn
  obtain ⟨s2, e2, r2, p2, c2⟩ := r1.reservePerfs J m (by omega)
  rw [e1, bind_ok, e2]
  exact ⟨s2, rfl, r2, by omega, p2⟩

theorem wrep_create (J : Junk) (np n m : Nat) : ∃ s, createWells J np n m = .ok s ∧ WRep np s [] := by
  have h0 : WRep np { nw := 0, np := np, type := [], depthRef := [], compFrac := [], connpos := [0], cells := [], wi := [], ctrls := [], name := [], wellCpty := 0, perfCpty := 0 } [] := by
    refine ⟨rfl, rfl, Nat.le_refl _, by simp [start], rfl, rfl, rfl, rfl, by simp, by simp, by simp, by simp, by simp, by simp, by simp [start],
      by simp [start], by simp [start], [], by simp, rfl, by simp⟩
  unfold createWells
  simp only
  split
  · obtain ⟨s, e, r, _⟩ := h0.reserve J n m (Nat.zero_le _) (Nat.zero_le _)
    exact ⟨s, e, r⟩
  · exact ⟨_, rfl, h0⟩

theorem WRep.addReserve {np : Nat} {s : W} {ws : List Well} (h : WRep np s ws) (J : Junk) (k : Nat) :
    ∃ s', addWellReserve J k s = .ok s' ∧ WRep np s' ws ∧ ws.length < s'.wellCpty ∧ start ws ws.length + k ≤ s'.perfCpty := by
  unfold addWellReserve
  rw [h.nw, rd_of_getElem? (h.posAt _ (Nat.le_refl _)), bind_ok]
  split
  · rename_i hc
    exact ⟨s, rfl, h, hc.1, hc.2⟩
  · obtain ⟨a1, a2⟩ := allocSize_ge ws.length 1 s.wellCpty
    obtain ⟨b1, b2⟩ := allocSize_ge (start ws ws.length) k s.perfCpty
    obtain ⟨s', e, r, hw, hp⟩ := h.reserve J _ _ a2 b2
    exact ⟨s', e, r, by omega, by omega⟩

/-- The well recorded by `add_well`. -/
def newWell (np : Nat) (t : WellType) (d : Rat) (c : Option (List Rat)) (cs : List Int) (wi : Option (List Rat)) (n : Option String) : Well :=
  { type := t, depth := d, comp := c.getD (List.replicate np 0), cells := cs, wi := wi.getD (List.replicate cs.length 0),
    name := n, controls := [], slots := [], current := -1 }

theorem WRep.addWell {np : Nat} {s : W} {ws : List Well} (h : WRep np s ws) (J : Junk) (t : WellType) (d : Rat) (c : Option (List Rat)) (cs : List Int)
    (wi : Option (List Rat)) (n : Option String) (hc : ∀ l, c = some l → np ≤ l.length) (hw : ∀ l, wi = some l → cs.length ≤ l.length) :
    ∃ s', addWell J t d c cs wi n s = .ok s' ∧
      WRep np s' (ws ++ [newWell np t d (c.map (List.take np)) cs (wi.map (List.take cs.length)) n]) ∧
      s'.ctrls[ws.length]? = some controlsCreate := by
  unfold Wells.addWell
  simp only
  obtain ⟨s1, e1, r1, hcap, hpcap⟩ := h.addReserve J cs.length
  have hlc := r1.lcells
  rw [e1, bind_ok, h.nw, rd_of_getElem? (r1.posAt _ (Nat.le_refl _)), bind_ok]
  have hwl : (ws.flatMap Well.wi).length = start ws ws.length := by rw [length_flatMap_wi r1.rwi, start_self]
  -- perforations
  have hperf : ∃ s2, addWellPerfs (start ws ws.length) cs wi s1 = .ok s2 ∧
      ∃ CL, CL.length = s1.perfCpty ∧ CL.take (start ws ws.length + cs.length) = ws.flatMap Well.cells ++ cs ∧
        s2 = { s1 with
          cells := CL
          wi := ws.flatMap Well.wi ++ ((wi.map (List.take cs.length)).getD (List.replicate cs.length 0) ++
            List.replicate (s1.perfCpty - (start ws ws.length + cs.length)) 0) } := by
    have hz : List.replicate (s1.perfCpty - start ws ws.length) (0 : Rat) =
        List.replicate cs.length 0 ++ List.replicate (s1.perfCpty - (start ws ws.length + cs.length)) 0 := by
      rw [List.replicate_append_replicate]; congr 1; omega
    unfold addWellPerfs
    by_cases hcl : cs.length > 0
    · rw [if_pos hcl, memcpy_ok (by omega) (Nat.le_refl _), bind_ok]
      have hwi : memcpyOpt s1.wi (start ws ws.length) wi cs.length = .ok (ws.flatMap Well.wi ++
          ((wi.map (List.take cs.length)).getD (List.replicate cs.length 0) ++
            List.replicate (s1.perfCpty - (start ws ws.length + cs.length)) 0)) := by
        rw [r1.wi, hz]
        cases wi with
        | none => rfl
        | some l => exact memcpy_mid hwl (by simp) (hw l rfl)
      rw [hwi, bind_ok]
      refine ⟨_, rfl, _, ?_, ?_, rfl⟩
      · simp; omega
      · rw [take_memcpy (by omega) (Nat.le_refl _), r1.cells, List.take_length]
    · rw [if_neg hcl]
      have hnil : cs = [] := by cases cs with | nil => rfl | cons x l => simp at hcl
      subst hnil
      refine ⟨s1, rfl, s1.cells, hlc, ?_, ?_⟩
      · simpa using r1.cells
      · have : (wi.map (List.take ([] : List Int).length)).getD (List.replicate ([] : List Int).length (0 : Rat)) = [] := by
          cases wi <;> simp
        rw [this]
        have e := r1.wi
        simp only [List.length_nil, Nat.add_zero, List.nil_append]
        rw [← e]
  obtain ⟨s2, e2, CL, hCl, hCt, rfl⟩ := hperf
  rw [e2, bind_ok]
  simp only
  obtain ⟨C, hC, hCn, hCr⟩ := r1.ctrls
  have hlt := r1.ltype
  have hld := r1.ldepth
  have hlp := r1.lpos
  have hname : (n.elim (Except.ok s1.name) (fun x => wr s1.name ws.length (some x)) : M _) =
      .ok (ws.map Well.name ++ ([n] ++ List.replicate (s1.wellCpty - (ws.length + 1)) none)) := by
    have hz : List.replicate (s1.wellCpty - ws.length) (none : Option String) = none :: List.replicate (s1.wellCpty - (ws.length + 1)) none := by
      rw [← List.replicate_succ]; congr 1; omega
    rw [r1.name, hz]
    cases n with
    | none => rfl
    | some x =>
      show wr _ _ _ = _
      rw [wr_ok (by simp), List.set_append_right _ _ (by simp)]
      simp
  have hfl : ((ws.map Well.comp).flatten).length = ws.length * np := by
    rw [length_flatten_rows (n := np) (by intro r hr; obtain ⟨w, hw, rfl⟩ := List.mem_map.1 hr; exact r1.rcomp w hw), List.length_map]
  have hcomp : memcpyOpt s1.compFrac (s1.np * ws.length) c s1.np = .ok ((ws.map Well.comp).flatten ++
      ((c.map (List.take np)).getD (List.replicate np 0) ++ List.replicate (np * (s1.wellCpty - (ws.length + 1))) 0)) := by
    have hz : List.replicate (np * (s1.wellCpty - ws.length)) (0 : Rat) =
        List.replicate np 0 ++ List.replicate (np * (s1.wellCpty - (ws.length + 1))) 0 := by
      rw [List.replicate_append_replicate]
      congr 1
      obtain ⟨m, hm⟩ : ∃ m, s1.wellCpty = ws.length + 1 + m := ⟨s1.wellCpty - (ws.length + 1), by omega⟩
      rw [hm, show ws.length + 1 + m - ws.length = m + 1 by omega, show ws.length + 1 + m - (ws.length + 1) = m by omega]
      ring
    rw [r1.hnp, r1.comp, hz]
    cases c with
    | none => rfl
    | some l => exact memcpy_mid (by rw [hfl, Nat.mul_comm]) (by simp) (hc l rfl)
  rw [wr_ok (by omega), bind_ok, wr_ok (by omega), bind_ok, hname, bind_ok, hcomp, bind_ok, wr_ok (by omega), bind_ok, r1.nw]
  have hlen : (ws ++ [newWell np t d (c.map (List.take np)) cs (wi.map (List.take cs.length)) n]).length = ws.length + 1 := by simp
  have hst := start_append_self ws (newWell np t d (c.map (List.take np)) cs (wi.map (List.take cs.length)) n)
  generalize hnew : newWell np t d (c.map (List.take np)) cs (wi.map (List.take cs.length)) n = w0 at *
  have hw0c : w0.cells = cs := by rw [← hnew]; rfl
  have hw0w : w0.wi = (wi.map (List.take cs.length)).getD (List.replicate cs.length 0) := by rw [← hnew]; rfl
  have hw0p : w0.comp = (c.map (List.take np)).getD (List.replicate np 0) := by rw [← hnew]; rfl
  rw [hw0c] at hst
  have hfresh : s1.ctrls[ws.length]? = some controlsCreate := by
    rw [hC, List.getElem?_append_right (by omega), hCn, Nat.sub_self, List.getElem?_replicate, if_pos (by omega)]
  refine ⟨_, rfl, ?_, hfresh⟩
  refine ⟨r1.hnp, by rw [hlen], by rw [hlen]; exact hcap, by rw [hlen, hst]; exact hpcap, by simpa using hlt, by simpa using hld, by simpa using hlp, hCl,
    ?_, ?_, ?_, ?_, ?_, ?_, ?_, ?_, ?_, ?_⟩
  · intro x hx
    rcases List.mem_append.1 hx with hx | hx
    · exact r1.rcomp x hx
    · rw [List.mem_singleton] at hx
      rw [hx, hw0p]
      cases c with
      | none => simp
      | some l => have := hc l rfl; simp; omega
  · intro x hx
    rcases List.mem_append.1 hx with hx | hx
    · exact r1.rwi x hx
    · rw [List.mem_singleton] at hx
      rw [hx, hw0w, hw0c]
      cases wi with
      | none => simp
      | some l => have := hw l rfl; simp; omega
  · rw [hlen]
    simp only
    rw [take_set_succ (by omega), r1.type, List.map_append, ← hnew]; rfl
  · rw [hlen]
    simp only
    rw [take_set_succ (by omega), r1.depth, List.map_append, ← hnew]; rfl
  · rw [hlen]
    simp only
    rw [List.map_append, List.flatten_append, List.append_assoc, List.map_singleton, hw0p]; simp
  · rw [hlen]
    simp only
    rw [List.map_append, List.append_assoc, List.map_singleton, show w0.name = n by rw [← hnew]; rfl]
  · rw [hlen]
    simp only
    rw [take_set_succ (by omega), r1.pos, List.range_succ (n := ws.length + 1), List.map_append]
    congr 1
    · apply List.map_congr_left
      intro k hk
      rw [List.mem_range] at hk
      exact (start_append ws _ k (by omega)).symm
    · rw [List.map_singleton, hst]
  · rw [hlen, hst]
    simp only
    rw [hCt, List.flatMap_append]
    simp [hw0c]
  · rw [hlen, hst]
    simp only
    rw [List.flatMap_append, List.append_assoc]
    simp [hw0w]
  · refine ⟨C ++ [controlsCreate], ?_, by rw [hlen]; simp [hCn], ?_⟩
    · rw [hlen]
      simp only
      rw [hC, List.append_assoc]
      congr 1
      rw [show [controlsCreate] ++ List.replicate (s1.wellCpty - (ws.length + 1)) controlsCreate =
        List.replicate (s1.wellCpty - (ws.length + 1) + 1) controlsCreate from by rw [List.replicate_succ]; rfl]
      congr 1; omega
    · intro i x y hx hy
      rcases Nat.lt_or_ge i ws.length with hi | hi
      · rw [List.getElem?_append_left (by omega)] at hx
        rw [List.getElem?_append_left hi] at hy
        exact hCr i x y hx hy
      · have hi' : i = ws.length := by
          have := (List.getElem?_eq_some_iff.1 hy).1
          rw [hlen] at this
          omega
        subst hi'
        rw [List.getElem?_append_right (by omega), hCn] at hx
        rw [List.getElem?_append_right (by omega)] at hy
        simp at hx hy
        subst hx; subst hy
        exact crep_create np _ (by rw [← hnew]; rfl) (by rw [← hnew]; rfl) (by rw [← hnew]; rfl)

/-- Replacing the controls of one well. -/
theorem WRep.setCtrl {np : Nat} {s : W} {ws : List Well} (h : WRep np s ws) (i : Nat) (w : Well) (hw : ws[i]? = some w)
    (c : Controls) (f : Well → Well) (hf : ∀ x, (f x).type = x.type ∧ (f x).depth = x.depth ∧ (f x).comp = x.comp ∧ (f x).cells = x.cells ∧
      (f x).wi = x.wi ∧ (f x).name = x.name) (hc : CRep np c (f w)) :
    WRep np { s with ctrls := s.ctrls.set i c } (ws.modify i f) := by
  have hi := (List.getElem?_eq_some_iff.1 hw).1
  obtain ⟨C, hC, hCl, hCr⟩ := h.ctrls
  have hmap : ∀ {β : Type} (g : Well → β), (∀ x, g (f x) = g x) → (ws.modify i f).map g = ws.map g := by
    intro β g hg
    apply List.ext_getElem?
    intro k
    rw [List.getElem?_map, List.getElem?_map, List.getElem?_modify]
    cases hk : ws[k]? with
    | none => simp
    | some x =>
      by_cases hik : i = k
      · simp [hik, hg]
      · simp [hik]
  have hlen : (ws.modify i f).length = ws.length := List.length_modify _ _ _
  have hflat : ∀ {β : Type} (g : Well → List β), (∀ x, g (f x) = g x) → (ws.modify i f).flatMap g = ws.flatMap g := by
    intro β g hg
    rw [List.flatMap_def, List.flatMap_def, hmap g hg]
  have hstart : ∀ k, start (ws.modify i f) k = start ws k := by
    intro k
    unfold start
    rw [List.flatMap_def, List.flatMap_def, List.map_take, List.map_take, hmap _ (fun x => (hf x).2.2.2.1)]
  have hmem : ∀ x ∈ ws.modify i f, x ∈ ws ∨ ∃ y ∈ ws, x = f y := by
    intro x hx
    obtain ⟨k, hk⟩ := List.mem_iff_getElem?.1 hx
    rw [List.getElem?_modify, Option.map_eq_map, Option.map_eq_some_iff] at hk
    obtain ⟨y, hy, rfl⟩ := hk
    split
    · exact .inr ⟨y, List.mem_of_getElem? hy, rfl⟩
    · exact .inl (List.mem_of_getElem? hy)
  refine ⟨h.hnp, by rw [hlen]; exact h.nw, by rw [hlen]; exact h.cap, by rw [hlen, hstart]; exact h.pcap, h.ltype, h.ldepth, h.lpos, h.lcells, ?_, ?_,
    ?_, ?_, ?_, ?_, ?_, ?_, ?_, ?_⟩
  · intro x hx
    rcases hmem x hx with hx | ⟨y, hy, rfl⟩
    · exact h.rcomp x hx
    · rw [(hf y).2.2.1]; exact h.rcomp y hy
  · intro x hx
    rcases hmem x hx with hx | ⟨y, hy, rfl⟩
    · exact h.rwi x hx
    · rw [(hf y).2.2.2.1, (hf y).2.2.2.2.1]; exact h.rwi y hy
  · rw [hlen, hmap _ (fun x => (hf x).1)]; exact h.type
  · rw [hlen, hmap _ (fun x => (hf x).2.1)]; exact h.depth
  · rw [hlen, hmap _ (fun x => (hf x).2.2.1)]; exact h.comp
  · rw [hlen, hmap _ (fun x => (hf x).2.2.2.2.2)]; exact h.name
  · rw [hlen]
    simp only
    rw [h.pos]
    exact List.map_congr_left (fun k _ => (hstart k).symm)
  · rw [hlen, hstart, hflat _ (fun x => (hf x).2.2.2.1)]; exact h.cells
  · rw [hlen, hstart, hflat _ (fun x => (hf x).2.2.2.2.1)]; exact h.wi
  · refine ⟨C.set i c, ?_, by rw [hlen]; simpa using hCl, ?_⟩
    · rw [hlen]
      simp only
      rw [hC, List.set_append_left _ _ (by omega)]
    · intro k x y hx hy
      rw [List.getElem?_modify, Option.map_eq_map, Option.map_eq_some_iff] at hy
      obtain ⟨z, hz, rfl⟩ := hy
      by_cases hik : i = k
      · subst hik
        rw [List.getElem?_set_self (by omega)] at hx
        cases hx
        rw [hw] at hz
        cases hz
        simpa using hc
      · rw [List.getElem?_set_ne hik] at hx
        simp only [hik, if_false]
        exact hCr k x z hx hz

theorem WRep.ctrlAt {np : Nat} {s : W} {ws : List Well} (h : WRep np s ws) (i : Nat) (w : Well) (hw : ws[i]? = some w) :
    ∃ c, s.ctrls[i]? = some c ∧ CRep np c w ∧ i < s.ctrls.length := by
  obtain ⟨C, hC, hCl, hCr⟩ := h.ctrls
  have hi := (List.getElem?_eq_some_iff.1 hw).1
  have : C[i]? = some C[i] := List.getElem?_eq_getElem (by omega)
  refine ⟨C[i], ?_, hCr i _ w this hw, ?_⟩
  · rw [hC, List.getElem?_append_left (by omega), this]
  · rw [hC, List.length_append]; omega

theorem WRep.appendControls {np : Nat} {s : W} {ws : List Well} (h : WRep np s ws) (J : Junk) (t : CtrlType) (g : Rat) (d : Option (List Rat))
    (hd : ∀ l, d = some l → np ≤ l.length) (i : Nat) (hi : i < ws.length) :
    ∃ s', appendWellControls J t g d i s = .ok s' ∧ WRep np s' (ws.modify i (Well.addControl np t g (d.map (List.take np)))) := by
  have hw : ws[i]? = some ws[i] := List.getElem?_eq_getElem hi
  obtain ⟨c, hc, hr, hl⟩ := h.ctrlAt i _ hw
  obtain ⟨c', e', r'⟩ := hr.append J t g d hd
  unfold appendWellControls
  have hnp := h.hnp
  subst hnp
  rw [check_ok (by rw [h.nw]; simpa using hi), bind_ok, rdI_natCast, rd_of_getElem? hc, bind_ok, e', bind_ok, wrI_natCast, wr_ok hl, bind_ok]
  refine ⟨_, rfl, h.setCtrl i _ hw c' _ ?_ r'⟩
  intro x; exact ⟨rfl, rfl, rfl, rfl, rfl, rfl⟩

theorem WRep.setCurrent {np : Nat} {s : W} {ws : List Well} (h : WRep np s ws) (i : Nat) (w : Well) (hw : ws[i]? = some w) (cur : Int)
    (hcur : cur < w.controls.length) :
    ∃ s', setCurrentControl i cur s = .ok s' ∧ WRep np s' (ws.modify i (fun x => { x with current := cur })) := by
  have hi := (List.getElem?_eq_some_iff.1 hw).1
  obtain ⟨c, hc, hr, hl⟩ := h.ctrlAt i _ hw
  unfold setCurrentControl
  rw [check_ok (by rw [h.nw]; simpa using hi), bind_ok, rdI_natCast, rd_of_getElem? hc, bind_ok, check_ok (by rw [hr.num]; simpa using hcur), bind_ok,
    wrI_natCast, wr_ok hl, bind_ok]
  refine ⟨_, rfl, h.setCtrl i _ hw _ (fun x => { x with current := cur }) ?_ ?_⟩
  · intro x; exact ⟨rfl, rfl, rfl, rfl, rfl, rfl⟩
  · exact ⟨hr.num, rfl, hr.lty, hr.lta, hr.hs, hr.hc, hr.rows, hr.distr, hr.types, hr.targets⟩

theorem WRep.clearControls {np : Nat} {s : W} {ws : List Well} (h : WRep np s ws) (i : Nat) (hi : i < ws.length) :
    ∃ s', clearWellControls i s = .ok s' ∧ WRep np s' (ws.modify i (fun x => { x with controls := [] })) := by
  have hw : ws[i]? = some ws[i] := List.getElem?_eq_getElem hi
  obtain ⟨c, hc, hr, hl⟩ := h.ctrlAt i _ hw
  unfold clearWellControls
  rw [check_ok (by rw [h.nw]; simpa using hi), bind_ok, rdI_natCast, rd_of_getElem? hc, bind_ok, wrI_natCast, wr_ok hl, bind_ok]
  refine ⟨_, rfl, h.setCtrl i _ hw _ (fun x => { x with controls := [] }) ?_ ?_⟩
  · intro x; exact ⟨rfl, rfl, rfl, rfl, rfl, rfl⟩
  · exact ⟨rfl, hr.cur, hr.lty, hr.lta, Nat.zero_le _, hr.hc, hr.rows, hr.distr, by simp, by simp⟩

theorem map_take_of_eq {d : Option (List Rat)} {n : Nat} (h : ∀ l, d = some l → l.length = n) : d.map (List.take n) = d := by
  cases d with
  | none => rfl
  | some l => rw [Option.map_some, List.take_of_length_le (by rw [h l rfl])]

theorem WRep.exec {np : Nat} {s : W} {ws : List Well} (h : WRep np s ws) (J : Junk) (op : Op) (hp : Pre np ws op) :
    ∃ s', op.exec J s = .ok s' ∧ WRep np s' (specStep np ws op) := by
  cases op with
  | addWell t d c cs wi n =>
    obtain ⟨h1, h2⟩ := hp
    obtain ⟨s', e, r, -⟩ := h.addWell J t d c cs wi n (fun l hl => by rw [h1 l hl]) (fun l hl => by rw [h2 l hl])
    rw [map_take_of_eq h1, map_take_of_eq h2] at r
    exact ⟨s', e, r⟩
  | appendControls t g d w =>
    obtain ⟨h1, h2, h3⟩ := hp
    obtain ⟨k, rfl⟩ := Int.eq_ofNat_of_zero_le h1
    obtain ⟨s', e, r⟩ := h.appendControls J t g d (fun l hl => by rw [h3 l hl]) k (by omega)
    rw [map_take_of_eq h3] at r
    exact ⟨s', e, r⟩
  | setCurrent w cur =>
    obtain ⟨h1, x, hx, h2⟩ := hp
    obtain ⟨k, rfl⟩ := Int.eq_ofNat_of_zero_le h1
    exact h.setCurrent k x hx cur h2
  | clearControls w =>
    obtain ⟨h1, h2⟩ := hp
    obtain ⟨k, rfl⟩ := Int.eq_ofNat_of_zero_le h1
    exact h.clearControls k (by omega)

theorem WRep.run {np : Nat} {s : W} {ws : List Well} (h : WRep np s ws) (J : Junk) (ops : List Op) (hp : PreAll np ws ops) :
    ∃ s', run J ops s = .ok s' ∧ WRep np s' (ops.foldl (specStep np) ws) := by
  induction ops generalizing s ws with
  | nil => exact ⟨s, rfl, h⟩
  | cons op ops ih =>
    obtain ⟨s1, e1, r1⟩ := h.exec J op hp.1
    obtain ⟨s2, e2, r2⟩ := ih r1 hp.2
    refine ⟨s2, ?_, r2⟩
    unfold Wells.run at e2 ⊢
    rw [List.foldlM_cons, e1]
    exact e2

theorem flatMap_slice {β : Type _} {ws : List Well} (g : Well → List β) {i : Nat} {w : Well} (hw : ws[i]? = some w) (l : List β) (hl : ws.flatMap g <+: l) :
    slice l ((ws.take i).flatMap g).length ((ws.take (i + 1)).flatMap g).length = .ok (g w) := by
  have hsplit : (ws.take (i + 1)).flatMap g = (ws.take i).flatMap g ++ g w := by
    rw [List.take_add_one, hw, List.flatMap_append]; simp
  have hpre : ws.flatMap g = (ws.take (i + 1)).flatMap g ++ (ws.drop (i + 1)).flatMap g := by
    rw [← List.flatMap_append, List.take_append_drop]
  obtain ⟨r, rfl⟩ := hl
  rw [hpre, List.append_assoc]
  unfold slice
  rw [if_pos ⟨by rw [hsplit, List.length_append]; omega, by rw [List.length_append]; omega⟩, List.take_left, hsplit, List.drop_left]

theorem prefix_of_take {β : Type _} {l p : List β} {n : Nat} (h : l.take n = p) : p <+: l := by
  rw [← h]; exact List.take_prefix n l

theorem WRep.get {np : Nat} {s : W} {ws : List Well} (h : WRep np s ws) (i : Nat) (w : Well) (hw : ws[i]? = some w) : getWell s i = .ok w.obs := by
  have hi := (List.getElem?_eq_some_iff.1 hw).1
  obtain ⟨c, hc, hr, _⟩ := h.ctrlAt i w hw
  have hm : ∀ {β : Type} (f : Well → β), (ws.map f)[i]? = some (f w) := by intro β f; rw [List.getElem?_map, hw]; rfl
  have hname : s.name[i]? = some w.name := by
    rw [h.name, List.getElem?_append_left (by simpa using hi)]; exact hm _
  have hrows : ∀ r ∈ ws.map Well.comp, r.length = np := by
    intro r hr; obtain ⟨x, hx, rfl⟩ := List.mem_map.1 hr; exact h.rcomp x hx
  have hcomp := slice_row (buf := s.compFrac) hrows (by rw [h.comp, ← length_flatten_rows hrows]; exact List.take_left) (hm _)
  have hcells := flatMap_slice Well.cells hw s.cells (prefix_of_take h.cells)
  have hwi := flatMap_slice Well.wi hw s.wi (by rw [h.wi]; exact List.prefix_append _ _)
  have hstw : ∀ k, ((ws.take k).flatMap Well.wi).length = start ws k := by
    intro k
    unfold start
    exact length_flatMap_wi (fun x hx => h.rwi x (List.mem_of_mem_take hx))
  rw [hstw, hstw] at hwi
  have hctl : (List.range c.num).mapM (getControl np c) = .ok w.obs.controls := by
    have hl : c.num = w.obs.controls.length := by
      rw [hr.num]
      unfold Well.obs
      have := hr.hs
      simp only [List.length_map, List.length_zip]
      omega
    rw [hl]
    exact mapM_range_ok _ _ (fun k x hx => getControl_ok hr k x hx)
  unfold getWell
  rw [rd_elem (es := ws.map Well.type) (by rw [List.length_map]; exact h.type) (hm _), bind_ok,
    rd_elem (es := ws.map Well.depth) (by rw [List.length_map]; exact h.depth) (hm _), bind_ok, h.hnp, hcomp, bind_ok,
    rd_of_getElem? (h.posAt i (by omega)), bind_ok, rd_of_getElem? (h.posAt (i + 1) (by omega)), bind_ok]
  rw [show slice s.cells (start ws i) (start ws (i + 1)) = .ok w.cells from hcells, bind_ok, hwi, bind_ok, rd_of_getElem? hname, bind_ok,
    rd_of_getElem? hc, bind_ok, hctl, bind_ok, hr.cur]
  rfl

/-! ### Cloning -/

theorem slice_eq {α : Type _} {l r : List α} {p q : Nat} (h : slice l p q = .ok r) : (l.drop p).take (q - p) = r := by
  unfold slice at h
  split at h
  · cases h
    rw [List.drop_take]
  · cases h

theorem modify_last {α : Type _} (l : List α) (x : α) (f : α → α) : (l ++ [x]).modify l.length f = l ++ [f x] := by
  induction l with
  | nil => rfl
  | cons a l ih =>
    rw [List.cons_append, List.length_cons, List.modify_succ_cons, ih]; rfl

/-- Forgetting the unused control slots. -/
def Well.trunc (w : Well) : Well := { w with slots := w.slots.take w.controls.length }

theorem Well.obs_trunc (w : Well) : w.trunc.obs = w.obs := by
  unfold Well.obs Well.trunc
  simp only
  congr 2
  apply List.ext_getElem?
  intro i
  rcases Nat.lt_or_ge i w.controls.length with hi | hi
  · rw [List.zip_eq_zipWith, List.zip_eq_zipWith, List.getElem?_zipWith, List.getElem?_zipWith, List.getElem?_take, if_pos hi]
  · rw [List.getElem?_eq_none (by simp; omega), List.getElem?_eq_none (by simp; omega)]

theorem clone_well_loop {np : Nat} {src : W} {ws : List Well} (h : WRep np src ws) (J : Junk) (i : Nat) (w : Well) (hw : ws[i]? = some w)
    {ret : W} {pre : List Well} (hr : WRep np ret pre) (hi : pre.length = i) :
    ∃ ret', cloneWell J src i ret = setCurrentControl i w.current ret' ∧ WRep np ret' (pre ++ [{ w.trunc with current := -1 }]) := by
  have hlt := (List.getElem?_eq_some_iff.1 hw).1
  have hm : ∀ {β : Type} (f : Well → β), (ws.map f)[i]? = some (f w) := by intro β f; rw [List.getElem?_map, hw]; rfl
  have hname : src.name[i]? = some w.name := by
    rw [h.name, List.getElem?_append_left (by simpa using hlt)]; exact hm _
  have hrows : ∀ r ∈ ws.map Well.comp, r.length = np := by
    intro r hr; obtain ⟨x, hx, rfl⟩ := List.mem_map.1 hr; exact h.rcomp x hx
  have hcomp := slice_eq (slice_row (buf := src.compFrac) hrows (by rw [h.comp, ← length_flatten_rows hrows]; exact List.take_left) (hm _))
  have hcells := slice_eq (flatMap_slice Well.cells hw src.cells (prefix_of_take h.cells))
  have hwi := slice_eq (flatMap_slice Well.wi hw src.wi (by rw [h.wi]; exact List.prefix_append _ _))
  have hstw : ∀ k, ((ws.take k).flatMap Well.wi).length = start ws k := by
    intro k
    unfold start
    exact length_flatMap_wi (fun x hx => h.rwi x (List.mem_of_mem_take hx))
  rw [hstw, hstw] at hwi
  change (src.cells.drop (start ws i)).take (start ws (i + 1) - start ws i) = w.cells at hcells
  have hnpw := h.rcomp w (List.mem_of_getElem? hw)
  have hwl := h.rwi w (List.mem_of_getElem? hw)
  have hstep : start ws (i + 1) = start ws i + w.cells.length := by
    unfold start
    rw [List.take_add_one, hw, List.flatMap_append, List.length_append]; simp
  have hrow : (i + 1) * np - i * np = np := by rw [Nat.succ_mul]; omega
  rw [hrow] at hcomp
  rw [hstep, Nat.add_sub_cancel_left] at hwi
  obtain ⟨c, hc, hcr, _⟩ := h.ctrlAt i w hw
  have hcap := h.cap
  unfold cloneWell
  rw [rd_of_getElem? (h.posAt i (by omega)), bind_ok, rd_of_getElem? (h.posAt (i + 1) (by omega)), bind_ok,
    rd_elem (es := ws.map Well.type) (by rw [List.length_map]; exact h.type) (hm _), bind_ok,
    rd_elem (es := ws.map Well.depth) (by rw [List.length_map]; exact h.depth) (hm _), bind_ok, rd_of_getElem? hname, bind_ok]
  simp only
  rw [hcells, h.hnp, if_pos (show src.wellCpty > 0 by omega)]
  have hlw : ∀ l, (if src.perfCpty > 0 then some (src.wi.drop (start ws i)) else none) = some l → w.cells.length ≤ l.length := by
    intro l hl
    split at hl
    · cases hl
      rw [← hwl, ← hwi, List.length_take]; omega
    · cases hl
  obtain ⟨r1, e1, R1, hfresh⟩ := hr.addWell J w.type w.depth (some (src.compFrac.drop (i * np))) w.cells
    (if src.perfCpty > 0 then some (src.wi.drop (start ws i)) else none) w.name
    (by
      intro l hl; cases hl
      have := congrArg List.length hcomp
      rw [List.length_take, hnpw] at this
      omega) hlw
  have hnw : newWell np w.type w.depth ((some (src.compFrac.drop (i * np))).map (List.take np)) w.cells
      ((if src.perfCpty > 0 then some (src.wi.drop (start ws i)) else none).map (List.take w.cells.length)) w.name =
      { w with controls := [], slots := [], current := -1 } := by
    unfold newWell
    rw [Option.map_some, hcomp, Option.getD_some]
    have : ((if src.perfCpty > 0 then some (src.wi.drop (start ws i)) else none).map (List.take w.cells.length)).getD
        (List.replicate w.cells.length 0) = w.wi := by
      split
      · simp [hwi]
      · rename_i hp
        have hpc := h.pcap
        have h1 : start ws (i + 1) ≤ start ws ws.length := by
          unfold start
          rw [List.take_length]
          conv => rhs; rw [← List.take_append_drop (i + 1) ws, List.flatMap_append, List.length_append]
          omega
        have h0 : w.cells.length = 0 := by omega
        have : w.wi = [] := List.length_eq_zero_iff.1 (by omega)
        rw [this, h0]; rfl
    rw [this]
  rw [hnw] at R1
  rw [e1, bind_ok, rd_of_getElem? hc, bind_ok]
  have hget : (pre ++ [({ w with controls := [], slots := [], current := -1 } : Well)])[i]? = some { w with controls := [], slots := [], current := -1 } := by
    rw [← hi]; simp
  rw [hi] at hfresh
  obtain ⟨c2, e2, R2, hc2⟩ := (crep_create np { w with controls := [], slots := [], current := -1 } rfl rfl rfl).reserve J c.num (Nat.zero_le _)
  have hlen2 : i < r1.ctrls.length := (List.getElem?_eq_some_iff.1 hfresh).1
  rw [rd_of_getElem? hfresh, bind_ok, e2, bind_ok, wr_ok hlen2, bind_ok]
  have R3 := R1.setCtrl i _ hget c2 (fun x => x) (fun x => ⟨rfl, rfl, rfl, rfl, rfl, rfl⟩) R2
  have hmid : (pre ++ [({ w with controls := [], slots := [], current := -1 } : Well)]).modify i (fun x => x) =
      pre ++ [{ w with controls := [], slots := [], current := -1 }] := by
    rw [← hi, modify_last]
  rw [hmid] at R3
  have hsl := hcr.hs
  obtain ⟨t, ht, hP⟩ := loop_inv (n := c.num) (s := { r1 with ctrls := r1.ctrls.set i c2 }) (f := cloneControl J src c i)
    (fun k t => WRep np t (pre ++ [{ w with controls := w.controls.take k, slots := w.slots.take k, current := -1 }]))
    (by simpa using R3)
    (by
      intro k t hk ht
      rw [hcr.num] at hk
      obtain ⟨a, ha⟩ : ∃ a, w.controls[k]? = some a := ⟨_, List.getElem?_eq_getElem hk⟩
      obtain ⟨b, hb⟩ : ∃ b, w.slots[k]? = some b := ⟨_, List.getElem?_eq_getElem (by omega)⟩
      have hbl := hcr.rows b (List.mem_of_getElem? hb)
      have hd := slice_eq (slice_row (buf := c.distr) hcr.rows (by rw [hcr.distr, ← length_flatten_rows hcr.rows]; exact List.take_left) hb)
      rw [show (k + 1) * np - k * np = np by rw [Nat.succ_mul]; omega] at hd
      have hdl : np ≤ (c.distr.drop (k * np)).length := by
        have := congrArg List.length hd
        rw [List.length_take, hbl] at this
        omega
      unfold cloneControl
      rw [rd_elem (es := w.controls.map Prod.fst) (by rw [List.length_map]; exact hcr.types) (by rw [List.getElem?_map, ha]; rfl), bind_ok,
        rd_elem (es := w.controls.map Prod.snd) (by rw [List.length_map]; exact hcr.targets) (by rw [List.getElem?_map, ha]; rfl), bind_ok, h.hnp]
      obtain ⟨t', e', r'⟩ := ht.appendControls J a.1 a.2 (some (c.distr.drop (k * np))) (by intro l hl; cases hl; exact hdl) i (by simp [hi])
      refine ⟨t', e', ?_⟩
      rw [← hi, modify_last] at r'
      rw [Option.map_some, hd] at r'
      have : Well.addControl np a.1 a.2 (some b) { w with controls := w.controls.take k, slots := w.slots.take k, current := -1 } =
          { w with controls := w.controls.take (k + 1), slots := w.slots.take (k + 1), current := -1 } := by
        unfold Well.addControl
        simp only
        rw [if_neg (by simp; omega), List.take_add_one, ha, List.take_add_one, hb]
        rfl
      rw [this] at r'
      exact r')
  rw [ht, bind_ok, hcr.cur]
  refine ⟨t, rfl, ?_⟩
  rw [hcr.num, List.take_length] at hP
  exact hP

theorem clone_well_ok {np : Nat} {src : W} {ws : List Well} (h : WRep np src ws) (J : Junk) (i : Nat) (w : Well) (hw : ws[i]? = some w)
    {ret : W} {pre : List Well} (hr : WRep np ret pre) (hi : pre.length = i) (hcur : w.current < w.controls.length) :
    ∃ ret', cloneWell J src i ret = .ok ret' ∧ WRep np ret' (pre ++ [w.trunc]) := by
  obtain ⟨r, e, R⟩ := clone_well_loop h J i w hw hr hi
  have hget : (pre ++ [({ w.trunc with current := -1 } : Well)])[i]? = some { w.trunc with current := -1 } := by
    rw [← hi]; simp
  obtain ⟨r', e', R'⟩ := R.setCurrent i _ hget w.current hcur
  refine ⟨r', by rw [e, e'], ?_⟩
  rw [← hi, modify_last] at R'
  exact R'

theorem clone_well_fails {np : Nat} {src : W} {ws : List Well} (h : WRep np src ws) (J : Junk) (i : Nat) (w : Well) (hw : ws[i]? = some w)
    {ret : W} {pre : List Well} (hr : WRep np ret pre) (hi : pre.length = i) (hcur : (w.controls.length : Int) ≤ w.current) :
    cloneWell J src i ret = .error .assertFail := by
  obtain ⟨r, e, R⟩ := clone_well_loop h J i w hw hr hi
  have hget : (pre ++ [({ w.trunc with current := -1 } : Well)])[i]? = some { w.trunc with current := -1 } := by
    rw [← hi]; simp
  obtain ⟨c, hc, hcr, hl⟩ := R.ctrlAt i _ hget
  rw [e]
  unfold setCurrentControl
  rw [check_ok (by rw [R.nw]; simp; omega), bind_ok, rdI_natCast, rd_of_getElem? hc, bind_ok]
  have : decide (w.current < (c.num : Int)) = false := by
    rw [hcr.num]
    exact decide_eq_false (by simpa [Well.trunc] using hcur)
  rw [this]
  rfl

theorem clone_loop {np : Nat} {src : W} {ws : List Well} (h : WRep np src ws) (J : Junk) {ret : W} (hr : WRep np ret []) (n : Nat) (hn : n ≤ ws.length) :
    ((∀ w ∈ ws.take n, w.current < w.controls.length) →
      ∃ t, loop n (cloneWell J src) ret = .ok t ∧ WRep np t ((ws.take n).map Well.trunc)) ∧
    ((∃ w ∈ ws.take n, (w.controls.length : Int) ≤ w.current) → loop n (cloneWell J src) ret = .error .assertFail) := by
  induction n with
  | zero => exact ⟨fun _ => ⟨ret, rfl, by simpa using hr⟩, by rintro ⟨w, hw, _⟩; simp at hw⟩
  | succ n ih =>
    obtain ⟨ih1, ih2⟩ := ih (by omega)
    have hw : ws[n]? = some ws[n] := List.getElem?_eq_getElem (by omega)
    have htk : ws.take (n + 1) = ws.take n ++ [ws[n]] := by rw [List.take_add_one, hw]; rfl
    by_cases hbad : ∃ w ∈ ws.take n, (w.controls.length : Int) ≤ w.current
    · constructor
      · intro hall
        obtain ⟨w, hw1, hw2⟩ := hbad
        have := hall w (by rw [htk]; exact List.mem_append_left _ hw1)
        omega
      · intro _
        rw [loop_succ, ih2 hbad, bind_error]
    · have hgood : ∀ w ∈ ws.take n, w.current < w.controls.length := by
        intro w hw1
        by_cases hlt : w.current < w.controls.length
        · exact hlt
        · exact absurd ⟨w, hw1, by omega⟩ hbad
      obtain ⟨t, et, rt⟩ := ih1 hgood
      have hl : ((ws.take n).map Well.trunc).length = n := by simp; omega
      rw [loop_succ, et, bind_ok]
      constructor
      · intro hall
        have hcur := hall ws[n] (by rw [htk]; exact List.mem_append_right _ (List.mem_singleton_self _))
        obtain ⟨t', e', r'⟩ := clone_well_ok h J n _ hw rt hl hcur
        refine ⟨t', e', ?_⟩
        rw [htk, List.map_append]
        exact r'
      · rintro ⟨w, hw1, hw2⟩
        rw [htk] at hw1
        rcases List.mem_append.1 hw1 with hw1 | hw1
        · exact absurd ⟨w, hw1, hw2⟩ hbad
        · rw [List.mem_singleton] at hw1
          subst hw1
          exact clone_well_fails h J n _ hw rt hl hw2

theorem WRep.clone {np : Nat} {src : W} {ws : List Well} (h : WRep np src ws) (J : Junk) :
    ((∀ w ∈ ws, w.current < w.controls.length) → ∃ t, cloneWells J src = .ok t ∧ WRep np t (ws.map Well.trunc)) ∧
    ((∃ w ∈ ws, (w.controls.length : Int) ≤ w.current) → cloneWells J src = .error .assertFail) := by
  obtain ⟨r, e, R⟩ := wrep_create J np ws.length (start ws ws.length)
  have := clone_loop h J R ws.length (Nat.le_refl _)
  rw [List.take_length] at this
  unfold cloneWells
  rw [h.nw, rd_of_getElem? (h.posAt _ (Nat.le_refl _)), bind_ok, h.hnp, e, bind_ok]
  exact this

end Opm.Wells
