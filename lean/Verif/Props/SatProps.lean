import Verif.Props.SatThree
import Verif.Props.Blackoil
/-!
# Saturation functions of all cells: regions of a deck, batches of points, scaled end points
-/

namespace Opm

/-- Appending results one by one. -/
theorem loop_snoc {α : Type} {n : Nat} {g : Nat → M α} {l : List α} : loop n (fun i l => g i >>= fun v => .ok (l ++ [v])) [] = .ok l ↔ l.length = n ∧ ∀ (i : Nat) v, l[i]? = some v → g i = .ok v := by
  induction n generalizing l with
  | zero =>
    rw [loop_zero]
    constructor
    · intro h; cases h; exact ⟨rfl, by simp⟩
    · rintro ⟨h, _⟩; rw [List.length_eq_zero_iff.1 h]
  | succ n ih =>
    rw [loop_succ]
    constructor
    · intro h
      obtain ⟨l', h', h⟩ := bind_eq_ok.1 h
      obtain ⟨v, hv, h⟩ := bind_eq_ok.1 h
      cases h
      obtain ⟨q1, q2⟩ := ih.1 h'
      refine ⟨by simp [q1], fun i w hi => ?_⟩
      rcases Nat.lt_trichotomy i n with q | q | q
      · rw [List.getElem?_append_left (by omega)] at hi
        exact q2 i w hi
      · subst q
        rw [List.getElem?_append_right (by omega), q1, Nat.sub_self] at hi
        cases hi
        exact hv
      · rw [List.getElem?_eq_none (by simp; omega)] at hi
        cases hi
    · rintro ⟨h1, h2⟩
      have hne : l ≠ [] := by intro e; simp [e] at h1
      obtain ⟨l', v, rfl⟩ : ∃ l' v, l = l' ++ [v] := ⟨l.dropLast, l.getLast hne, (List.dropLast_append_getLast hne).symm⟩
      have q : l'.length = n := by simpa using h1
      rw [ih.2 ⟨q, fun i w hi => h2 i w (by rw [List.getElem?_append_left (List.getElem?_eq_some_iff.1 hi).1]; exact hi)⟩, bind_ok]
      have := h2 n v (by rw [List.getElem?_append_right (by omega), q, Nat.sub_self]; rfl)
      rw [this, bind_ok]

/-- Overwriting the elements of a list one by one. -/
theorem loop_over {α : Type} {n : Nat} {f : Nat → List α → M (List α)} {g : Nat → α → M α} {l t : List α} (hn : n ≤ l.length)
    (hf : ∀ (i : Nat) (t : List α) x, i < n → t.length = l.length → t[i]? = some x → l[i]? = some x → f i t = g i x >>= fun v => .ok (t.set i v)) (h : loop n f l = .ok t) :
    t.length = l.length ∧ ∀ (i : Nat) x, l[i]? = some x → (i < n → ∃ v, g i x = .ok v ∧ t[i]? = some v) ∧ (n ≤ i → t[i]? = some x) := by
  induction n generalizing t with
  | zero => rw [loop_zero] at h; cases h; exact ⟨rfl, fun i x hx => ⟨by omega, fun _ => hx⟩⟩
  | succ n ih =>
    rw [loop_succ] at h
    obtain ⟨t', h', h⟩ := bind_eq_ok.1 h
    obtain ⟨q1, q2⟩ := ih (by omega) (fun i t x hi => hf i t x (by omega)) h'
    have hx : l[n]? = some (l[n]'(by omega)) := List.getElem?_eq_getElem _
    have hx' := (q2 n _ hx).2 (le_refl _)
    rw [hf n t' _ (by omega) q1 hx' hx] at h
    obtain ⟨v, hv, h⟩ := bind_eq_ok.1 h
    have h := Except.ok.inj h
    subst h
    refine ⟨by rw [List.length_set]; exact q1, fun i x hi => ⟨fun a => ?_, fun a => ?_⟩⟩
    · by_cases e : i = n
      · subst e
        rw [hx] at hi
        cases hi
        exact ⟨v, hv, by rw [List.getElem?_set_self (by omega)]⟩
      · rw [List.getElem?_set_ne (by omega)]
        exact (q2 i x hi).1 (by omega)
    · rw [List.getElem?_set_ne (by omega)]
      exact (q2 i x hi).2 (by omega)

end Opm

namespace Opm.SatFunc
open Opm Opm.Interp Opm.Pvt Opm.Blackoil Opm.Rock

/-- What `init` makes of a deck. -/
structure FromDeck (k : Kind) (u : Option (Sampling × Int)) (d : SatDeck) (g : SatGrid) (p : SatProps) : Prop where
  kind : p.kind = k
  oil : d.phases.oil = true
  two : (d.phases.water || d.phases.gas) = true
  usage : p.usage = usageOf d.phases.water d.phases.gas
  /-- One set of functions for each table of the deck, and as many tables of water as of gas. -/
  water : d.phases.water = true → ∃ ts, d.swof = some ts ∧ ts.length = p.funcs.length
  gas : d.phases.gas = true → ∃ ts, d.sgof = some ts ∧ ts.length = p.funcs.length
  funcs : ∀ (t : Nat) f, p.funcs[t]? = some f → Funcs.init k u d.swof d.sgof t p.usage = .ok f
  /-- Without SATNUM, every cell uses the first one. -/
  single : d.satnum = none → 0 < p.funcs.length ∧ ∀ c, p.funcForCell c = rd p.funcs 0
  /-- With it, each cell uses the one with the number of its position in the deck, and there are enough of them. -/
  region : ∀ sn, d.satnum = some sn → (∀ x ∈ sn, x ≤ p.funcs.length) ∧ ∀ c, c < g.cells → ∃ pos v, g.deckPos c = .ok pos ∧ sn[pos]? = some v ∧ (1 ≤ v → ∃ f, p.funcs[(v - 1).toNat]? = some f ∧ p.funcForCell c = .ok f) ∧
    (v < 1 → p.funcForCell c = .error .ub)

theorem maxElement_le {l : List Int} {m : Int} (h : maxElement l = .ok m) : ∀ x ∈ l, x ≤ m := by
  have key : ∀ (l : List Int) (a : Int), a ≤ l.foldl (fun m x => if m < x then x else m) a ∧ ∀ x ∈ l, x ≤ l.foldl (fun m x => if m < x then x else m) a := by
    intro l
    induction l with
    | nil => intro a; simp
    | cons b l ih =>
      intro a
      obtain ⟨q1, q2⟩ := ih (if a < b then b else a)
      simp only [List.foldl_cons, List.mem_cons, forall_eq_or_imp]
      refine ⟨le_trans ?_ q1, le_trans ?_ q1, q2⟩ <;> split <;> omega
  cases l with
  | nil => cases h
  | cons a l =>
    cases h
    intro x hx
    rcases List.mem_cons.1 hx with rfl | hx
    · exact (key l x).1
    · exact (key l a).2 x hx

theorem tableCount_ok {used : Bool} {t : Option (List (List (List Rat)))} {e : Int} {r : Option Nat} (h : tableCount used t e = .ok r) :
    (used = true → ∃ ts, t = some ts ∧ e ≤ ts.length ∧ r = some ts.length) ∧ (used = false → r = none) := by
  unfold tableCount at h
  cases used with
  | false => cases h; exact ⟨by simp, fun _ => rfl⟩
  | true =>
    rw [if_pos rfl] at h
    refine ⟨fun _ => ?_, by simp⟩
    cases t with
    | none => cases h
    | some ts =>
      dsimp only at h
      split at h
      · cases h
      · next hn => cases h; exact ⟨ts, rfl, not_lt.1 hn, rfl⟩

/-- Scaling leaves all but the scaled end points as it is. -/
theorem scaling_keeps {p q : SatProps} {d : SatDeck} {g : SatGrid} (h : p.scaling d g = .ok q) : q.kind = p.kind ∧ q.usage = p.usage ∧ q.funcs = p.funcs ∧ q.cellToFunc = p.cellToFunc ∧
    (d.endscale = none → q = p) ∧ (∀ e, d.endscale = some e → e = ("NODIR", "REVERS") ∧ d.phases.water = true ∧ d.phases.oil = true ∧ d.phases.gas = false ∧ ∃ eps, p.allEPS d g = .ok eps ∧ q = { p with eps := eps, doEps := true, do3pt := d.scalecrs == some "YES" }) := by
  unfold SatProps.scaling at h
  split at h
  · next e => cases h; exact ⟨rfl, rfl, rfl, rfl, fun _ => rfl, by rw [e]; simp⟩
  · next a b e =>
    split at h
    · cases h
    next h1 =>
    split at h
    · cases h
    next h2 =>
    split at h
    · cases h
    next h3 =>
    obtain ⟨eps, he, h⟩ := bind_eq_ok.1 h
    cases h
    refine ⟨rfl, rfl, rfl, rfl, by rw [e]; simp, fun x hx => ?_⟩
    rw [e] at hx
    cases hx
    simp only [Bool.or_eq_true, Bool.not_eq_true', not_or, Bool.not_eq_false, Bool.not_eq_true] at h1
    exact ⟨by rw [not_not.1 h2, not_not.1 h3], h1.1.1, h1.1.2, h1.2, eps, he, rfl⟩

/-- `init` for all decks and grids it accepts. -/
theorem init_from_deck {k : Kind} {u : Option (Sampling × Int)} {d : SatDeck} {g : SatGrid} {p : SatProps} (h : SatProps.init k u d g = .ok p) (hc : 0 < g.cells) : FromDeck k u d g p := by
  unfold SatProps.init at h
  obtain ⟨pu, hpu, h⟩ := bind_eq_ok.1 h
  obtain ⟨⟨ex, c2f⟩, hr, h⟩ := bind_eq_ok.1 h
  dsimp only at h
  obtain ⟨a, ha, h⟩ := bind_eq_ok.1 h
  obtain ⟨b, hb, h⟩ := bind_eq_ok.1 h
  obtain ⟨n, hn, h⟩ := bind_eq_ok.1 h
  obtain ⟨fs, hfs, h⟩ := bind_eq_ok.1 h
  obtain ⟨o, wg, rfl⟩ := (phase_usage _ _).1 hpu
  obtain ⟨e1, e2, e3, e4, _⟩ := scaling_keeps h
  dsimp only at e1 e2 e3 e4
  obtain ⟨l1, l2⟩ := loop_snoc.1 hfs
  obtain ⟨a1, a2⟩ := tableCount_ok ha
  obtain ⟨b1, b2⟩ := tableCount_ok hb
  have hw : d.phases.water = true → ∃ ts, d.swof = some ts ∧ ex ≤ ts.length ∧ ts.length = n := fun q => by
    obtain ⟨ts, t1, t2, rfl⟩ := a1 q
    refine ⟨ts, t1, t2, ?_⟩
    unfold countTables at hn
    cases b with
    | none => exact Except.ok.inj hn
    | some m =>
      dsimp only at hn
      split at hn
      · cases hn
      · exact Except.ok.inj hn
  have hg' : d.phases.gas = true → ∃ ts, d.sgof = some ts ∧ ex ≤ ts.length ∧ ts.length = n := fun q => by
    obtain ⟨ts, t1, t2, rfl⟩ := b1 q
    refine ⟨ts, t1, t2, ?_⟩
    unfold countTables at hn
    cases a with
    | none => exact Except.ok.inj hn
    | some m =>
      dsimp only at hn
      split at hn
      · cases hn
      · next e => rw [not_not] at e; rw [← e]; exact Except.ok.inj hn
  have hex : ex ≤ n := by
    rcases Bool.or_eq_true _ _ ▸ wg with q | q
    · obtain ⟨ts, _, t2, t3⟩ := hw q; omega
    · obtain ⟨ts, _, t2, t3⟩ := hg' q; omega
  refine ⟨e1, o, wg, e2, fun q => ?_, fun q => ?_, fun t f hf => ?_, fun q => ?_, fun sn q => ?_⟩
  · obtain ⟨ts, t1, _, t3⟩ := hw q
    exact ⟨ts, t1, by rw [e3, l1, t3]⟩
  · obtain ⟨ts, t1, _, t3⟩ := hg' q
    exact ⟨ts, t1, by rw [e3, l1, t3]⟩
  · rw [e3] at hf
    rw [e2]
    exact l2 t f hf
  · unfold regions at hr
    rw [q] at hr
    cases hr
    refine ⟨by rw [e3, l1]; omega, fun c => ?_⟩
    unfold SatProps.funcForCell
    rw [e4]
    rfl
  · unfold regions at hr
    rw [q] at hr
    dsimp only at hr
    obtain ⟨m, hm, hr⟩ := bind_eq_ok.1 hr
    obtain ⟨l, hl, hr⟩ := bind_eq_ok.1 hr
    obtain ⟨r1, r2⟩ := Prod.mk.inj (Except.ok.inj hr)
    subst r1 r2
    have hmax := maxElement_le hm
    rw [show (fun cell l => do
        let pos ← g.deckPos cell
        let v ← rd sn pos
        Except.ok (l ++ [v - 1])) = fun (cell : Nat) (l : List Int) => (g.deckPos cell >>= fun pos => rd sn pos >>= fun v => .ok (v - 1)) >>= fun v => .ok (l ++ [v]) by
      funext c l
      rw [bind_assoc']
      refine bind_congr' fun pos => ?_
      rw [bind_assoc']
      rfl] at hl
    obtain ⟨q1, q2⟩ := loop_snoc.1 hl
    refine ⟨fun x hx => le_trans (hmax x hx) (by rw [e3, l1]; exact hex), fun c hcc => ?_⟩
    have hlc : l[c]? = some (l[c]'(by omega)) := List.getElem?_eq_getElem _
    obtain ⟨pos, hpos, r⟩ := bind_eq_ok.1 (q2 c _ hlc)
    obtain ⟨v, hv, r⟩ := bind_eq_ok.1 r
    have r := Except.ok.inj r
    have fc : p.funcForCell c = rdI p.funcs (v - 1) := by
      unfold SatProps.funcForCell
      rw [e4, if_neg (by rw [List.isEmpty_iff]; intro e; rw [e] at q1; simp at q1; omega), rd_of_getElem? hlc, bind_ok, ← r]
    refine ⟨pos, v, hpos, rd_eq_ok.1 hv, fun v1 => ?_, fun v1 => ?_⟩
    · have vm := hmax v (List.mem_of_getElem? (rd_eq_ok.1 hv))
      have hlt : (v - 1).toNat < p.funcs.length := by rw [e3, l1]; omega
      refine ⟨_, List.getElem?_eq_getElem hlt, ?_⟩
      rw [fc]
      exact rdI_of_getElem? (by omega) (List.getElem?_eq_getElem hlt)
    · rw [fc]
      unfold rdI
      rw [if_pos (by omega)]

/-! ### Batches -/

/-- Relative permeabilities of a cell. -/
def SatProps.krCell (p : SatProps) (c : Nat) (s : List Rat) : M (List Rat) := p.krPoint s 0 c (List.replicate p.usage.num 0) 0

/-- Without scaling, they are those of the functions of the cell. -/
theorem krCell_unscaled {p : SatProps} (he : p.doEps = false) {c : Nat} {f : Funcs} (hf : p.funcForCell c = .ok f) (hu : f.usage = p.usage) (s : List Rat) : p.krCell c s = f.krAt p.kind s := by
  unfold SatProps.krCell SatProps.krPoint
  rw [he, if_neg (by decide), hf, bind_ok, ← hu]
  rfl

theorem func_mem {p : SatProps} {c : Nat} {f : Funcs} (h : p.funcForCell c = .ok f) : f ∈ p.funcs := by
  unfold SatProps.funcForCell at h
  split at h
  · exact List.mem_of_getElem? (rd_eq_ok.1 h)
  · obtain ⟨k, _, h⟩ := bind_eq_ok.1 h
    unfold rdI at h
    split at h
    · cases h
    · exact List.mem_of_getElem? (rd_eq_ok.1 h)

theorem drop_take_self {l : List Rat} {n : Nat} (h : l.length = n) : (l.drop 0).take n = l := by rw [List.drop_zero, ← h, List.take_length]

theorem krPoint_block {p : SatProps} {w g : Bool} (hu : p.usage = usageOf w g) (hwg : (w || g) = true) (hf : ∀ f ∈ p.funcs, f.usage = p.usage) (he : p.doEps = true → w = true ∧ g = false) {s kr : List Rat} {i j c : Nat}
    (hs : i + p.usage.num ≤ s.length) (hk : j + p.usage.num ≤ kr.length) :
    p.krPoint s i c kr j = p.krCell c ((s.drop i).take p.usage.num) >>= fun v => .ok (put kr j v) := by
  unfold SatProps.krCell SatProps.krPoint
  by_cases hd : p.doEps = true
  · obtain ⟨rfl, rfl⟩ := he hd
    have hn : p.usage.num = 2 := by rw [hu]; rfl
    rw [if_pos hd, if_pos hd]
    rw [hn] at hs hk ⊢
    obtain ⟨a, b, e, ea, eb, _⟩ := split2 hs
    unfold SatProps.relpermEPS
    rw [hu, show rd (usageOf true false).pos Aqua = .ok 0 from rfl, show rd (usageOf true false).pos Liquid = .ok 1 from rfl, bind_ok, bind_ok, bind_ok, bind_ok, e]
    cases hfc : p.funcForCell c with
    | error e => rfl
    | ok f =>
      have fu := (hf f (func_mem hfc)).trans hu
      have fn : f.usage.num = 2 := by rw [fu]; rfl
      rw [bind_ok, bind_ok, ea, eb, bind_ok, bind_ok, show rd [a, b] (0 + 0) = .ok a from rfl, show rd [a, b] (0 + 1) = .ok b from rfl, bind_ok, bind_ok]
      cases p.waterScale f c with
      | error e => rfl
      | ok cw =>
      cases p.oilScale f c with
      | error e => rfl
      | ok co =>
      rw [bind_ok, bind_ok, bind_ok, bind_ok]
      cases cw.sat (!(p.eps.swcr.isEmpty && p.eps.swu.isEmpty)) p.do3pt a with
      | error e => rfl
      | ok ssw =>
      cases co.sat (!(p.eps.sowcr.isEmpty && p.eps.swl.isEmpty)) p.do3pt b with
      | error e => rfl
      | ok sso =>
      rw [bind_ok, bind_ok, bind_ok, bind_ok, show wr (List.replicate 3 (0 : Rat)) 0 ssw = .ok [ssw, 0, 0] from rfl, bind_ok, bind_ok, show wr [ssw, 0, 0] 1 sso = .ok [ssw, sso, 0] from rfl, bind_ok, bind_ok,
        evalKr_block fu rfl p.kind (by rw [fn]; simp) (by rw [fn]; exact hk), evalKr_block fu rfl p.kind (s := [ssw, sso, 0]) (kr := List.replicate 2 0) (by rw [fn]; simp) (by rw [fn]; simp)]
      cases hkr : f.krAt p.kind (List.take f.usage.num (List.drop 0 [ssw, sso, 0])) with
      | error e => rfl
      | ok v =>
      have hv := krAt_length fu rfl (by rw [fn]; rfl) hkr
      rw [fn] at hv
      obtain ⟨x, y, rfl⟩ := List.length_eq_two.1 hv
      rw [bind_ok, bind_ok, bind_ok, bind_ok, rd_put (m := [x, y]) hk (j := 0) (by simp), show put (List.replicate 2 0) 0 [x, y] = [x, y] from rfl, show rd [x, y] (0 + 0) = .ok x from rfl, bind_ok, bind_ok]
      cases cw.value p.do3pt (!p.eps.kro.isEmpty) p.eps.krw p.eps.krwr c a x with
      | error e => rfl
      | ok x' =>
      rw [bind_ok, bind_ok, wr_put20 hk, bind_ok, show wr [x, y] (0 + 0) x' = .ok [x', y] from rfl, bind_ok, rd_put (m := [x', y]) hk (j := 1) (by simp), show rd [x', y] (0 + 1) = .ok y from rfl, bind_ok, bind_ok]
      cases co.value p.do3pt (!p.eps.kro.isEmpty) p.eps.kro p.eps.krorw c b y with
      | error e => rfl
      | ok y' =>
      rw [bind_ok, bind_ok, wr_put21 hk]
      rfl
  · rw [if_neg hd, if_neg hd]
    cases hfc : p.funcForCell c with
    | error e => rfl
    | ok f =>
      have e := hf f (func_mem hfc)
      have fu := e.trans hu
      rw [bind_ok, bind_ok]
      rw [← e] at hs hk ⊢
      rw [evalKr_block fu hwg p.kind hs hk]
      rfl

theorem krCell_length {p : SatProps} {w g : Bool} (hu : p.usage = usageOf w g) (hwg : (w || g) = true) (hf : ∀ f ∈ p.funcs, f.usage = p.usage) (he : p.doEps = true → w = true ∧ g = false) {c : Nat} {s v : List Rat} (hs : s.length = p.usage.num)
    (h : p.krCell c s = .ok v) : v.length = p.usage.num := by
  unfold SatProps.krCell SatProps.krPoint at h
  by_cases hd : p.doEps = true
  · obtain ⟨rfl, rfl⟩ := he hd
    have hn : p.usage.num = 2 := by rw [hu]; rfl
    rw [if_pos hd] at h
    unfold SatProps.relpermEPS at h
    obtain ⟨_, _, h⟩ := bind_eq_ok.1 h
    obtain ⟨_, _, h⟩ := bind_eq_ok.1 h
    obtain ⟨f, hfc, h⟩ := bind_eq_ok.1 h
    obtain ⟨_, _, h⟩ := bind_eq_ok.1 h
    obtain ⟨_, _, h⟩ := bind_eq_ok.1 h
    obtain ⟨_, _, h⟩ := bind_eq_ok.1 h
    obtain ⟨_, _, h⟩ := bind_eq_ok.1 h
    obtain ⟨_, _, h⟩ := bind_eq_ok.1 h
    obtain ⟨_, _, h⟩ := bind_eq_ok.1 h
    obtain ⟨ss, h0, h⟩ := bind_eq_ok.1 h
    obtain ⟨ss', h0', h⟩ := bind_eq_ok.1 h
    obtain ⟨_, rfl⟩ := wr_eq_ok.1 h0
    obtain ⟨_, rfl⟩ := wr_eq_ok.1 h0'
    obtain ⟨kr, h1, h⟩ := bind_eq_ok.1 h
    obtain ⟨_, _, h⟩ := bind_eq_ok.1 h
    obtain ⟨_, _, h⟩ := bind_eq_ok.1 h
    obtain ⟨kr1, h2, h⟩ := bind_eq_ok.1 h
    obtain ⟨_, _, h⟩ := bind_eq_ok.1 h
    obtain ⟨_, _, h⟩ := bind_eq_ok.1 h
    obtain ⟨_, rfl⟩ := wr_eq_ok.1 h
    obtain ⟨_, rfl⟩ := wr_eq_ok.1 h2
    have fu := (hf f (func_mem hfc)).trans hu
    have fn : f.usage.num = 2 := by rw [fu]; rfl
    rw [evalKr_block fu rfl p.kind (by rw [fn]; simp) (by rw [fn, hn]; simp)] at h1
    obtain ⟨u, hk, h1⟩ := bind_eq_ok.1 h1
    have hv := krAt_length fu rfl (by rw [fn]; simp) hk
    have h1 := Except.ok.inj h1
    rw [List.length_set, List.length_set, ← h1, put_length (by rw [hv, fn, hn]; simp), List.length_replicate]
  · rw [if_neg hd] at h
    obtain ⟨f, hfc, h⟩ := bind_eq_ok.1 h
    have e := hf f (func_mem hfc)
    rw [← e] at h hs ⊢
    exact krAt_length (e.trans hu) hwg hs h

/-- A batch of points: each one gets the relative permeabilities of its cell, and nothing else changes.  `block` is the part of an array which belongs to a point. -/
theorem relperm_batch {p : SatProps} {w g : Bool} (hu : p.usage = usageOf w g) (hwg : (w || g) = true) (hf : ∀ f ∈ p.funcs, f.usage = p.usage) (he : p.doEps = true → w = true ∧ g = false) {n : Nat} {s kr : List Rat} {cells : List Nat}
    (hs : s.length = n * p.usage.num) (hk : kr.length = n * p.usage.num) (hc : cells.length = n) (t : List Rat) :
    p.relperm n s cells kr = .ok t ↔ t.length = kr.length ∧ ∀ i, i < n → ∃ c, cells[i]? = some c ∧ p.krCell c (block p.usage.num i s) = .ok (block p.usage.num i t) := by
  have key : p.relperm n s cells kr = .ok t ↔ t.length = kr.length ∧ ∀ i, i < n → (rd cells i >>= fun c => p.krCell c (block p.usage.num i s)) = .ok (block p.usage.num i t) := by
    refine loop_put hk _ (fun i v hi h => ?_) (fun i t hi ht => ?_) t
    · obtain ⟨c, _, h⟩ := bind_eq_ok.1 h
      exact krCell_length hu hwg hf he (block_length hs hi) h
    · have q : ∀ {l : List Rat}, l.length = n * p.usage.num → p.usage.num * i + p.usage.num ≤ l.length := fun {l} e => by
        have : (i + 1) * p.usage.num ≤ n * p.usage.num := Nat.mul_le_mul_right _ hi
        rw [Nat.succ_mul, Nat.mul_comm i] at this
        omega
      rw [rd_of_getElem? (List.getElem?_eq_getElem (by omega : i < cells.length)), bind_ok, bind_ok]
      exact krPoint_block hu hwg hf he (q hs) (q (ht.trans hk))
  rw [key]
  refine and_congr_right fun _ => forall_congr' fun i => forall_congr' fun hi => ?_
  rw [bind_eq_ok]
  exact exists_congr fun c => by rw [rd_eq_ok]

/-- The same with derivatives, which are available without scaling. -/
theorem relperm_deriv_batch {p : SatProps} {w g : Bool} (hu : p.usage = usageOf w g) (hwg : (w || g) = true) (hf : ∀ f ∈ p.funcs, f.usage = p.usage) (he : p.doEps = false) {n : Nat} {s kr d : List Rat} {cells : List Nat}
    (hs : s.length = n * p.usage.num) (hk : kr.length = n * p.usage.num) (hd : d.length = n * (p.usage.num * p.usage.num)) (hc : cells.length = n) (t m : List Rat) :
    p.relpermDeriv n s cells kr d = .ok (t, m) ↔ t.length = kr.length ∧ m.length = d.length ∧
      ∀ i, i < n → ∃ c f, cells[i]? = some c ∧ p.funcForCell c = .ok f ∧ f.dkrAt p.kind (block p.usage.num i s) = .ok (block p.usage.num i t, block (p.usage.num * p.usage.num) i m) := by
  have key : p.relpermDeriv n s cells kr d = .ok (t, m) ↔ t.length = kr.length ∧ m.length = d.length ∧
      ∀ i, i < n → (rd cells i >>= fun c => p.funcForCell c >>= fun f => f.dkrAt p.kind (block p.usage.num i s)) = .ok (block p.usage.num i t, block (p.usage.num * p.usage.num) i m) := by
    refine loop_put2 hk hd _ (fun i v hi h => ?_) (fun i t u hi ht hu' => ?_) t m
    · obtain ⟨c, _, h⟩ := bind_eq_ok.1 h
      obtain ⟨f, hfc, h⟩ := bind_eq_ok.1 h
      have e := hf f (func_mem hfc)
      have := (dkrAt_length (e.trans hu) hwg (by rw [e]; exact block_length hs hi) h).2
      rwa [e] at this
    · have q : ∀ {l : List Rat} {K : Nat}, l.length = n * K → K * i + K ≤ l.length := fun {l K} e => by
        have : (i + 1) * K ≤ n * K := Nat.mul_le_mul_right _ hi
        rw [Nat.succ_mul, Nat.mul_comm i] at this
        omega
      rw [rd_of_getElem? (List.getElem?_eq_getElem (by omega : i < cells.length)), bind_ok, bind_ok]
      unfold SatProps.dkrPoint
      rw [he, if_neg (by decide)]
      cases hfc : p.funcForCell _ with
      | error e => rfl
      | ok f =>
        have e := hf f (func_mem hfc)
        rw [bind_ok, bind_ok]
        unfold block
        rw [← e, evalKrDeriv_block (e.trans hu) hwg p.kind (by rw [e]; exact q hs) (by rw [e]; exact q (ht.trans hk)) (by rw [e]; exact q (hu'.trans hd))]
  rw [key]
  refine and_congr_right fun _ => and_congr_right fun _ => forall_congr' fun i => forall_congr' fun hi => ?_
  rw [bind_eq_ok]
  refine exists_congr fun c => ?_
  rw [rd_eq_ok, bind_eq_ok]
  exact ⟨fun ⟨a, f, b, c⟩ => ⟨f, a, b, c⟩, fun ⟨f, a, b, c⟩ => ⟨a, f, b, c⟩⟩

/-- With scaling, derivatives are refused. -/
theorem relperm_deriv_scaled {p : SatProps} (he : p.doEps = true) {n : Nat} (hn : 0 < n) {s kr d : List Rat} {cells : List Nat} (hc : cells.length = n) : p.relpermDeriv n s cells kr d = .error .thrown := by
  unfold SatProps.relpermDeriv
  obtain ⟨m, rfl⟩ : ∃ m, n = m + 1 := ⟨n - 1, by omega⟩
  have : ∀ m, m + 1 ≤ cells.length → loop (m + 1) (fun i r => do
      let c ← rd cells i
      p.dkrPoint s (p.usage.num * i) c r.1 (p.usage.num * i) r.2 (p.usage.num * p.usage.num * i)) (kr, d) = .error .thrown := by
    intro m
    induction m with
    | zero =>
      intro h
      rw [loop_succ, loop_zero, bind_ok, rd_of_getElem? (List.getElem?_eq_getElem (by omega : 0 < cells.length)), bind_ok]
      unfold SatProps.dkrPoint
      rw [he, if_pos rfl]
    | succ m ih =>
      intro h
      rw [loop_succ, ih (by omega)]
      rfl
  exact this m (by omega)

/-- Capillary pressures of a batch of points. -/
theorem cap_press_batch {p : SatProps} {w g : Bool} (hu : p.usage = usageOf w g) (hwg : (w || g) = true) (hf : ∀ f ∈ p.funcs, f.usage = p.usage) {n : Nat} {s pc d : List Rat} {cells : List Nat}
    (hs : s.length = n * p.usage.num) (hk : pc.length = n * p.usage.num) (hd : d.length = n * (p.usage.num * p.usage.num)) (hc : cells.length = n) (t m : List Rat) :
    p.capPress true n s cells pc d = .ok (t, m) ↔ t.length = pc.length ∧ m.length = d.length ∧
      ∀ i, i < n → ∃ c f, cells[i]? = some c ∧ p.funcForCell c = .ok f ∧ f.dpcAt (block p.usage.num i s) = .ok (block p.usage.num i t, block (p.usage.num * p.usage.num) i m) := by
  have key : p.capPress true n s cells pc d = .ok (t, m) ↔ t.length = pc.length ∧ m.length = d.length ∧
      ∀ i, i < n → (rd cells i >>= fun c => p.funcForCell c >>= fun f => f.dpcAt (block p.usage.num i s)) = .ok (block p.usage.num i t, block (p.usage.num * p.usage.num) i m) := by
    refine loop_put2 hk hd _ (fun i v hi h => ?_) (fun i t u hi ht hu' => ?_) t m
    · obtain ⟨c, _, h⟩ := bind_eq_ok.1 h
      obtain ⟨f, hfc, h⟩ := bind_eq_ok.1 h
      have e := hf f (func_mem hfc)
      have := (dpcAt_length (e.trans hu) hwg (by rw [e]; exact block_length hs hi) h).2
      rwa [e] at this
    · have q : ∀ {l : List Rat} {K : Nat}, l.length = n * K → K * i + K ≤ l.length := fun {l K} e => by
        have : (i + 1) * K ≤ n * K := Nat.mul_le_mul_right _ hi
        rw [Nat.succ_mul, Nat.mul_comm i] at this
        omega
      rw [rd_of_getElem? (List.getElem?_eq_getElem (by omega : i < cells.length)), bind_ok, bind_ok]
      cases hfc : p.funcForCell _ with
      | error e => rfl
      | ok f =>
        have e := hf f (func_mem hfc)
        rw [bind_ok, bind_ok]
        unfold block
        rw [← e, evalPcDeriv_block (e.trans hu) hwg (by rw [e]; exact q hs) (by rw [e]; exact q (ht.trans hk)) (by rw [e]; exact q (hu'.trans hd))]
  rw [key]
  refine and_congr_right fun _ => and_congr_right fun _ => forall_congr' fun i => forall_congr' fun hi => ?_
  rw [bind_eq_ok]
  refine exists_congr fun c => ?_
  rw [rd_eq_ok, bind_eq_ok]
  exact ⟨fun ⟨a, f, b, c⟩ => ⟨f, a, b, c⟩, fun ⟨f, a, b, c⟩ => ⟨a, f, b, c⟩⟩

/-- Capillary pressures without derivatives; the array for derivatives stays as it is. -/
theorem cap_press_values {p : SatProps} {w g : Bool} (hu : p.usage = usageOf w g) (hwg : (w || g) = true) (hf : ∀ f ∈ p.funcs, f.usage = p.usage) {n : Nat} {s pc d : List Rat} {cells : List Nat}
    (hs : s.length = n * p.usage.num) (hk : pc.length = n * p.usage.num) (t m : List Rat) :
    p.capPress false n s cells pc d = .ok (t, m) ↔ m = d ∧ t.length = pc.length ∧
      ∀ i, i < n → ∃ c f, cells[i]? = some c ∧ p.funcForCell c = .ok f ∧ f.pcAt (block p.usage.num i s) = .ok (block p.usage.num i t) := by
  have red : p.capPress false n s cells pc d = loop n (fun i t => rd cells i >>= fun c => p.funcForCell c >>= fun f => f.pcAt (block p.usage.num i s) >>= fun v => .ok (put t (p.usage.num * i) v)) pc >>= fun t => .ok (t, d) := by
    have : ∀ k, k ≤ n → loop k (fun i r => do
        let c ← rd cells i
        let f ← p.funcForCell c
        f.evalPc false s (p.usage.num * i) r.1 (p.usage.num * i) r.2 (p.usage.num * p.usage.num * i)) (pc, d) =
        (loop k (fun i t => rd cells i >>= fun c => p.funcForCell c >>= fun f => f.pcAt (block p.usage.num i s) >>= fun v => .ok (put t (p.usage.num * i) v)) pc >>= fun t => .ok (t, d)) ∧
        ∀ t, loop k (fun i t => rd cells i >>= fun c => p.funcForCell c >>= fun f => f.pcAt (block p.usage.num i s) >>= fun v => .ok (put t (p.usage.num * i) v)) pc = .ok t → t.length = pc.length := by
      intro k
      induction k with
      | zero => intro _; rw [loop_zero, loop_zero]; exact ⟨rfl, fun t h => by cases h; rfl⟩
      | succ k ih =>
        intro hk'
        have q : ∀ {l : List Rat} {K : Nat}, l.length = n * K → K * k + K ≤ l.length := fun {l K} e => by
          have : (k + 1) * K ≤ n * K := Nat.mul_le_mul_right _ hk'
          rw [Nat.succ_mul, Nat.mul_comm k] at this
          omega
        obtain ⟨i1, i2⟩ := ih (by omega)
        rw [loop_succ, loop_succ, i1, bind_assoc', bind_assoc']
        constructor
        · cases hl : loop k (fun i t => rd cells i >>= fun c => p.funcForCell c >>= fun f => f.pcAt (block p.usage.num i s) >>= fun v => .ok (put t (p.usage.num * i) v)) pc with
          | error e => rfl
          | ok t =>
            have tl := i2 t hl
            rw [bind_ok, bind_ok, bind_ok, bind_assoc']
            refine bind_congr' fun c => ?_
            rw [bind_assoc']
            cases hfc : p.funcForCell c with
            | error e => rfl
            | ok f =>
              have e := hf f (func_mem hfc)
              rw [bind_ok, bind_ok, bind_assoc']
              unfold block
              rw [← e, evalPc_block (e.trans hu) hwg (by rw [e]; exact q hs) (by rw [e]; exact q (tl.trans hk))]
              rfl
        · intro t h
          obtain ⟨t', h1, h⟩ := bind_eq_ok.1 h
          obtain ⟨c, _, h⟩ := bind_eq_ok.1 h
          obtain ⟨f, hfc, h⟩ := bind_eq_ok.1 h
          obtain ⟨v, hv, h⟩ := bind_eq_ok.1 h
          have h := Except.ok.inj h
          have e := hf f (func_mem hfc)
          have vl := pcAt_length (e.trans hu) hwg (by rw [e]; exact block_length hs (by omega)) hv
          rw [← h, put_length (by rw [vl, e, i2 t' h1]; exact q hk), i2 t' h1]
    exact (this n (le_refl _)).1
  have key := loop_put hk (fun i => rd cells i >>= fun c => p.funcForCell c >>= fun f => f.pcAt (block p.usage.num i s)) (f := fun i t => rd cells i >>= fun c => p.funcForCell c >>= fun f => f.pcAt (block p.usage.num i s) >>= fun v => .ok (put t (p.usage.num * i) v))
    (fun i v hi h => by
      obtain ⟨c, _, h⟩ := bind_eq_ok.1 h
      obtain ⟨f, hfc, h⟩ := bind_eq_ok.1 h
      have e := hf f (func_mem hfc)
      have := pcAt_length (e.trans hu) hwg (by rw [e]; exact block_length hs hi) h
      rwa [e] at this)
    (fun i t hi _ => by
      rw [bind_assoc']
      refine bind_congr' fun c => ?_
      rw [bind_assoc']) t
  rw [red, bind_eq_ok]
  constructor
  · rintro ⟨t', h1, h2⟩
    obtain ⟨rfl, rfl⟩ := Prod.mk.inj (Except.ok.inj h2)
    obtain ⟨k1, k2⟩ := key.1 h1
    refine ⟨rfl, k1, fun i hi => ?_⟩
    obtain ⟨c, hc, h⟩ := bind_eq_ok.1 (k2 i hi)
    obtain ⟨f, hfc, h⟩ := bind_eq_ok.1 h
    exact ⟨c, f, rd_eq_ok.1 hc, hfc, h⟩
  · rintro ⟨rfl, k1, k2⟩
    refine ⟨t, key.2 ⟨k1, fun i hi => ?_⟩, rfl⟩
    obtain ⟨c, f, hc, hfc, h⟩ := k2 i hi
    rw [rd_of_getElem? hc, bind_ok, hfc, bind_ok, h]

/-- The range of saturations of a batch of points. -/
theorem sat_range_batch {p : SatProps} {w g : Bool} (hu : p.usage = usageOf w g) (hwg : (w || g) = true) (hf : ∀ f ∈ p.funcs, f.smin.length = 3 ∧ f.smax.length = 3) {n : Nat} {a b : List Rat} {cells : List Nat}
    (ha : a.length = n * p.usage.num) (hb : b.length = n * p.usage.num) (hc : cells.length = n) (t u : List Rat) :
    p.satRange n cells a b = .ok (t, u) ↔ t.length = a.length ∧ u.length = b.length ∧
      ∀ i, i < n → ∃ c f, cells[i]? = some c ∧ p.funcForCell c = .ok f ∧ block p.usage.num i t = f.smin.take p.usage.num ∧ block p.usage.num i u = f.smax.take p.usage.num := by
  have np : p.usage.num = 2 ∨ p.usage.num = 3 := by
    rw [hu]
    rcases w <;> rcases g
    · simp at hwg
    · exact Or.inl rfl
    · exact Or.inl rfl
    · exact Or.inr rfl
  have key : p.satRange n cells a b = .ok (t, u) ↔ t.length = a.length ∧ u.length = b.length ∧
      ∀ i, i < n → (rd cells i >>= fun c => p.funcForCell c >>= fun f => .ok (f.smin.take p.usage.num, f.smax.take p.usage.num)) = .ok (block p.usage.num i t, block p.usage.num i u) := by
    refine loop_put2 ha hb _ (fun i v hi h => ?_) (fun i t u hi ht hu' => ?_) t u
    · obtain ⟨c, _, h⟩ := bind_eq_ok.1 h
      obtain ⟨f, hfc, h⟩ := bind_eq_ok.1 h
      obtain ⟨q1, q2⟩ := hf f (func_mem hfc)
      cases h
      constructor
      · rw [List.length_take, q1]; omega
      · rw [List.length_take, q2]; omega
    · have q : ∀ {l : List Rat} {K : Nat}, l.length = n * K → K * i + K ≤ l.length := fun {l K} e => by
        have : (i + 1) * K ≤ n * K := Nat.mul_le_mul_right _ hi
        rw [Nat.succ_mul, Nat.mul_comm i] at this
        omega
      obtain ⟨c, hcc⟩ : ∃ c, cells[i]? = some c := ⟨_, List.getElem?_eq_getElem (by omega)⟩
      simp only [rd_of_getElem? hcc, bind_ok]
      have qt := q (ht.trans ha)
      have qu := q (hu'.trans hb)
      obtain ⟨K, hK⟩ : ∃ K, p.usage.num = K + 1 := ⟨p.usage.num - 1, by omega⟩
      cases hfc : p.funcForCell c with
      | error e =>
        rw [bind_error, bind_error]
        have : ∀ k, loop (k + 1) (fun ph r => do
            let f ← p.funcForCell c
            let a ← rd f.smin ph
            let x ← wr r.1 (p.usage.num * i + ph) a
            let b ← rd f.smax ph
            let y ← wr r.2 (p.usage.num * i + ph) b
            .ok (x, y)) (t, u) = .error e := by
          intro k
          induction k with
          | zero => rw [loop_succ, loop_zero, bind_ok, hfc, bind_error]
          | succ k ih => rw [loop_succ, ih, bind_error]
        simp only [hfc] at this
        rw [hK] at this ⊢
        exact this K
      | ok f =>
        obtain ⟨q1, q2⟩ := hf f (func_mem hfc)
        obtain ⟨x, y, z, e1⟩ := List.length_eq_three.1 q1
        obtain ⟨x', y', z', e2⟩ := List.length_eq_three.1 q2
        rw [bind_ok, bind_ok, e1, e2, loop_congr (g := fun ph r => do
            let a ← rd [x, y, z] ph
            let x ← wr r.1 (p.usage.num * i + ph) a
            let b ← rd [x', y', z'] ph
            let y ← wr r.2 (p.usage.num * i + ph) b
            .ok (x, y)) (fun ph r _ => by rw [bind_ok, e1, e2])]
        rcases np with hn | hn
        · rw [hn] at qt qu ⊢
          obtain ⟨a0, b0, _, _, _, et⟩ := split2 qt
          obtain ⟨a1, b1, _, _, _, eu⟩ := split2 qu
          rw [show loop 2 (fun ph r => do
            let a ← rd [x, y, z] ph
            let x ← wr r.1 (2 * i + ph) a
            let b ← rd [x', y', z'] ph
            let y ← wr r.2 (2 * i + ph) b
            Except.ok (x, y)) (t, u) = loop 2 (fun ph r => do
            let a ← rd [x, y, z] ph
            let x ← wr r.1 (2 * i + ph) a
            let b ← rd [x', y', z'] ph
            let y ← wr r.2 (2 * i + ph) b
            Except.ok (x, y)) (put t (2 * i) [a0, b0], put u (2 * i) [a1, b1]) by rw [et, eu]]
          rw [loop_succ, loop_succ, loop_zero, bind_ok, show rd [x, y, z] 0 = .ok x from rfl, bind_ok, show rd [x', y', z'] 0 = .ok x' from rfl]
          dsimp only
          rw [wr_put20 qt, bind_ok, bind_ok, wr_put20 qu, bind_ok, bind_ok]
          dsimp only
          rw [show rd [x, y, z] 1 = .ok y from rfl, bind_ok, show rd [x', y', z'] 1 = .ok y' from rfl, wr_put21 qt, bind_ok, bind_ok, wr_put21 qu, bind_ok]
          rfl
        · rw [hn] at qt qu ⊢
          obtain ⟨a0, b0, c0, _, _, _, _, et⟩ := split3 qt
          obtain ⟨a1, b1, c1, _, _, _, _, eu⟩ := split3 qu
          rw [show loop 3 (fun ph r => do
            let a ← rd [x, y, z] ph
            let x ← wr r.1 (3 * i + ph) a
            let b ← rd [x', y', z'] ph
            let y ← wr r.2 (3 * i + ph) b
            Except.ok (x, y)) (t, u) = loop 3 (fun ph r => do
            let a ← rd [x, y, z] ph
            let x ← wr r.1 (3 * i + ph) a
            let b ← rd [x', y', z'] ph
            let y ← wr r.2 (3 * i + ph) b
            Except.ok (x, y)) (put t (3 * i) [a0, b0, c0], put u (3 * i) [a1, b1, c1]) by rw [et, eu]]
          rw [loop_succ, loop_succ, loop_succ, loop_zero, bind_ok, show rd [x, y, z] 0 = .ok x from rfl, bind_ok, show rd [x', y', z'] 0 = .ok x' from rfl]
          dsimp only
          rw [wr_put30 qt, bind_ok, bind_ok, wr_put30 qu, bind_ok, bind_ok]
          dsimp only
          rw [show rd [x, y, z] 1 = .ok y from rfl, bind_ok, show rd [x', y', z'] 1 = .ok y' from rfl, wr_put31 qt, bind_ok, bind_ok, wr_put31 qu, bind_ok, bind_ok]
          dsimp only
          rw [show rd [x, y, z] 2 = .ok z from rfl, bind_ok, show rd [x', y', z'] 2 = .ok z' from rfl, wr_put32 qt, bind_ok, bind_ok, wr_put32 qu, bind_ok]
          rfl
  rw [key]
  refine and_congr_right fun _ => and_congr_right fun _ => forall_congr' fun i => forall_congr' fun hi => ?_
  rw [bind_eq_ok]
  refine exists_congr fun c => ?_
  rw [rd_eq_ok, bind_eq_ok]
  constructor
  · rintro ⟨a, f, b, c⟩
    obtain ⟨r1, r2⟩ := Prod.mk.inj (Except.ok.inj c)
    exact ⟨f, a, b, r1.symm, r2.symm⟩
  · rintro ⟨f, a, b, c, d⟩
    exact ⟨a, f, b, by rw [c, d]⟩

end Opm.SatFunc
