import Verif.Props.SatProps
import Verif.Props.SatThree
import Verif.Spec.EndPoints
/-!
# End-point scaling
-/

namespace Opm.SatFunc
open Opm Opm.Interp Opm.Pvt Opm.Blackoil Opm.Rock

/-! ### Scaling of saturations -/

/-- Two-point scaling: constant up to the critical saturation of the cell and from its maximum on, where it gives those of the table; straight between; never decreasing. -/
theorem two_point_map {tcr tmax cr mx : Rat} (h : cr < mx) (ht : tcr ≤ tmax) : ∃ F : Rat → Rat, (∀ s, scaleTwo s tcr tmax cr mx = .ok (F s)) ∧ (∀ s, s ≤ cr → F s = tcr) ∧ (∀ s, mx ≤ s → F s = tmax) ∧
    (∀ w, 0 ≤ w → w ≤ 1 → F ((1 - w) * cr + w * mx) = (1 - w) * tcr + w * tmax) ∧ (∀ s s', s ≤ s' → F s ≤ F s') ∧ (tcr < tmax → ∀ s, cr < s → tcr < F s) := by
  have d : mx - cr ≠ 0 := by intro e; linarith
  have dp : 0 < mx - cr := by linarith
  refine ⟨fun s => if s ≤ cr then tcr else if mx ≤ s then tmax else tcr + (s - cr) * (tmax - tcr) / (mx - cr), fun s => ?_, fun s hs => if_pos hs, fun s hs => ?_, fun w w0 w1 => ?_, fun s s' hs => ?_, fun hlt s hs => ?_⟩
  · unfold scaleTwo
    dsimp only
    split
    · rfl
    · split
      · rfl
      · rw [fdiv_ok d, bind_ok]
  · dsimp only
    rw [if_neg (by linarith), if_pos hs]
  · dsimp only
    split
    · next q =>
      have : w * (mx - cr) ≤ 0 := by linarith
      have w' : w = 0 := le_antisymm (by by_contra c; push Not at c; have := mul_pos c dp; linarith) w0
      rw [w']; ring
    · split
      · next q =>
        have : (1 - w) * (mx - cr) ≤ 0 := by linarith
        have w' : w = 1 := le_antisymm w1 (by by_contra c; push Not at c; have := mul_pos (by linarith : 0 < 1 - w) dp; linarith)
        rw [w']; ring
      · field_simp; ring
  · dsimp only
    have pos : 0 ≤ (tmax - tcr) / (mx - cr) := div_nonneg (by linarith) (le_of_lt dp)
    have up : ∀ s, s ≤ mx → tcr + (s - cr) * (tmax - tcr) / (mx - cr) ≤ tmax := fun s h' => by
      have := mul_le_mul_of_nonneg_right (by linarith : s - cr ≤ mx - cr) pos
      rw [mul_div_cancel₀ _ d] at this
      rw [mul_div_assoc]
      linarith
    have lo : ∀ s, cr ≤ s → tcr ≤ tcr + (s - cr) * (tmax - tcr) / (mx - cr) := fun s h' => by
      have := mul_nonneg (by linarith : 0 ≤ s - cr) pos
      rw [mul_div_assoc]
      linarith
    split
    · split
      · exact le_refl _
      · split
        · exact ht
        · exact lo s' (by linarith)
    · split
      · rw [if_neg (by linarith), if_pos (by linarith)]
      · rw [if_neg (by linarith)]
        split
        · exact up s (by linarith)
        · have := mul_le_mul_of_nonneg_right (by linarith : s - cr ≤ s' - cr) pos
          rw [mul_div_assoc, mul_div_assoc]
          linarith
  · dsimp only
    rw [if_neg (by linarith)]
    split
    · exact hlt
    · have := div_pos (mul_pos (by linarith : 0 < s - cr) (by linarith : 0 < tmax - tcr)) dp
      linarith

/-- Three-point scaling: as before, but the saturation where the other phase becomes immobile is kept, too, and the function is straight on both sides of it. -/
theorem three_point_map {tcr tr tmax cr r mx : Rat} (h : cr < r) (hr : r < mx ∨ (r = mx ∧ tr = tmax)) (ht : tcr ≤ tr) (ht' : tr ≤ tmax) : ∃ F : Rat → Rat, (∀ s, scaleThree s tcr tr tmax cr r mx = .ok (F s)) ∧
    (∀ s, s ≤ cr → F s = tcr) ∧ F r = tr ∧ (∀ s, mx ≤ s → F s = tmax) ∧ (∀ w, 0 ≤ w → w ≤ 1 → F ((1 - w) * cr + w * r) = (1 - w) * tcr + w * tr) ∧ (∀ w, 0 ≤ w → w ≤ 1 → F ((1 - w) * r + w * mx) = (1 - w) * tr + w * tmax) ∧
    (∀ s s', s ≤ s' → F s ≤ F s') ∧ (tcr < tr → ∀ s, cr < s → tcr < F s) := by
  have d : r - cr ≠ 0 := by intro e; linarith
  have dp : 0 < r - cr := by linarith
  have rm : r ≤ mx := by rcases hr with q | ⟨q, _⟩ <;> linarith
  have pos : 0 ≤ (tr - tcr) / (r - cr) := div_nonneg (by linarith) (le_of_lt dp)
  have pos' : 0 ≤ (tmax - tr) / (mx - r) := div_nonneg (by linarith) (by linarith)
  have up : ∀ s, s ≤ r → tcr + (s - cr) * (tr - tcr) / (r - cr) ≤ tr := fun s h' => by
    have := mul_le_mul_of_nonneg_right (by linarith : s - cr ≤ r - cr) pos
    rw [mul_div_cancel₀ _ d] at this
    rw [mul_div_assoc]
    linarith
  have lo : ∀ s, cr ≤ s → tcr ≤ tcr + (s - cr) * (tr - tcr) / (r - cr) := fun s h' => by
    have := mul_nonneg (by linarith : 0 ≤ s - cr) pos
    rw [mul_div_assoc]
    linarith
  have lo' : ∀ s, r ≤ s → tr ≤ tr + (s - r) * (tmax - tr) / (mx - r) := fun s h' => by
    have := mul_nonneg (by linarith : 0 ≤ s - r) pos'
    rw [mul_div_assoc]
    linarith
  have up' : ∀ s, r < s → s < mx → tr + (s - r) * (tmax - tr) / (mx - r) ≤ tmax := fun s h0 h' => by
    have := mul_le_mul_of_nonneg_right (by linarith : s - r ≤ mx - r) pos'
    rw [mul_div_cancel₀ _ (by intro e; linarith)] at this
    rw [mul_div_assoc]
    linarith
  refine ⟨fun s => if s ≤ r then (if s ≤ cr then tcr else tcr + (s - cr) * (tr - tcr) / (r - cr)) else if mx ≤ s then tmax else tr + (s - r) * (tmax - tr) / (mx - r), fun s => ?_, fun s hs => ?_, ?_, fun s hs => ?_, fun w w0 w1 => ?_, fun w w0 w1 => ?_,
    fun s s' hs => ?_, fun hlt s hs => ?_⟩
  · unfold scaleThree
    dsimp only
    split
    · split
      · rfl
      · rw [fdiv_ok d, bind_ok]
    · split
      · rfl
      · rw [fdiv_ok (by intro e; linarith), bind_ok]
  · dsimp only
    rw [if_pos (by linarith), if_pos hs]
  · dsimp only
    rw [if_pos (le_refl _), if_neg (by linarith), mul_div_cancel_left₀ _ d]
    ring
  · dsimp only
    split
    · next q =>
      rcases hr with q' | ⟨rfl, rfl⟩
      · linarith
      · rw [if_neg (by linarith), le_antisymm q hs, mul_div_cancel_left₀ _ d]
        ring
    · rfl
  · dsimp only
    have hw := mul_nonneg (by linarith : 0 ≤ 1 - w) (le_of_lt dp)
    rw [if_pos (by linarith)]
    split
    · next q =>
      have : w * (r - cr) ≤ 0 := by linarith
      have w' : w = 0 := le_antisymm (by by_contra c; push Not at c; have := mul_pos c dp; linarith) w0
      rw [w']; ring
    · field_simp; ring
  · dsimp only
    have hw := mul_nonneg w0 (by linarith : 0 ≤ mx - r)
    have at_r : (if r ≤ cr then tcr else tcr + (r - cr) * (tr - tcr) / (r - cr)) = tr := by
      rw [if_neg (by linarith), mul_div_cancel_left₀ _ d]
      ring
    rcases hr with q' | ⟨rfl, rfl⟩
    · by_cases w' : w = 0
      · rw [w', show (1 - 0) * r + 0 * mx = r by ring, if_pos (le_refl _), at_r]; ring
      · have wp : 0 < w := lt_of_le_of_ne w0 (Ne.symm w')
        have := mul_pos wp (by linarith : 0 < mx - r)
        rw [if_neg (by linarith)]
        split
        · next q =>
          have : (1 - w) * (mx - r) ≤ 0 := by linarith
          have w' : w = 1 := le_antisymm w1 (by by_contra c; push Not at c; have := mul_pos (by linarith : 0 < 1 - w) (by linarith : 0 < mx - r); linarith)
          rw [w']; ring
        · have : mx - r ≠ 0 := by intro e; linarith
          field_simp; ring
    · rw [show (1 - w) * r + w * r = r by ring, if_pos (le_refl _), at_r]; ring
  · dsimp only
    by_cases a : s ≤ cr
    · rw [if_pos (by linarith : s ≤ r), if_pos a]
      split
      · split
        · exact le_refl _
        · exact lo s' (by linarith)
      · split
        · linarith
        · exact le_trans ht (lo' s' (by linarith))
    · by_cases b : s ≤ r
      · rw [if_pos b, if_neg a]
        split
        · rw [if_neg (by linarith)]
          have := mul_le_mul_of_nonneg_right (by linarith : s - cr ≤ s' - cr) pos
          rw [mul_div_assoc, mul_div_assoc]
          linarith
        · split
          · exact le_trans (up s b) ht'
          · exact le_trans (up s b) (lo' s' (by linarith))
      · rw [if_neg b, if_neg (by linarith : ¬ s' ≤ r)]
        split
        · rw [if_pos (by linarith)]
        · split
          · exact up' s (by linarith) (by linarith)
          · have := mul_le_mul_of_nonneg_right (by linarith : s - r ≤ s' - r) pos'
            rw [mul_div_assoc, mul_div_assoc]
            linarith
  · dsimp only
    split
    · rw [if_neg (by linarith)]
      have := div_pos (mul_pos (by linarith : 0 < s - cr) (by linarith : 0 < tr - tcr)) dp
      linarith
    · split
      · linarith
      · exact lt_of_lt_of_le hlt (lo' s (by linarith))

/-! ### Scaling of values -/

/-- With KRW (or KRO) alone, values are multiplied so that the largest one of the table becomes the one given. -/
theorem value_two_point (c : Scale) (three other : Bool) {vmaxs : List Rat} {cell : Nat} {m : Rat} (hm : vmaxs[cell]? = some m) (hv : c.vmax ≠ 0) (s w : Rat) : c.value three other vmaxs [] cell s (w * c.vmax) = .ok (w * m) := by
  unfold Scale.value
  have : vmaxs.isEmpty = false := by cases vmaxs <;> simp at hm ⊢
  rw [this]
  dsimp only [List.isEmpty_nil, Bool.false_and]
  rw [if_neg (by decide), if_pos rfl, rd_of_getElem? hm, bind_ok]
  unfold times
  rw [fdiv_ok hv, bind_ok]
  congr 1
  field_simp

/-- With KRWR (or KRORW), and KRW (or KRO): zero up to the critical saturation; up to the saturation `sr` where the other phase becomes immobile, values are multiplied so that the one of the table there becomes the one given;
from there to the maximum, values between those of the table become the same mixture of the given ones; and above, the given one. -/
theorem value_three_point (c : Scale) (three other : Bool) {vmaxs vrs : List Rat} {cell : Nat} {m vr sr : Rat} (hm : vmaxs[cell]? = some m) (hr : vrs[cell]? = some vr) (hs : c.mid three = .ok sr) (h1 : sr ≤ c.mx - 1 / 1000000) (h2 : c.cr < sr) (hv : c.vr ≠ 0)
    (hd : 1 / 1000000 < |c.vmax - c.vr|) :
    (∀ s kr, s ≤ c.cr → c.value three other vmaxs vrs cell s kr = .ok 0) ∧ (∀ s w, c.cr < s → s ≤ sr → c.value three other vmaxs vrs cell s (w * c.vr) = .ok (w * vr)) ∧
    (∀ s w, sr < s → s ≤ c.mx → c.value three other vmaxs vrs cell s ((1 - w) * c.vr + w * c.vmax) = .ok ((1 - w) * vr + w * m)) ∧ (∀ s kr, c.mx < s → c.value three other vmaxs vrs cell s kr = .ok m) := by
  have e1 : vmaxs.isEmpty = false := by cases vmaxs <;> simp at hm ⊢
  have e2 : vrs.isEmpty = false := by cases vrs <;> simp at hr ⊢
  have red : ∀ s kr, c.value three other vmaxs vrs cell s kr = c.values three other vmaxs cell vr s sr kr := fun s kr => by
    unfold Scale.value
    rw [e1, e2, if_neg (by decide), if_neg (by decide), hs, bind_ok, rd_of_getElem? hr, bind_ok]
  have pk : pick vmaxs cell c.vmax = .ok m := by
    unfold pick
    rw [e1, if_neg (by decide), rd_of_getElem? hm]
  refine ⟨fun s kr h => ?_, fun s w h h' => ?_, fun s w h h' => ?_, fun s kr h => ?_⟩
  · rw [red]
    unfold Scale.values
    rw [if_pos h]
  · rw [red]
    unfold Scale.values times
    rw [if_neg (by linarith), if_neg (by linarith), if_pos h', fdiv_ok hv, bind_ok]
    congr 1
    field_simp
  · rw [red]
    unfold Scale.values
    have n : c.vmax - c.vr ≠ 0 := by intro e; rw [e] at hd; norm_num at hd
    rw [if_neg (by linarith), if_neg (by linarith), if_neg (by linarith), pk, bind_ok, if_pos h', if_pos hd, fdiv_ok n, bind_ok]
    congr 1
    field_simp
    ring
  · rw [red]
    unfold Scale.values
    rw [if_neg (by linarith), if_neg (by linarith), if_neg (by linarith), pk, bind_ok, if_neg (by linarith)]

/-- In a table with the same value at `sr` and at the maximum, the value changes with the saturation between them. -/
theorem value_flat (c : Scale) (three other : Bool) {vmaxs vrs : List Rat} {cell : Nat} {m vr sr : Rat} (hm : vmaxs[cell]? = some m) (hr : vrs[cell]? = some vr) (hs : c.mid three = .ok sr) (h1 : sr ≤ c.mx - 1 / 1000000) (h2 : c.cr < sr)
    (hd : |c.vmax - c.vr| ≤ 1 / 1000000) (w kr : Rat) (w0 : 0 < w) (w1 : w ≤ 1) : c.value three other vmaxs vrs cell ((1 - w) * sr + w * c.mx) kr = .ok ((1 - w) * vr + w * m) := by
  have e1 : vmaxs.isEmpty = false := by cases vmaxs <;> simp at hm ⊢
  have e2 : vrs.isEmpty = false := by cases vrs <;> simp at hr ⊢
  have pk : pick vmaxs cell c.vmax = .ok m := by
    unfold pick
    rw [e1, if_neg (by decide), rd_of_getElem? hm]
  have dp : 0 < c.mx - sr := by linarith
  have p1 := mul_pos w0 dp
  have p2 := mul_nonneg (by linarith : 0 ≤ 1 - w) (le_of_lt dp)
  unfold Scale.value Scale.values
  rw [e1, e2, if_neg (by decide), if_neg (by decide), hs, bind_ok, rd_of_getElem? hr, bind_ok, if_neg (by linarith), if_neg (by linarith), if_neg (by linarith), pk, bind_ok, if_pos (by linarith), if_neg (by linarith), fdiv_ok (by intro e; linarith), bind_ok]
  congr 1
  have : c.mx - sr ≠ 0 := by intro e; linarith
  field_simp
  ring

/-! ### Relative permeabilities of a cell with scaling -/

/-- The end points of a cell: those given for it or, where none are given, those of its table. -/
structure CellEnds (p : SatProps) (c : Nat) (f : Funcs) (e : Ends) (swmax somax cr oc mx wl : Rat) : Prop where
  usage : p.usage = usageOf true false
  func : p.funcForCell c = .ok f
  same : f.usage = usageOf true false
  kind : p.kind = .simple
  scaled : p.doEps = true
  ends : f.ends = some e
  smax : f.smax.take 2 = [swmax, somax]
  swcr : pick p.eps.swcr c e.swcr = .ok cr
  sowcr : pick p.eps.sowcr c e.sowcr = .ok oc
  swu : pick p.eps.swu c swmax = .ok mx
  swl : pick p.eps.swl c (1 - somax) = .ok wl

/-- The numbers used for water. -/
def waterOf (e : Ends) (swmax cr oc mx : Rat) : Scale := ⟨e.swcr, 1 - e.sowcr, swmax, cr, 1 - oc, mx, e.krwmax, e.krwr⟩
/-- The numbers used for oil. -/
def oilOf (e : Ends) (somax cr oc wl : Rat) : Scale := ⟨e.sowcr, 1 - e.swcr, somax, oc, 1 - cr, 1 - wl, e.kromax, e.krorw⟩

/-- Relative permeabilities of a cell are those of the table at the scaled saturations, with their values scaled. -/
theorem krCell_scaled {p : SatProps} {c : Nat} {f : Funcs} {e : Ends} {swmax somax cr oc mx wl : Rat} (H : CellEnds p c f e swmax somax cr oc mx wl) {sw so ssw sso x y a b : Rat}
    (h1 : (waterOf e swmax cr oc mx).sat (!(p.eps.swcr.isEmpty && p.eps.swu.isEmpty)) p.do3pt sw = .ok ssw) (h2 : (oilOf e somax cr oc wl).sat (!(p.eps.sowcr.isEmpty && p.eps.swl.isEmpty)) p.do3pt so = .ok sso)
    (hx : f.krw.eval ssw = .ok x) (hy : f.krow.eval (1 - sso) = .ok y) (ha : (waterOf e swmax cr oc mx).value p.do3pt (!p.eps.kro.isEmpty) p.eps.krw p.eps.krwr c sw x = .ok a)
    (hb : (oilOf e somax cr oc wl).value p.do3pt (!p.eps.kro.isEmpty) p.eps.kro p.eps.krorw c so y = .ok b) : p.krCell c [sw, so] = .ok [a, b] := by
  have hm0 : rd f.smax 0 = .ok swmax := by
    refine rd_of_getElem? ?_
    have := congrArg (·[0]?) H.smax
    simpa [List.getElem?_take_of_lt] using this
  have hm1 : rd f.smax 1 = .ok somax := by
    refine rd_of_getElem? ?_
    have := congrArg (·[1]?) H.smax
    simpa [List.getElem?_take_of_lt] using this
  have W : p.waterScale f c = .ok (waterOf e swmax cr oc mx) := by
    unfold SatProps.waterScale
    rw [H.usage, show rd (usageOf true false).pos Aqua = .ok 0 from rfl, bind_ok, H.ends, show deref (some e) = .ok e from rfl, bind_ok, hm0, bind_ok, H.swcr, bind_ok, H.sowcr, bind_ok, H.swu, bind_ok]
    rfl
  have O : p.oilScale f c = .ok (oilOf e somax cr oc wl) := by
    unfold SatProps.oilScale
    rw [H.usage, show rd (usageOf true false).pos Liquid = .ok 1 from rfl, bind_ok, H.ends, show deref (some e) = .ok e from rfl, bind_ok, hm1, bind_ok, H.sowcr, bind_ok, H.swcr, bind_ok, H.swl, bind_ok]
    rfl
  have fn : f.usage.num = 2 := by rw [H.same]; rfl
  unfold SatProps.krCell SatProps.krPoint SatProps.relpermEPS
  rw [H.scaled, if_pos rfl, H.usage, show rd (usageOf true false).pos Aqua = .ok 0 from rfl, bind_ok, show rd (usageOf true false).pos Liquid = .ok 1 from rfl, bind_ok, H.func, bind_ok, show rd [sw, so] (0 + 0) = .ok sw from rfl, bind_ok,
    show rd [sw, so] (0 + 1) = .ok so from rfl, bind_ok, W, bind_ok, O, bind_ok, h1, bind_ok, h2, bind_ok, show wr (List.replicate 3 (0 : Rat)) 0 ssw = .ok [ssw, 0, 0] from rfl, bind_ok, show wr [ssw, 0, 0] 1 sso = .ok [ssw, sso, 0] from rfl, bind_ok,
    evalKr_block H.same rfl p.kind (by rw [fn]; simp) (by rw [fn]; simp [usageOf]), fn, show List.take 2 (List.drop 0 [ssw, sso, 0]) = [ssw, sso] from rfl, kr_water H.same, hx, bind_ok, H.kind, show oilArg .simple ssw sso = 1 - sso from rfl, hy, bind_ok, bind_ok, bind_ok,
    show put (List.replicate (usageOf true false).num 0) 0 [x, y] = [x, y] from rfl, show rd [x, y] (0 + 0) = .ok x from rfl, bind_ok, ha, bind_ok, show wr [x, y] (0 + 0) a = .ok [a, y] from rfl, bind_ok, show rd [a, y] (0 + 1) = .ok y from rfl, bind_ok, hb, bind_ok]
  rfl

/-- What is known of the functions of a table (`critical_saturations`, `water_oil_reproduces`). -/
structure Sound (f : Funcs) (e : Ends) (swco swmax : Rat) : Prop where
  inc : ∀ a b, a ≤ b → ∃ v w, f.krw.eval a = .ok v ∧ f.krw.eval b = .ok w ∧ v ≤ w
  dec : ∀ a b, a ≤ b → ∃ v w, f.krow.eval a = .ok v ∧ f.krow.eval b = .ok w ∧ w ≤ v
  water0 : f.krw.eval e.swcr = .ok 0
  water1 : ∀ s, e.swcr < s → ∃ v, f.krw.eval s = .ok v ∧ 0 < v
  waterR : f.krw.eval (1 - e.sowcr) = .ok e.krwr
  waterM : f.krw.eval swmax = .ok e.krwmax
  oil0 : f.krow.eval (1 - e.sowcr) = .ok 0
  oil1 : ∀ s, s < 1 - e.sowcr → ∃ v, f.krow.eval s = .ok v ∧ 0 < v
  oilR : f.krow.eval e.swcr = .ok e.krorw
  oilM : f.krow.eval swco = .ok e.kromax
  swcr : e.swcr < swmax
  sowcr : e.sowcr < 1 - swco
  lo : swco ≤ e.swcr
  hi : 1 - e.sowcr ≤ swmax

theorem sound_of_init {ts : List (List (List Rat))} {sgof : Option (List (List (List Rat)))} {table : Nat} {f : Funcs} (h : Funcs.init .simple none (some ts) sgof table (usageOf true false) = .ok f)
    {sw krw krow pcow : List Rat} {rest : List (List Rat)} (ht : ts[table]? = some (sw :: krw :: krow :: pcow :: rest)) (h1 : SatTable sw krw) (h2 : SatTable sw krow) (m1 : krw.Pairwise (· ≤ ·)) (m2 : krow.Pairwise (· ≥ ·))
    {swco swmax wmax omax : Rat} (lo : sw[0]? = some swco) (hi : sw[sw.length - 1]? = some swmax) (hw : krw[sw.length - 1]? = some wmax) (ho : krow[0]? = some omax) (hw0 : 0 < wmax) (ho0 : 0 < omax) :
    ∃ e, f.ends = some e ∧ e.krwmax = wmax ∧ e.kromax = omax ∧ f.usage = usageOf true false ∧ f.smax.take 2 = [swmax, 1 - swco] ∧ Sound f e swco swmax := by
  obtain ⟨e, q1, q2, q3, q4, q5, q6, q7, q8, q9, q10, q11, q12, q13⟩ := critical_saturations h ht h1 h2 m1 m2 lo hi hw ho hw0 ho0
  obtain ⟨hu, ts', sw', krw', krow', pcow', rest', co, mx, e', ht', W, _, sm, _⟩ := init_water h
  cases e'
  rw [ht] at ht'
  cases ht'
  have l0 := W.lo
  rw [lo] at l0
  cases l0
  have l1 := W.hi
  rw [hi] at l1
  cases l1
  have kw : ∀ s v, f.krOf .simple 0 [s, 1 - s] = .ok v → f.krw.eval s = .ok v := fun s v hv => by
    obtain ⟨v', hv'⟩ := tab_defined W.water h1 s
    obtain ⟨b, hb⟩ := tab_defined W.oil h2 s
    have hb' : f.krow.eval (oilArg .simple s (1 - s)) = .ok b := by rw [show oilArg .simple s (1 - s) = s by simp [oilArg]]; exact hb
    rw [(krOf_water hu hv' hb').1] at hv
    rw [hv', hv]
  have ko : ∀ s v, f.krOf .simple 1 [s, 1 - s] = .ok v → f.krow.eval s = .ok v := fun s v hv => by
    obtain ⟨v', hv'⟩ := tab_defined W.water h1 s
    obtain ⟨b, hb⟩ := tab_defined W.oil h2 s
    have hb' : f.krow.eval (oilArg .simple s (1 - s)) = .ok b := by rw [show oilArg .simple s (1 - s) = s by simp [oilArg]]; exact hb
    rw [(krOf_water hu hv' hb').2] at hv
    rw [hb, hv]
  refine ⟨e, q1, q2, q3, hu, sm, ⟨fun a b hab => ?_, fun a b hab => ?_, kw _ _ (q8 _ q4 (le_refl _)), fun s hs => ?_, kw _ _ q13, ?_, ko _ _ (q10 _ (le_refl _) (by linarith)), fun s hs => ?_, ko _ _ q12, ?_, q5, q7, q4, by linarith⟩⟩
  · obtain ⟨v, hv⟩ := tab_defined W.water h1 a
    obtain ⟨w, hw⟩ := tab_defined W.water h1 b
    exact ⟨v, w, hv, hw, tab_up W.water h1 m1 hab hv hw⟩
  · obtain ⟨v, hv⟩ := tab_defined W.oil h2 a
    obtain ⟨w, hw⟩ := tab_defined W.oil h2 b
    exact ⟨v, w, hv, hw, tab_down W.oil h2 m2 hab hv hw⟩
  · obtain ⟨v, hv, v0⟩ := q9 s hs
    exact ⟨v, kw s v hv, v0⟩
  · rw [q2]
    exact tab_node W.water h1 hi hw
  · obtain ⟨v, hv, v0⟩ := q11 s hs
    exact ⟨v, ko s v hv, v0⟩
  · rw [q3]
    exact tab_node W.oil h2 lo ho

theorem no_value (c : Scale) (three other : Bool) (cell : Nat) (s kr : Rat) : c.value three other [] [] cell s kr = .ok kr := rfl

/-- Two-point scaling of saturations: in each cell, water moves exactly above the critical saturation given for the cell, with the largest relative permeability from the largest saturation given for the cell on; the same for oil;
and each relative permeability does not decrease with its saturation. -/
theorem two_point_end_points {p : SatProps} {c : Nat} {f : Funcs} {e : Ends} {swco swmax cr oc mx wl : Rat} (H : CellEnds p c f e swmax (1 - swco) cr oc mx wl) (S : Sound f e swco swmax) (h2 : p.do3pt = false)
    (n1 : p.eps.swcr ≠ [] ∨ p.eps.swu ≠ []) (n2 : p.eps.sowcr ≠ [] ∨ p.eps.swl ≠ []) (v : p.eps.krw = [] ∧ p.eps.krwr = [] ∧ p.eps.kro = [] ∧ p.eps.krorw = []) (hw : cr < mx) (ho : oc < 1 - wl) (sw so : Rat) :
    ∃ a b, p.krCell c [sw, so] = .ok [a, b] ∧ (sw ≤ cr → a = 0) ∧ (cr < sw → 0 < a) ∧ (mx ≤ sw → a = e.krwmax) ∧ (so ≤ oc → b = 0) ∧ (oc < so → 0 < b) ∧ (1 - wl ≤ so → b = e.kromax) ∧
      ∀ sw' so', sw ≤ sw' → so ≤ so' → ∃ a' b', p.krCell c [sw', so'] = .ok [a', b'] ∧ a ≤ a' ∧ b ≤ b' := by
  obtain ⟨F, f1, f2, f3, _, f4, f5⟩ := two_point_map (tcr := e.swcr) (tmax := swmax) hw (le_of_lt S.swcr)
  obtain ⟨G, g1, g2, g3, _, g4, g5⟩ := two_point_map (tcr := e.sowcr) (tmax := 1 - swco) ho (le_of_lt S.sowcr)
  obtain ⟨v1, v2, v3, v4⟩ := v
  have s1 : (!(p.eps.swcr.isEmpty && p.eps.swu.isEmpty)) = true := by simpa [List.isEmpty_iff, ← not_and_or] using n1
  have s2 : (!(p.eps.sowcr.isEmpty && p.eps.swl.isEmpty)) = true := by simpa [List.isEmpty_iff, ← not_and_or] using n2
  have K : ∀ sw so x y, f.krw.eval (F sw) = .ok x → f.krow.eval (1 - G so) = .ok y → p.krCell c [sw, so] = .ok [x, y] := fun sw so x y hx hy =>
    krCell_scaled H (by rw [s1, h2]; exact f1 sw) (by rw [s2, h2]; exact g1 so) hx hy (by rw [v1, v2]; exact no_value _ _ _ _ _ _) (by rw [v3, v4]; exact no_value _ _ _ _ _ _)
  obtain ⟨x, _, hx, _⟩ := S.inc (F sw) (F sw) (le_refl _)
  obtain ⟨y, _, hy, _⟩ := S.dec (1 - G so) (1 - G so) (le_refl _)
  refine ⟨x, y, K _ _ _ _ hx hy, fun q => ?_, fun q => ?_, fun q => ?_, fun q => ?_, fun q => ?_, fun q => ?_, fun sw' so' q q' => ?_⟩
  · rw [f2 _ q, S.water0] at hx; cases hx; rfl
  · obtain ⟨x', hx', x0⟩ := S.water1 _ (f5 S.swcr _ q)
    rw [hx'] at hx; cases hx; exact x0
  · rw [f3 _ q, S.waterM] at hx; cases hx; rfl
  · rw [g2 _ q, S.oil0] at hy; cases hy; rfl
  · obtain ⟨x', hx', x0⟩ := S.oil1 (1 - G so) (by have := g5 S.sowcr _ q; linarith)
    rw [hx'] at hy; cases hy; exact x0
  · rw [g3 _ q, show 1 - (1 - swco) = swco by ring, S.oilM] at hy; cases hy; rfl
  · obtain ⟨x1, x', hx1, hx', lx⟩ := S.inc _ _ (f4 _ _ q)
    obtain ⟨y', y1, hy', hy1, ly⟩ := S.dec (1 - G so') (1 - G so) (by have := g4 _ _ q'; linarith)
    rw [hx1] at hx; cases hx
    rw [hy1] at hy; cases hy
    exact ⟨x', y', K _ _ _ _ hx' hy', lx, ly⟩

/-- Three-point scaling of saturations: the same, and where the other phase becomes immobile in the cell, the relative permeability is the one of the table where it becomes immobile. -/
theorem three_point_end_points {p : SatProps} {c : Nat} {f : Funcs} {e : Ends} {swco swmax cr oc mx wl : Rat} (H : CellEnds p c f e swmax (1 - swco) cr oc mx wl) (S : Sound f e swco swmax) (h2 : p.do3pt = true)
    (n1 : p.eps.swcr ≠ [] ∨ p.eps.swu ≠ []) (n2 : p.eps.sowcr ≠ [] ∨ p.eps.swl ≠ []) (v : p.eps.krw = [] ∧ p.eps.krwr = [] ∧ p.eps.kro = [] ∧ p.eps.krorw = []) (ht : e.swcr < 1 - e.sowcr) (hc : cr < 1 - oc)
    (hw : 1 - oc < mx ∨ (1 - oc = mx ∧ 1 - e.sowcr = swmax)) (ho : 1 - cr < 1 - wl ∨ (1 - cr = 1 - wl ∧ 1 - e.swcr = 1 - swco)) (sw so : Rat) :
    ∃ a b, p.krCell c [sw, so] = .ok [a, b] ∧ (sw ≤ cr → a = 0) ∧ (cr < sw → 0 < a) ∧ (sw = 1 - oc → a = e.krwr) ∧ (mx ≤ sw → a = e.krwmax) ∧ (so ≤ oc → b = 0) ∧ (oc < so → 0 < b) ∧ (so = 1 - cr → b = e.krorw) ∧ (1 - wl ≤ so → b = e.kromax) ∧
      ∀ sw' so', sw ≤ sw' → so ≤ so' → ∃ a' b', p.krCell c [sw', so'] = .ok [a', b'] ∧ a ≤ a' ∧ b ≤ b' := by
  obtain ⟨F, f1, f2, fr, f3, _, _, f4, f5⟩ := three_point_map (tcr := e.swcr) (tr := 1 - e.sowcr) (tmax := swmax) hc hw (le_of_lt ht) S.hi
  obtain ⟨G, g1, g2, gr, g3, _, _, g4, g5⟩ := three_point_map (tcr := e.sowcr) (tr := 1 - e.swcr) (tmax := 1 - swco) (cr := oc) (r := 1 - cr) (mx := 1 - wl) (by linarith) ho (by linarith) (by have := S.lo; linarith)
  obtain ⟨v1, v2, v3, v4⟩ := v
  have s1 : (!(p.eps.swcr.isEmpty && p.eps.swu.isEmpty)) = true := by simpa [List.isEmpty_iff, ← not_and_or] using n1
  have s2 : (!(p.eps.sowcr.isEmpty && p.eps.swl.isEmpty)) = true := by simpa [List.isEmpty_iff, ← not_and_or] using n2
  have K : ∀ sw so x y, f.krw.eval (F sw) = .ok x → f.krow.eval (1 - G so) = .ok y → p.krCell c [sw, so] = .ok [x, y] := fun sw so x y hx hy =>
    krCell_scaled H (by rw [s1, h2]; exact f1 sw) (by rw [s2, h2]; exact g1 so) hx hy (by rw [v1, v2]; exact no_value _ _ _ _ _ _) (by rw [v3, v4]; exact no_value _ _ _ _ _ _)
  obtain ⟨x, _, hx, _⟩ := S.inc (F sw) (F sw) (le_refl _)
  obtain ⟨y, _, hy, _⟩ := S.dec (1 - G so) (1 - G so) (le_refl _)
  refine ⟨x, y, K _ _ _ _ hx hy, fun q => ?_, fun q => ?_, fun q => ?_, fun q => ?_, fun q => ?_, fun q => ?_, fun q => ?_, fun q => ?_, fun sw' so' q q' => ?_⟩
  · rw [f2 _ q, S.water0] at hx; cases hx; rfl
  · obtain ⟨x', hx', x0⟩ := S.water1 _ (f5 ht _ q)
    rw [hx'] at hx; cases hx; exact x0
  · rw [q, fr, S.waterR] at hx; cases hx; rfl
  · rw [f3 _ q, S.waterM] at hx; cases hx; rfl
  · rw [g2 _ q, S.oil0] at hy; cases hy; rfl
  · obtain ⟨x', hx', x0⟩ := S.oil1 (1 - G so) (by have := g5 (by linarith) _ q; linarith)
    rw [hx'] at hy; cases hy; exact x0
  · rw [q, gr, show 1 - (1 - e.swcr) = e.swcr by ring, S.oilR] at hy; cases hy; rfl
  · rw [g3 _ q, show 1 - (1 - swco) = swco by ring, S.oilM] at hy; cases hy; rfl
  · obtain ⟨x1, x', hx1, hx', lx⟩ := S.inc _ _ (f4 _ _ q)
    obtain ⟨y', y1, hy', hy1, ly⟩ := S.dec (1 - G so') (1 - G so) (by have := g4 _ _ q'; linarith)
    rw [hx1] at hx; cases hx
    rw [hy1] at hy; cases hy
    exact ⟨x', y', K _ _ _ _ hx' hy', lx, ly⟩

/-! ### Functions of a deck -/

theorem wr_len {l t : List Rat} {i : Nat} {v : Rat} (h : wr l i v = .ok t) : t.length = l.length := by
  obtain ⟨_, rfl⟩ := wr_eq_ok.1 h
  simp

theorem init_lengths {k : Kind} {u : Option (Sampling × Int)} {swof sgof : Option (List (List (List Rat)))} {table : Nat} {pu : PhaseUsage} {f : Funcs} (h : Funcs.init k u swof sgof table pu = .ok f) :
    f.usage = pu ∧ f.smin.length = 3 ∧ f.smax.length = 3 := by
  unfold Funcs.init at h
  obtain ⟨⟨f1, a, b⟩, h1, h⟩ := bind_eq_ok.1 h
  dsimp only at h
  obtain ⟨f2, h2, h⟩ := bind_eq_ok.1 h
  obtain ⟨pos, _, h⟩ := bind_eq_ok.1 h
  obtain ⟨lo, q1, h⟩ := bind_eq_ok.1 h
  obtain ⟨hi, q2, h⟩ := bind_eq_ok.1 h
  cases h
  have w : f1.usage = pu ∧ f1.smin.length = 3 ∧ f1.smax.length = 3 := by
    unfold maybeWater at h1
    obtain ⟨used, _, h1⟩ := bind_eq_ok.1 h1
    split at h1
    · unfold initWater at h1
      split at h1
      · cases h1
      · obtain ⟨_, _, h1⟩ := bind_eq_ok.1 h1
        obtain ⟨_, _, h1⟩ := bind_eq_ok.1 h1
        obtain ⟨_, _, h1⟩ := bind_eq_ok.1 h1
        obtain ⟨_, _, h1⟩ := bind_eq_ok.1 h1
        obtain ⟨_, _, h1⟩ := bind_eq_ok.1 h1
        obtain ⟨_, _, h1⟩ := bind_eq_ok.1 h1
        obtain ⟨_, _, h1⟩ := bind_eq_ok.1 h1
        obtain ⟨_, _, h1⟩ := bind_eq_ok.1 h1
        obtain ⟨_, _, h1⟩ := bind_eq_ok.1 h1
        obtain ⟨_, _, h1⟩ := bind_eq_ok.1 h1
        obtain ⟨_, _, h1⟩ := bind_eq_ok.1 h1
        obtain ⟨_, _, h1⟩ := bind_eq_ok.1 h1
        obtain ⟨_, _, h1⟩ := bind_eq_ok.1 h1
        obtain ⟨_, r1, h1⟩ := bind_eq_ok.1 h1
        obtain ⟨_, r2, h1⟩ := bind_eq_ok.1 h1
        obtain ⟨_, _, h1⟩ := bind_eq_ok.1 h1
        cases h1
        exact ⟨rfl, wr_len r1, wr_len r2⟩
    · cases h1
      exact ⟨rfl, rfl, rfl⟩
  have g : f2.usage = pu ∧ f2.smin.length = 3 ∧ f2.smax.length = 3 := by
    unfold maybeGas at h2
    obtain ⟨used, _, h2⟩ := bind_eq_ok.1 h2
    split at h2
    · unfold initGas at h2
      split at h2
      · cases h2
      · obtain ⟨_, _, h2⟩ := bind_eq_ok.1 h2
        obtain ⟨_, _, h2⟩ := bind_eq_ok.1 h2
        obtain ⟨_, _, h2⟩ := bind_eq_ok.1 h2
        obtain ⟨_, _, h2⟩ := bind_eq_ok.1 h2
        obtain ⟨_, _, h2⟩ := bind_eq_ok.1 h2
        obtain ⟨_, _, h2⟩ := bind_eq_ok.1 h2
        obtain ⟨_, _, h2⟩ := bind_eq_ok.1 h2
        obtain ⟨_, _, h2⟩ := bind_eq_ok.1 h2
        obtain ⟨_, _, h2⟩ := bind_eq_ok.1 h2
        obtain ⟨_, _, h2⟩ := bind_eq_ok.1 h2
        obtain ⟨_, _, h2⟩ := bind_eq_ok.1 h2
        obtain ⟨_, r1, h2⟩ := bind_eq_ok.1 h2
        split at h2
        · cases h2
        · obtain ⟨_, r2, h2⟩ := bind_eq_ok.1 h2
          cases h2
          exact ⟨w.1, (wr_len r1).trans w.2.1, (wr_len r2).trans w.2.2⟩
    · cases h2
      exact w
  exact ⟨g.1, (wr_len q1).trans g.2.1, (wr_len q2).trans g.2.2⟩

/-- What `relperm_batch`, `cap_press_batch` and `sat_range_batch` need holds after `init`. -/
theorem FromDeck.ready {k : Kind} {u : Option (Sampling × Int)} {d : SatDeck} {g : SatGrid} {p : SatProps} (H : FromDeck k u d g p) : ∀ f ∈ p.funcs, f.usage = p.usage ∧ f.smin.length = 3 ∧ f.smax.length = 3 := fun f hf => by
  obtain ⟨t, ht⟩ := List.getElem?_of_mem hf
  exact init_lengths (H.funcs t f ht)

/-! ### Scaled quantities of all cells -/

theorem defaults_ok {p : SatProps} {g : SatGrid} {k : Key} {l : List Rat} (h : p.defaults g k = .ok l) : ∃ aqua, p.usage.pos[Aqua]? = some aqua ∧ l.length = g.cells ∧ ∀ (i : Nat) v, l[i]? = some v → ∃ f, p.funcForCell i = .ok f ∧ f.default aqua k = .ok v := by
  unfold SatProps.defaults at h
  obtain ⟨aqua, ha, h⟩ := bind_eq_ok.1 h
  rw [show (fun (i : Nat) (l : List Rat) => do
      let f ← p.funcForCell i
      let v ← f.default aqua k
      (.ok (l ++ [v]) : M (List Rat))) = fun i l => (p.funcForCell i >>= fun f => f.default aqua k) >>= fun v => .ok (l ++ [v]) by
    funext i l
    rw [bind_assoc']] at h
  obtain ⟨h1, h2⟩ := loop_snoc.1 h
  exact ⟨aqua, rd_eq_ok.1 ha, h1, fun i v hv => bind_eq_ok.1 (h2 i v hv)⟩

/-- A keyword gives each cell the value at the position of the cell in the deck. -/
theorem scaled_by_keyword {p : SatProps} {d : SatDeck} {g : SatGrid} {k : Key} {l vals : List Rat} (hv : d.values k = some vals) (h : p.initEPS d g k = .ok l) :
    l.length = g.cells ∧ ∀ (i : Nat) v, l[i]? = some v → ∃ pos, g.deckPos i = .ok pos ∧ vals[pos]? = some v := by
  unfold SatProps.initEPS at h
  rw [hv] at h
  dsimp only at h
  obtain ⟨l0, h0, h⟩ := bind_eq_ok.1 h
  obtain ⟨_, _, h1, _⟩ := defaults_ok h0
  have q := loop_over (g := fun i _ => g.deckPos i >>= fun pos => rd vals pos) (le_refl _) (fun i t x hi ht hx _ => by
    rw [bind_assoc']
    refine bind_congr' fun pos => bind_congr' fun v => ?_
    rw [wr_ok (by rw [ht]; exact hi)]) h
  refine ⟨q.1.trans h1, fun i v hi => ?_⟩
  have hlt : i < l0.length := by
    rw [← q.1]
    exact (List.getElem?_eq_some_iff.1 hi).1
  obtain ⟨w, hw, hw'⟩ := (q.2 i _ (List.getElem?_eq_getElem hlt)).1 hlt
  rw [hi] at hw'
  cases hw'
  obtain ⟨pos, hp, hr⟩ := bind_eq_ok.1 hw
  exact ⟨pos, hp, rd_eq_ok.1 hr⟩

theorem not_scaled_aux {p : SatProps} {d : SatDeck} {g : SatGrid} {k : Key} (hv : d.values k = none) (ht : (if k.isSat then d.enptvd else d.enkrvd) = none ∨ ∃ t, (if k.isSat then d.enptvd else d.enkrvd) = some t ∧ t.mask[k.column - 1]? = some false) :
    p.initEPS d g k = .ok [] := by
  unfold SatProps.initEPS
  rw [hv]
  rcases ht with ht | ⟨t, ht, hm⟩
  · rw [ht]
  · rw [ht]
    dsimp only
    rw [rd_of_getElem? hm, bind_ok, if_neg (by decide)]

theorem scaled_by_depth_aux {p : SatProps} {d : SatDeck} {g : SatGrid} {k : Key} {l : List Rat} {t : DepthTable} (hv : d.values k = none) (ht : (if k.isSat then d.enptvd else d.enkrvd) = some t) (hm : t.mask[k.column - 1]? = some true)
    (h : p.initEPS d g k = .ok l) : l.length = g.cells ∧ ∀ (i : Nat) v, l[i]? = some v → ∃ f aqua own j zc ds vs dj vj, p.funcForCell i = .ok f ∧ p.usage.pos[Aqua]? = some aqua ∧ f.default aqua k = .ok own ∧ p.tableOf i = .ok j ∧ g.depth[i]? = some zc ∧
      t.table[k.column]? = some vs ∧ rdI vs j = .ok vj ∧ (vj[0]? = some (-1 : Rat) → v = own) ∧ (vj[0]? ≠ some (-1 : Rat) → t.table[0]? = some ds ∧ rdI ds j = .ok dj ∧
        ∃ lo hi, dj[0]? = some lo ∧ dj[dj.length - 1]? = some hi ∧ (zc < lo ∨ hi < zc → v = own) ∧ (lo ≤ zc → zc ≤ hi → linearInterpolation dj vj zc = .ok v)) := by
  unfold SatProps.initEPS at h
  rw [hv, ht] at h
  dsimp only at h
  rw [rd_of_getElem? hm, bind_ok, if_pos rfl] at h
  obtain ⟨l0, h0, h⟩ := bind_eq_ok.1 h
  obtain ⟨aqua, hq, h1, h2⟩ := defaults_ok h0
  have q := loop_over (g := fun i x => p.tableOf i >>= fun j => rd g.depth i >>= fun zc => atDepth t k j zc x) (le_refl _) (fun i s x hi hs hx _ => by
    rw [bind_assoc']
    refine bind_congr' fun j => ?_
    rw [bind_assoc']
    refine bind_congr' fun zc => ?_
    rw [rd_of_getElem? hx, bind_ok]
    refine bind_congr' fun v => ?_
    rw [wr_ok (by rw [hs]; exact hi)]) h
  refine ⟨q.1.trans h1, fun i v hi => ?_⟩
  have hlt : i < l0.length := by
    rw [← q.1]
    exact (List.getElem?_eq_some_iff.1 hi).1
  obtain ⟨w, hw, hw'⟩ := (q.2 i _ (List.getElem?_eq_getElem hlt)).1 hlt
  rw [hi] at hw'
  cases hw'
  obtain ⟨f, hf, hd⟩ := h2 i _ (List.getElem?_eq_getElem hlt)
  obtain ⟨j, hj, hw⟩ := bind_eq_ok.1 hw
  obtain ⟨zc, hz, hw⟩ := bind_eq_ok.1 hw
  unfold atDepth at hw
  obtain ⟨vs, r1, hw⟩ := bind_eq_ok.1 hw
  obtain ⟨vj, r2, hw⟩ := bind_eq_ok.1 hw
  obtain ⟨v0, r3, hw⟩ := bind_eq_ok.1 hw
  split at hw
  · next ne =>
    obtain ⟨ds, r4, hw⟩ := bind_eq_ok.1 hw
    obtain ⟨dj, r5, hw⟩ := bind_eq_ok.1 hw
    obtain ⟨lo, r6, hw⟩ := bind_eq_ok.1 hw
    obtain ⟨hi', r7, hw⟩ := bind_eq_ok.1 hw
    have b : dj[dj.length - 1]? = some hi' := by
      unfold back at r7
      exact rd_eq_ok.1 r7
    refine ⟨f, aqua, _, j, zc, ds, vs, dj, vj, hf, hq, hd, hj, rd_eq_ok.1 hz, rd_eq_ok.1 r1, r2, fun e => ?_, fun _ => ⟨rd_eq_ok.1 r4, r5, lo, hi', rd_eq_ok.1 r6, b, fun o => ?_, fun o1 o2 => ?_⟩⟩
    · rw [rd_eq_ok.1 r3] at e
      exact absurd (Option.some.inj e) ne
    · rw [if_neg (by rintro ⟨a, b⟩; rcases o with o | o <;> linarith)] at hw
      exact (Except.ok.inj hw).symm
    · rwa [if_pos ⟨o1, o2⟩] at hw
  · next e =>
    rw [not_not] at e
    refine ⟨f, aqua, _, j, zc, [], vs, [], vj, hf, hq, hd, hj, rd_eq_ok.1 hz, rd_eq_ok.1 r1, r2, fun _ => (Except.ok.inj hw).symm, fun ne => absurd (by rw [rd_eq_ok.1 r3, e]) ne⟩

theorem inTable_column {d : SatDeck} {k : Key} {t : DepthTable} {n : Nat} (h : InTable d k t n) : k.column = n + 1 ∧ (if k.isSat then d.enptvd else d.enkrvd) = some t := by
  rcases h with ⟨h, e⟩ | ⟨h, e⟩
  · rcases n with _ | _ | _ | _ | n <;> simp [enptvdOrder] at h <;> subst h <;> exact ⟨rfl, e⟩
  · rcases n with _ | _ | _ | _ | n <;> simp [enkrvdOrder] at h <;> subst h <;> exact ⟨rfl, e⟩

theorem ends_eq {f : Funcs} {v : Rat} {g : Ends → Rat} (h : (deref f.ends >>= fun e => (.ok (g e) : M Rat)) = .ok v) : ∃ e, f.ends = some e ∧ g e = v := by
  obtain ⟨e, he, h⟩ := bind_eq_ok.1 h
  unfold deref at he
  split at he
  · next a ha =>
    cases he
    exact ⟨_, ha, Except.ok.inj h⟩
  · cases he

theorem ownValue_of_default {f : Funcs} {aqua : Nat} {k : Key} {v : Rat} (h : f.default aqua k = .ok v) : OwnValue f aqua k v := by
  unfold OwnValue
  refine ⟨?_, ?_, ?_, ?_, ?_, ?_, ?_, ?_⟩ <;> intro e <;> subst e
  · exact rd_eq_ok.1 h
  · exact rd_eq_ok.1 h
  all_goals exact ends_eq h

/-- A quantity is not scaled without its keyword and without a table of depths that has it. -/
theorem not_scaled {p : SatProps} {d : SatDeck} {g : SatGrid} {k : Key} (hv : d.values k = none) (ht : NoTable d k ∨ ∃ t n, InTable d k t n ∧ t.mask[n]? = some false) :
    p.initEPS d g k = .ok [] := by
  refine not_scaled_aux hv ?_
  rcases ht with ⟨h1, h2⟩ | ⟨t, n, h, hm⟩
  · refine .inl ?_
    cases k
    case swl | swcr | swu | sowcr => exact h1 (by decide)
    all_goals exact h2 (by decide)
  · obtain ⟨c, e⟩ := inTable_column h
    exact .inr ⟨t, e, by rw [c]; exact hm⟩

/-- A table of depths gives each cell the value of its region at the depth of its centroid; outside of the depths of the table, and in regions without values, the quantity of the saturation functions stays. -/
theorem scaled_by_depth {p : SatProps} {d : SatDeck} {g : SatGrid} {k : Key} {l : List Rat} {t : DepthTable} {n : Nat} (hv : d.values k = none) (ht : InTable d k t n) (hm : t.mask[n]? = some true)
    (h : p.initEPS d g k = .ok l) : l.length = g.cells ∧ ∀ (i : Nat) v, l[i]? = some v → ∃ f aqua own j zc ds vs dj vj, p.funcForCell i = .ok f ∧ p.usage.pos[Aqua]? = some aqua ∧ OwnValue f aqua k own ∧ p.tableOf i = .ok j ∧ g.depth[i]? = some zc ∧
      t.table[n + 1]? = some vs ∧ rdI vs j = .ok vj ∧ (vj[0]? = some (-1 : Rat) → v = own) ∧ (vj[0]? ≠ some (-1 : Rat) → t.table[0]? = some ds ∧ rdI ds j = .ok dj ∧
        ∃ lo hi, dj[0]? = some lo ∧ dj[dj.length - 1]? = some hi ∧ (zc < lo ∨ hi < zc → v = own) ∧ (lo ≤ zc → zc ≤ hi → linearInterpolation dj vj zc = .ok v)) := by
  obtain ⟨c, e⟩ := inTable_column ht
  obtain ⟨h1, h2⟩ := scaled_by_depth_aux hv e (by rw [c]; exact hm) h
  refine ⟨h1, fun i v hi => ?_⟩
  obtain ⟨f, aqua, own, j, zc, ds, vs, dj, vj, a1, a2, a3, a4, a5, a6, a7⟩ := h2 i v hi
  rw [c] at a6
  exact ⟨f, aqua, own, j, zc, ds, vs, dj, vj, a1, a2, ownValue_of_default a3, a4, a5, a6, a7⟩

/-! ### A deck with scaling -/

/-- A table with immobile water and immobile oil. -/
def epsSwof : List (List (List Rat)) := [[[1 / 5, 3 / 10, 1 / 2, 4 / 5, 1], [0, 0, 1 / 5, 1 / 2, 1], [1, 4 / 5, 2 / 5, 0, 0], [0, 0, 0, 0, 0]]]

/-- A deck with end points for two cells. -/
def epsDeck (swof : List (List (List Rat))) (three : Bool) (values : Key → Option (List Rat)) : SatDeck where
  phases := { water := true, oil := true, gas := false }
  swof := some swof
  endscale := some ("NODIR", "REVERS")
  scalecrs := if three then some "YES" else none
  values := values

def epsGrid : SatGrid := { cells := 2, depth := [1000, 1010] }

/-- Saturations of both cells. -/
def epsSats : Key → Option (List Rat)
  | .swl => some [1 / 10, 1 / 5]
  | .swcr => some [2 / 5, 1 / 5]
  | .swu => some [9 / 10, 1]
  | .sowcr => some [3 / 10, 1 / 10]
  | _ => none

def epsFuncs : Funcs where
  usage := usageOf true false
  krw := .nonuniform ⟨[1 / 5, 3 / 10, 1 / 2, 4 / 5, 1], [0, 0, 1 / 5, 1 / 2, 1], [], []⟩
  krow := .nonuniform ⟨[1 / 5, 3 / 10, 1 / 2, 4 / 5, 1], [1, 4 / 5, 2 / 5, 0, 0], [], []⟩
  pcow := .nonuniform ⟨[1 / 5, 3 / 10, 1 / 2, 4 / 5, 1], [0, 0, 0, 0, 0], [], []⟩
  krg := .nonuniform ⟨[], [], [], []⟩
  krog := .nonuniform ⟨[], [], [], []⟩
  pcog := .nonuniform ⟨[], [], [], []⟩
  krocw := 1
  smin := [1 / 5, 0, 0]
  smax := [1, 4 / 5, 0]
  ends := some { krwmax := 1, kromax := 1, swcr := 3 / 10, krwr := 1 / 2, sowcr := 1 / 5, krorw := 4 / 5 }

def epsProps (three : Bool) : SatProps where
  kind := .simple
  usage := usageOf true false
  funcs := [epsFuncs]
  cellToFunc := []
  eps := { swl := [1 / 10, 1 / 5], swcr := [2 / 5, 1 / 5], swu := [9 / 10, 1], sowcr := [3 / 10, 1 / 10] }
  doEps := true
  do3pt := three

theorem eps_init (three : Bool) : SatProps.init .simple none (epsDeck epsSwof three epsSats) epsGrid = .ok (epsProps three) := by cases three <;> decide +kernel

theorem eps_funcs : Funcs.init .simple none (some epsSwof) none 0 (usageOf true false) = .ok epsFuncs := by decide +kernel

theorem eps_sound : ∃ e, epsFuncs.ends = some e ∧ e.krwmax = 1 ∧ e.kromax = 1 ∧ epsFuncs.usage = usageOf true false ∧ epsFuncs.smax.take 2 = [1, 1 - 1 / 5] ∧ Sound epsFuncs e (1 / 5) 1 :=
  sound_of_init eps_funcs rfl ⟨by decide +kernel, by decide, rfl⟩ ⟨by decide +kernel, by decide, rfl⟩ (by decide +kernel) (by decide +kernel) rfl rfl rfl rfl one_pos one_pos

theorem eps_ends (three : Bool) : ∃ e, epsFuncs.ends = some e ∧ Sound epsFuncs e (1 / 5) 1 ∧ e = { krwmax := 1, kromax := 1, swcr := 3 / 10, krwr := 1 / 2, sowcr := 1 / 5, krorw := 4 / 5 } ∧
    CellEnds (epsProps three) 0 epsFuncs e 1 (1 - 1 / 5) (2 / 5) (3 / 10) (9 / 10) (1 / 10) := by
  obtain ⟨e, h1, _, _, _, h2, h3⟩ := eps_sound
  refine ⟨e, h1, h3, (Option.some.inj h1).symm, ⟨rfl, rfl, rfl, rfl, rfl, h1, h2, rfl, rfl, rfl, rfl⟩⟩

example (sw so : Rat) (h : sw ≤ 2 / 5) (h' : 3 / 10 < so) : ∃ b, (epsProps false).krCell 0 [sw, so] = .ok [0, b] ∧ 0 < b := by
  obtain ⟨e, h1, h2, _, h3⟩ := eps_ends false
  obtain ⟨a, b, q1, q2, _, _, _, q3, _⟩ := two_point_end_points h3 h2 rfl (Or.inl (by decide)) (Or.inl (by decide)) ⟨rfl, rfl, rfl, rfl⟩ (by norm_num) (by norm_num) sw so
  exact ⟨b, by rw [q1, q2 h], q3 h'⟩

example (so : Rat) (h : so ≤ 3 / 10) : (epsProps true).krCell 0 [7 / 10, so] = .ok [1 / 2, 0] := by
  obtain ⟨e, h1, h2, he, h3⟩ := eps_ends true
  obtain ⟨a, b, q1, _, _, q2, _, q3, _⟩ := three_point_end_points h3 h2 rfl (Or.inl (by decide)) (Or.inl (by decide)) ⟨rfl, rfl, rfl, rfl⟩ (by rw [he]; norm_num) (by norm_num) (Or.inl (by norm_num)) (Or.inl (by norm_num)) (7 / 10) so
  rw [q1, q2 (by norm_num), q3 h, he]

example : (epsProps true).krCell 0 [7 / 10, 3 / 10] = .ok [1 / 2, 0] ∧ (epsProps true).krCell 0 [2 / 5, 3 / 5] = .ok [0, 4 / 5] ∧ (epsProps false).krCell 0 [9 / 10, 1 / 10] = .ok [1, 0] ∧ (epsProps false).krCell 0 [1 / 10, 9 / 10] = .ok [0, 1] := by decide +kernel

example := FromDeck.ready (init_from_deck (eps_init true) (by decide))

/-- Two regions; the second cell of the deck is not active. -/
def regDeck : SatDeck where
  phases := { water := true, oil := true, gas := false }
  satnum := some [2, 1, 1]
  swof := some [[[1 / 5, 1], [0, 1], [1, 0], [0, 0]], [[0, 1], [0, 1 / 2], [1, 0], [2, 0]]]
def regGrid : SatGrid := { cells := 2, globalCell := some [0, 2], depth := [1000, 1010] }

theorem reg_init : ∃ p, SatProps.init .simple none regDeck regGrid = .ok p ∧ p.relperm 2 [3 / 5, 2 / 5, 3 / 5, 2 / 5] [1, 0] [0, 0, 0, 0] = .ok [1 / 2, 1 / 2, 3 / 10, 2 / 5] := by
  have h : ((SatProps.init .simple none regDeck regGrid) >>= fun p => p.relperm 2 [3 / 5, 2 / 5, 3 / 5, 2 / 5] [1, 0] [0, 0, 0, 0]) = .ok [1 / 2, 1 / 2, 3 / 10, 2 / 5] := by decide +kernel
  exact bind_eq_ok.1 h

example : ∃ p c, SatProps.init .simple none regDeck regGrid = .ok p ∧ [1, 0][1]? = some c ∧ p.krCell c [3 / 5, 2 / 5] = .ok [3 / 10, 2 / 5] := by
  obtain ⟨p, hp, hr⟩ := reg_init
  have H := init_from_deck hp (by decide)
  have hu : p.usage = usageOf true false := H.usage
  have he : p.doEps = false := by
    have : (SatProps.init .simple none regDeck regGrid >>= fun p => (.ok p.doEps : M Bool)) = .ok false := by decide +kernel
    rw [hp] at this
    exact Except.ok.inj this
  obtain ⟨c, h1, h2⟩ := ((relperm_batch (n := 2) (s := [3 / 5, 2 / 5, 3 / 5, 2 / 5]) (kr := [0, 0, 0, 0]) (cells := [1, 0]) hu rfl (fun f hf => (H.ready f hf).1) (by rw [he]; simp) (by rw [hu]; rfl) (by rw [hu]; rfl) rfl _).1 hr).2 1 (by decide)
  refine ⟨p, c, hp, h1, ?_⟩
  rw [hu] at h2
  exact h2

/-! ### What scaling does not do -/

/-- Relative permeabilities of cell 0 of a deck. -/
def krOfDeck (k : Kind) (d : SatDeck) (s : List Rat) : M (List Rat) := do
  let p ← SatProps.init k none d epsGrid
  p.krCell 0 s

/-- With KRWR and KRO but without KRW, for a table in which water moves freely where oil becomes immobile: the values of KRW are read, but there are none. -/
theorem water_reads_missing_values : krOfDeck .simple (epsDeck exSwof false (fun | .krwr => some [1 / 2, 1 / 2] | .kro => some [1, 1] | _ => none)) [4 / 5, 1 / 5] = .error .ub := by decide +kernel

/-- With KRW and KRWR but without KRO, for such a table: the largest relative permeability of water is the one of the table, not the one given; with KRO, it is the one given. -/
theorem water_ignores_value : krOfDeck .simple (epsDeck exSwof false (fun | .krwr => some [1 / 2, 1 / 2] | .krw => some [1 / 2, 1 / 2] | _ => none)) [1, 0] = .ok [1, 0] ∧
    krOfDeck .simple (epsDeck exSwof false (fun | .krwr => some [1 / 2, 1 / 2] | .krw => some [1 / 2, 1 / 2] | .kro => some [1, 1] | _ => none)) [1, 0] = .ok [1 / 2, 0] := by decide +kernel

/-- The other models accept ENDSCALE, but the end points of their tables are never set. -/
theorem end_points_never_set (k : Kind) (hk : k ≠ .simple) : (SatProps.init k none (epsDeck exSwof false (fun | .swu => some [9 / 10, 9 / 10] | _ => none)) epsGrid).isOk = true ∧
    krOfDeck k (epsDeck exSwof false (fun | .swu => some [9 / 10, 9 / 10] | _ => none)) [1 / 2, 1 / 2] = .error .ub := by
  cases k
  · exact absurd rfl hk
  all_goals decide +kernel

/-- With SWU alone, oil is not scaled: water at its maximum and oil still moving. -/
theorem oil_not_scaled : krOfDeck .simple (epsDeck epsSwof false (fun | .swu => some [3 / 5, 3 / 5] | _ => none)) [3 / 5, 2 / 5] = .ok [1, 4 / 15] := by decide +kernel

end Opm.SatFunc
