import Verif.Proofs.LiveOil
/-! # Proofs about live gas -/

namespace Opm.Pvt
open Opm Opm.Interp Opm.Rock

/-- The tables of a gas made from records. -/
def gasLive (t : OilRecords) : Live := ⟨[t.map (·.1), t.map bubbleB, t.map bubbleMu, t.map bubble], t.map (underOf id)⟩

/-- The constructor succeeds if no record is empty. -/
theorem liveGas_ok {t : OilRecords} (hne : ∀ r ∈ t, r.2 ≠ []) : liveGas [t.map encode] = .ok (gasLive t) := by
  have hd : ∀ r ∈ t, ∃ q, r.2[0]? = some q ∧ bubble r = q.1 ∧ bubbleB r = q.2.1 ∧ bubbleMu r = q.2.2 := by
    intro r hr
    unfold bubble bubbleB bubbleMu
    cases e : r.2 with
    | nil => exact absurd e (hne r hr)
    | cons q l => exact ⟨q, rfl, rfl, rfl, rfl⟩
  have e1 : firsts (t.map encode) 1 .ok = .ok (t.map bubble) := firsts_ok t 1 .ok bubble bubble (fun r hr => by
    obtain ⟨q, h0, e, _, _⟩ := hd r hr
    rw [e]; exact (encode_get r h0).1) (fun _ _ => rfl)
  have e2 : firsts (t.map encode) 2 .ok = .ok (t.map bubbleB) := firsts_ok t 2 .ok bubbleB _ (fun r hr => by
    obtain ⟨q, h0, _, e, _⟩ := hd r hr
    rw [e]; exact (encode_get r h0).2.1) (fun _ _ => rfl)
  have e3 : firsts (t.map encode) 3 .ok = .ok (t.map bubbleMu) := firsts_ok t 3 .ok bubbleMu bubbleMu (fun r hr => by
    obtain ⟨q, h0, _, _, e⟩ := hd r hr
    rw [e]; exact (encode_get r h0).2.2) (fun _ _ => rfl)
  have e0 : firsts (t.map encode) 0 .ok = .ok (t.map (·.1)) := firsts_ok t 0 .ok (·.1) (·.1) (fun r hr => rfl) (fun _ _ => rfl)
  have eu : unders (t.map encode) .ok = .ok (t.map (underOf id)) := unders_ok t .ok id (fun r hr q hq => rfl)
  unfold liveGas
  rw [if_neg (by simp), show rd [t.map encode] 0 = .ok (t.map encode) from rfl, bind_ok, e0, bind_ok, e2, bind_ok, e3, bind_ok, e1, bind_ok, eu, bind_ok]
  rfl

theorem GasTable.ne {t : OilRecords} (h : GasTable t) : ∀ r ∈ t, r.2 ≠ [] := fun r hr e => by
  have := h.pts r hr
  rw [e] at this
  simp at this

/-- Values of a record: item 1 is the formation volume factor, item 2 the viscosity. -/
def recordItem (item : Nat) (r : Rat × List (Rat × Rat × Rat)) (rv : Rat) : M Rat := if item = 1 then recordB r rv else recordMu r rv

/-- Values of saturated gas. -/
def satItem (item : Nat) (t : OilRecords) (p : Rat) : M Rat := if item = 1 then satBg t p else satMug t p

theorem gas_under {t : OilRecords} {i : Nat} {r : Rat × List (Rat × Rat × Rat)} (h : t[i]? = some r) : (gasLive t).under[i]? = some (underOf id r) := by
  show (t.map (underOf id))[i]? = _
  rw [List.getElem?_map, h]
  rfl

theorem interp_record {item : Nat} (hi : item = 1 ∨ item = 2) (r : Rat × List (Rat × Rat × Rat)) (rv : Rat) : interpCol (underOf id r) 0 item rv = recordItem item r rv := by
  rcases hi with rfl | rfl <;> rfl

theorem interp_satItem {item : Nat} (hi : item = 1 ∨ item = 2) (t : OilRecords) (p : Rat) : interpCol (gasLive t).sat 0 item p = satItem item t p := by
  rcases hi with rfl | rfl <;> rfl

theorem record_total {t : OilRecords} (h : GasTable t) {item : Nat} (hi : item = 1 ∨ item = 2) {r : Rat × List (Rat × Rat × Rat)} (hr : r ∈ t) (rv : Rat) : ∃ v, recordItem item r rv = .ok v := by
  have key : ∀ yv : List Rat, yv.length = (r.2.map (·.1)).length → ∃ v, linearInterpolation (r.2.map (·.1)) yv rv = .ok v := fun yv hl => by
    obtain ⟨_, _, _, _, _, _, _, _, _, _, e, _⟩ := interpolation_derivative (r.2.map (·.1)) yv (Or.inr (h.dec r hr)) (by simpa using h.pts r hr) hl rv
    exact ⟨_, e⟩
  rcases hi with rfl | rfl
  · exact key _ (by simp)
  · exact key _ (by simp)

theorem gas_rows {t : OilRecords} {i : Nat} {r : Rat × List (Rat × Rat × Rat)} (h : t[i]? = some r) : rows (gasLive t).under i = .ok r.2.length := by
  unfold rows
  rw [rd_of_getElem? (gas_under h), bind_ok]
  show Except.ok (r.2.map (·.1)).length = _
  rw [List.length_map]

theorem satRv_total {t : OilRecords} (h : GasTable t) (p : Rat) : ∃ s, satRv t p = .ok s := interp_total h.press (by simpa using h.two) (by simp) p

theorem gas_ratio {zo zg : Rat} (h0 : zg ≠ 0) : ratio zo zg = .ok (some (zo / zg)) := if_pos h0

theorem press_get {t : OilRecords} {i : Nat} {r : Rat × List (Rat × Rat × Rat)} (h : t[i]? = some r) : (t.map (·.1))[i]? = some r.1 := by rw [List.getElem?_map, h]; rfl

/-- The section of a pressure. -/
theorem section_ok {t : OilRecords} (h : GasTable t) (p : Rat) :
    ∃ i r r', tableIndex (t.map (·.1)) p = .ok i ∧ t[i]? = some r ∧ t[i + 1]? = some r' ∧ r.1 < r'.1 ∧ (0 < i → r.1 ≤ p) ∧ (i + 2 < t.length → p ≤ r'.1) := by
  obtain ⟨i, e, hi, h1, h2⟩ := tableIndex_ok (dir_of_lt h.press) (by simpa using h.two) p
  rw [List.length_map] at hi h2
  have g1 := List.getElem?_eq_getElem (l := t) (i := i) (by omega)
  have g2 := List.getElem?_eq_getElem (l := t) (i := i + 1) hi
  refine ⟨i, _, _, e, g1, g2, ?_, fun h0 => ?_, fun h0 => ?_⟩
  · have := List.pairwise_iff_getElem.1 h.press i (i + 1) (by simp; omega) (by simpa using hi) (by omega)
    simpa using this
  · have := h1 _ h0 (press_get g1)
    linarith
  · have := h2 _ h0 (press_get g2)
    linarith

theorem gas_sat {t : OilRecords} (h : GasTable t) {cfg : Config} {z : List Rat} {zo zg : Rat} (hz : Volumes cfg z zo zg) (h0 : zg ≠ 0) {p s : Rat} (hs : satRv t p = .ok s) (hlt : s < zo / zg) (item : Nat) (d : Bool) :
    (gasLive t).gas cfg p (volOf cfg z 0) item d = if d then derivCol (gasLive t).sat 0 item p else interpCol (gasLive t).sat 0 item p := by
  obtain ⟨i, r, r', e, _⟩ := section_ok h p
  unfold Live.gas
  rw [show interpCol (gasLive t).sat 0 3 p = .ok s from hs, bind_ok, show rd (gasLive t).sat 0 = .ok (t.map (·.1)) from rfl, bind_ok, e, bind_ok, volume_oil hz, bind_ok, volume_gas hz, bind_ok,
    if_pos h0 |> (show ratio zo zg = _ from ·), bind_ok, if_pos (by simpa [below] using hlt)]

theorem gas_unsat {t : OilRecords} {cfg : Config} {z : List Rat} {zo zg : Rat} (hz : Volumes cfg z zo zg) (h0 : zg ≠ 0) {p s : Rat} (hs : satRv t p = .ok s) (hle : zo / zg ≤ s) {i : Nat}
    (e : tableIndex (t.map (·.1)) p = .ok i) (item : Nat) (d : Bool) :
    (gasLive t).gas cfg p (volOf cfg z 0) item d = if d then (gasLive t).gasUnderDeriv i item (zo / zg) else (gasLive t).gasUnder p i item (zo / zg) := by
  unfold Live.gas
  rw [show interpCol (gasLive t).sat 0 3 p = .ok s from hs, bind_ok, show rd (gasLive t).sat 0 = .ok (t.map (·.1)) from rfl, bind_ok, e, bind_ok, volume_oil hz, bind_ok, volume_gas hz, bind_ok,
    if_pos h0 |> (show ratio zo zg = _ from ·), bind_ok, if_neg (by simpa [below] using hle)]
  rfl

/-- Undersaturated gas at a pressure of section `i`, which is not outside of the table. -/
theorem gas_between {t : OilRecords} (h : GasTable t) {i : Nat} {r r' : Rat × List (Rat × Rat × Rat)} (hr : t[i]? = some r) (hr' : t[i + 1]? = some r') (hlt : r.1 < r'.1) {p : Rat} (h1 : r.1 ≤ p) (h2 : p ≤ r'.1)
    {item : Nat} (hi : item = 1 ∨ item = 2) {R v v' : Rat} (hv : recordItem item r R = .ok v) (hv' : recordItem item r' R = .ok v') :
    (gasLive t).gasUnder p i item R = .ok (v + (p - r.1) / (r'.1 - r.1) * (v' - v)) := by
  have ht := h.two
  have hl := (List.getElem?_eq_some_iff.1 hr').1
  have b1 : beforeFirst (t.map (·.1)) i p = .ok false := by
    unfold beforeFirst
    split
    · rename_i h0
      subst h0
      rw [rd_of_getElem? (press_get hr), bind_ok, decide_eq_false (by linarith)]
    · rfl
  have b2 : beyondLast (t.map (·.1)) i p = .ok false := by
    unfold beyondLast
    split
    · rename_i h0
      rw [← h0, rd_of_getElem? (press_get hr'), bind_ok, decide_eq_false (by linarith)]
    · rfl
  have a0 : at2 (gasLive t).sat 0 i = .ok r.1 := by
    unfold at2
    rw [show rd (gasLive t).sat 0 = .ok (t.map (·.1)) from rfl, bind_ok, rd_of_getElem? (press_get hr)]
  have a1 : at2 (gasLive t).sat 0 (i + 1) = .ok r'.1 := by
    unfold at2
    rw [show rd (gasLive t).sat 0 = .ok (t.map (·.1)) from rfl, bind_ok, rd_of_getElem? (press_get hr')]
  unfold Live.gasUnder
  rw [show rd (gasLive t).sat 0 = .ok (t.map (·.1)) from rfl, bind_ok, b1, bind_ok, if_neg (by simp), b2, bind_ok, if_neg (by simp)]
  unfold Live.gasBetween
  rw [a0, bind_ok, a1, bind_ok, fdiv_ok (by linarith), bind_ok, gas_rows hr, bind_ok, if_neg (by have := h.pts r (List.mem_of_getElem? hr); omega)]
  unfold Live.gasPair
  rw [rd_of_getElem? (gas_under hr), bind_ok, interp_record hi, hv, bind_ok, rd_of_getElem? (gas_under hr'), bind_ok, interp_record hi, hv', bind_ok, bind_ok]

theorem gas_under_deriv {t : OilRecords} (h : GasTable t) {i : Nat} {r r' : Rat × List (Rat × Rat × Rat)} (hr : t[i]? = some r) (hr' : t[i + 1]? = some r') (hlt : r.1 < r'.1)
    {item : Nat} (hi : item = 1 ∨ item = 2) {R v v' : Rat} (hv : recordItem item r R = .ok v) (hv' : recordItem item r' R = .ok v') :
    (gasLive t).gasUnderDeriv i item R = .ok ((v' - v) / (r'.1 - r.1)) := by
  have a0 : at2 (gasLive t).sat 0 i = .ok r.1 := by
    unfold at2
    rw [show rd (gasLive t).sat 0 = .ok (t.map (·.1)) from rfl, bind_ok, rd_of_getElem? (press_get hr)]
  have a1 : at2 (gasLive t).sat 0 (i + 1) = .ok r'.1 := by
    unfold at2
    rw [show rd (gasLive t).sat 0 = .ok (t.map (·.1)) from rfl, bind_ok, rd_of_getElem? (press_get hr')]
  unfold Live.gasUnderDeriv
  rw [gas_rows hr, bind_ok, a1, bind_ok, a0, bind_ok, if_neg (by have := h.pts r (List.mem_of_getElem? hr); omega)]
  unfold Live.gasPair
  rw [rd_of_getElem? (gas_under hr), bind_ok, interp_record hi, hv, bind_ok, rd_of_getElem? (gas_under hr'), bind_ok, interp_record hi, hv', bind_ok, bind_ok]
  exact fdiv_ok (by linarith)

end Opm.Pvt
