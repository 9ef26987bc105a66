import Verif.Proofs.CrossPoints
/-!
# Left-handed grids, and the order of the points of faces
-/

namespace Opm.Cpg
open Opm UniquePoints

section
variable {inp : Input}

theorem vertSize_ok (h : inp.Ok) {i j k : Nat} (hi : i < inp.nx) (hj : j < inp.ny) (hk : k < inp.nz) :
    ∃ dz, vertSize inp.nx inp.ny inp.nz inp.zcorn (cornerOffsets inp.nx inp.ny) (cartesian inp.nx inp.ny i j k) = .ok dz ∧
      (dz = 0 → ¬ inp.Thick i j k) ∧ (dz ≠ 0 → ∃ a b, a < 2 ∧ b < 2 ∧ dz = inp.z (2 * i + a) (2 * j + b) (2 * k + 1) - inp.z (2 * i + a) (2 * j + b) (2 * k)) := by
  have hoff : ∀ t, t < 4 → (cornerOffsets inp.nx inp.ny).getD t 0 = t % 2 + 2 * inp.nx * (t / 2) ∧
      (cornerOffsets inp.nx inp.ny).getD (t + 4) 0 = t % 2 + 2 * inp.nx * (t / 2) + 2 * inp.nx * (2 * inp.ny) := by
    intro t ht
    have h4 : t = 0 ∨ t = 1 ∨ t = 2 ∨ t = 3 := by omega
    unfold cornerOffsets
    rcases h4 with rfl | rfl | rfl | rfl <;> simp <;> omega
  unfold vertSize ind2sub
  rw [check_ok (decide_eq_true (cartesian_lt hi hj hk)), bind_ok, bind_ok]
  simp only
  rw [cartesian_mod hi, cartesian_div hi, Nat.add_mul_mod_self_left, Nat.mod_eq_of_lt hj, Nat.add_mul_div_left _ _ (by omega), Nat.div_eq_of_lt hj, Nat.zero_add]
  obtain ⟨dz, e, h1, h2⟩ := loop_inv (n := 4) (s := (0 : Rat))
    (f := fun t (dz : Rat) => if dz = 0 then do
        let z1 ← rd inp.zcorn (2 * i + 2 * inp.nx * (2 * j + 2 * inp.ny * (2 * k)) + (cornerOffsets inp.nx inp.ny).getD (t + 4) 0)
        let z0 ← rd inp.zcorn (2 * i + 2 * inp.nx * (2 * j + 2 * inp.ny * (2 * k)) + (cornerOffsets inp.nx inp.ny).getD t 0)
        .ok (z1 - z0)
      else .ok dz)
    (fun t (dz : Rat) => (dz = 0 → ∀ u, u < t → inp.z (2 * i + u % 2) (2 * j + u / 2) (2 * k) = inp.z (2 * i + u % 2) (2 * j + u / 2) (2 * k + 1)) ∧
      (dz ≠ 0 → ∃ u, u < 4 ∧ dz = inp.z (2 * i + u % 2) (2 * j + u / 2) (2 * k + 1) - inp.z (2 * i + u % 2) (2 * j + u / 2) (2 * k)))
    ⟨fun _ u hu => by omega, fun hh => absurd rfl hh⟩ (by
      rintro t dz ht ⟨g1, g2⟩
      by_cases hz : dz = 0
      · rw [if_pos hz, (hoff t ht).1, (hoff t ht).2]
        have ha : t % 2 < 2 := by omega
        have hb : t / 2 < 2 := by omega
        generalize ea : t % 2 = a at *
        generalize eb : t / 2 = b at *
        have e1 : 2 * i + 2 * inp.nx * (2 * j + 2 * inp.ny * (2 * k)) + (a + 2 * inp.nx * b + 2 * inp.nx * (2 * inp.ny)) =
          (2 * i + a) + 2 * inp.nx * ((2 * j + b) + 2 * inp.ny * (2 * k + 1)) := by ring
        have e0 : 2 * i + 2 * inp.nx * (2 * j + 2 * inp.ny * (2 * k)) + (a + 2 * inp.nx * b) = (2 * i + a) + 2 * inp.nx * ((2 * j + b) + 2 * inp.ny * (2 * k)) := by ring
        rw [e1, e0, rd_z h (by omega) (by omega) (by omega), bind_ok, rd_z h (by omega) (by omega) (by omega), bind_ok]
        refine ⟨_, rfl, ?_, ?_⟩
        · intro hz0 u hu
          rcases Nat.lt_or_ge u t with hl | hl
          · exact g1 hz u hl
          · obtain rfl : u = t := by omega
            rw [ea, eb]
            linarith
        · intro _
          exact ⟨t, ht, by rw [ea, eb]⟩
      · rw [if_neg hz]
        exact ⟨_, rfl, fun h0 => absurd h0 hz, g2⟩)
  refine ⟨dz, e, ?_, ?_⟩
  · rintro hz ⟨a, b, ha, hb, hne⟩
    have := h1 hz (a + 2 * b) (by omega)
    rw [show (a + 2 * b) % 2 = a by omega, show (a + 2 * b) / 2 = b by omega] at this
    exact hne this
  · intro hz
    obtain ⟨u, hu, hd⟩ := h2 hz
    exact ⟨u % 2, u / 2, by omega, by omega, hd⟩

theorem coord_rd (h : inp.Ok) {n : Nat} (hn : n < 6 * ((inp.nx + 1) * (inp.ny + 1))) : rd inp.coord n = .ok (inp.coord.getD n 0) := by
  have : n < inp.coord.length := by rw [h.coord]; exact hn
  apply rd_of_getElem?
  rw [List.getElem?_eq_getElem this, List.getD_eq_getElem?_getD, List.getElem?_eq_getElem this]
  rfl

/-- Whether the grid is left-handed, if depths times `s` increase downwards. -/
theorem isLefthanded_ok (h : inp.Ok) {s : Int} (hs : s = 1 ∨ s = -1) (hd : inp.Downward s) (ht : ∃ i j k, i < inp.nx ∧ j < inp.ny ∧ k < inp.nz ∧ inp.Active i j k ∧ inp.Thick i j k)
    (ha : inp.area ≠ 0) : isLefthanded inp.nx inp.ny inp.nz inp.actnum inp.coord inp.zcorn = .ok (decide (s * inp.area < 0)) := by
  have hnx := h.nx
  have hny := h.ny
  have c1 : inp.nx * 6 + 1 < 6 * ((inp.nx + 1) * (inp.ny + 1)) := by
    have : (inp.nx + 1) * 1 ≤ (inp.nx + 1) * (inp.ny + 1) := Nat.mul_le_mul_left _ (by omega)
    omega
  have c2 : (inp.nx + 1) * inp.ny * 6 + 1 < 6 * ((inp.nx + 1) * (inp.ny + 1)) := by
    rw [Nat.mul_add]
    omega
  have hsign : ∀ i j k a b, i < inp.nx → j < inp.ny → k < inp.nz → a < 2 → b < 2 → inp.Active i j k →
      0 ≤ (s : Rat) * (inp.z (2 * i + a) (2 * j + b) (2 * k + 1) - inp.z (2 * i + a) (2 * j + b) (2 * k)) := by
    intro i j k a b hi hj hk hha hb hact
    have := hd (2 * i + a) (2 * j + b) (2 * k) (by omega) (by omega) (by omega)
      (by rwa [show (2 * i + a) / 2 = i by omega, show (2 * j + b) / 2 = j by omega, show 2 * k / 2 = k by omega])
      (by rwa [show (2 * i + a) / 2 = i by omega, show (2 * j + b) / 2 = j by omega, show (2 * k + 1) / 2 = k by omega])
    linarith
  obtain ⟨i0, j0, k0, hi0, hj0, hk0, hact0, hth0⟩ := ht
  have hc0 := cartesian_lt hi0 hj0 hk0
  have key : ∃ t : Nat × Rat × Bool, whileFuel (inp.nx * inp.ny * inp.nz + 1) (fun (s : Nat × Rat × Bool) => do
      let active ← bothActive inp.actnum s.1 s.1
      let dz ← if active then vertSize inp.nx inp.ny inp.nz inp.zcorn (cornerOffsets inp.nx inp.ny) s.1 else .ok s.2.1
      let searching := !(active && decide (dz ≠ 0))
      .ok ((s.1 + 1, dz, searching), searching && decide (s.1 + 1 < inp.nx * inp.ny * inp.nz))) (0, 0, true) = .ok t ∧ t.2.2 = false ∧ 0 < (s : Rat) * t.2.1 := by
    apply whileFuel_inv (fun t : Nat × Rat × Bool => t.1 ≤ cartesian inp.nx inp.ny i0 j0 k0) (fun t => t.2.2 = false ∧ 0 < (s : Rat) * t.2.1)
      (fun t => inp.nx * inp.ny * inp.nz - t.1)
    · rintro ⟨c, dz, se⟩ hc
      simp only at hc ⊢
      obtain ⟨i, j, k, hi, hj, hk, rfl⟩ := cartesian_surj (nx := inp.nx) (ny := inp.ny) (nz := inp.nz) (c := c) (by omega)
      rcases bothActive_ok h.actnum hi hj hk hi hj hk with ⟨e1, hact, _⟩ | ⟨e1, hact⟩
      · rw [e1, bind_ok]
        obtain ⟨d, e2, g1, g2⟩ := vertSize_ok h hi hj hk
        simp only [if_true]
        rw [e2]
        simp only [bind_ok, Bool.true_and]
        refine ⟨_, _, rfl, ?_, ?_⟩
        · intro hgo
          simp only [Bool.and_eq_true, Bool.not_eq_true', decide_eq_false_iff_not, decide_eq_true_eq, not_not] at hgo
          refine ⟨?_, by show _ - (_ + 1) < _; omega⟩
          show _ + 1 ≤ _
          by_contra hne
          have heq : cartesian inp.nx inp.ny i j k = cartesian inp.nx inp.ny i0 j0 k0 := by omega
          obtain ⟨rfl, rfl, rfl⟩ := cartesian_inj hi hj hi0 hj0 heq
          exact g1 hgo.1 hth0
        · intro hgo
          by_cases hz : d = 0
          · exfalso
            simp only [hz, ne_eq, not_true, decide_false, Bool.not_false, Bool.true_and, decide_eq_false_iff_not] at hgo
            have heq : cartesian inp.nx inp.ny i j k = cartesian inp.nx inp.ny i0 j0 k0 := by omega
            obtain ⟨rfl, rfl, rfl⟩ := cartesian_inj hi hj hi0 hj0 heq
            exact g1 hz hth0
          · refine ⟨by simp [hz], ?_⟩
            show 0 < (s : Rat) * d
            obtain ⟨a, b, h1, h2, e⟩ := g2 hz
            have h3 := hsign i j k a b hi hj hk h1 h2 hact
            rw [← e] at h3
            refine lt_of_le_of_ne h3 (fun h4 => hz ?_)
            rcases hs with rfl | rfl
            · push_cast at h4; linarith
            · push_cast at h4; linarith
      · rw [e1, bind_ok]
        simp only [Bool.false_eq_true, if_false, bind_ok, Bool.false_and, Bool.not_false, Bool.true_and]
        have hne : cartesian inp.nx inp.ny i j k ≠ cartesian inp.nx inp.ny i0 j0 k0 := by
          intro heq
          obtain ⟨rfl, rfl, rfl⟩ := cartesian_inj hi hj hi0 hj0 heq
          exact hact ⟨hact0, hact0⟩
        refine ⟨_, _, rfl, ?_, ?_⟩
        · intro hgo
          exact ⟨by show _ + 1 ≤ _; omega, by show _ - (_ + 1) < _; omega⟩
        · intro hgo
          simp only [decide_eq_false_iff_not] at hgo
          omega
    · exact Nat.zero_le _
    · show _ - 0 < _
      omega
  obtain ⟨t, et, h1, h2⟩ := key
  unfold isLefthanded
  simp only
  rw [coord_rd h (by omega), bind_ok, coord_rd h (by omega), bind_ok, coord_rd h (by omega), bind_ok, coord_rd h (by omega), bind_ok, coord_rd h (by omega), bind_ok,
    coord_rd h (by omega), bind_ok, et, bind_ok]
  rw [show inp.nx * 6 = 6 * inp.nx by ring, show (inp.nx + 1) * inp.ny * 6 = 6 * ((inp.nx + 1) * inp.ny) by ring]
  have harea : (inp.coord.getD (6 * inp.nx) 0 - inp.coord.getD 0 0) * (inp.coord.getD (6 * ((inp.nx + 1) * inp.ny) + 1) 0 - inp.coord.getD 1 0) -
    (inp.coord.getD (6 * ((inp.nx + 1) * inp.ny)) 0 - inp.coord.getD 0 0) * (inp.coord.getD (6 * inp.nx + 1) 0 - inp.coord.getD 1 0) = inp.area := rfl
  rw [harea, h1, check_ok (by rfl), bind_ok]
  have hne : t.2.1 ≠ 0 := by
    intro e
    rw [e] at h2
    simp at h2
  rw [check_ok (decide_eq_true (mul_ne_zero hne ha)), bind_ok]
  congr 1
  apply decide_eq_decide.2
  rcases hs with rfl | rfl
  · push_cast at h2 ⊢
    rw [one_mul] at h2 ⊢
    exact ⟨fun x => by
      by_contra hc
      have := mul_nonneg (le_of_lt h2) (not_lt.1 hc)
      linarith, fun x => mul_neg_of_pos_of_neg h2 x⟩
  · push_cast at h2 ⊢
    have h3 : t.2.1 < 0 := by linarith
    constructor
    · intro x
      by_contra hc
      have : inp.area ≤ 0 := by linarith
      have := mul_nonneg_of_nonpos_of_nonpos (le_of_lt h3) this
      linarith
    · intro x
      exact mul_neg_of_neg_of_pos h3 (by linarith)

end

/-! ### Reversal -/

theorem reverseRange_ok : ∀ (n : Nat) (pre mid post : List Int), mid.length ≤ 2 * n + 1 →
    reverseRange n (pre ++ mid ++ post) pre.length (pre.length + mid.length - 1) = .ok (pre ++ mid.reverse ++ post) := by
  intro n
  induction n with
  | zero =>
    intro pre mid post h
    have : mid.reverse = mid := by
      cases mid with
      | nil => rfl
      | cons x m => cases m with
        | nil => rfl
        | cons y m => simp at h
    rw [this]
    rfl
  | succ n ih =>
    intro pre mid post h
    unfold reverseRange
    by_cases hlt : pre.length < pre.length + mid.length - 1
    · rw [if_pos hlt]
      obtain ⟨x, m, y, rfl⟩ : ∃ x m y, mid = x :: (m ++ [y]) := by
        cases mid with
        | nil => exact absurd hlt (by show ¬ pre.length < pre.length + 0 - 1; omega)
        | cons x m =>
          have hne : m ≠ [] := by rintro rfl; simp at hlt
          exact ⟨x, m.dropLast, m.getLast hne, by rw [List.dropLast_append_getLast hne]⟩
      have hj : pre.length + (x :: (m ++ [y])).length - 1 = pre.length + m.length + 1 := by simp; omega
      rw [hj]
      have ex : (pre ++ x :: (m ++ [y]) ++ post)[pre.length]? = some x := by simp
      have ey : (pre ++ x :: (m ++ [y]) ++ post)[pre.length + m.length + 1]? = some y := by
        rw [show pre ++ x :: (m ++ [y]) ++ post = (pre ++ x :: m) ++ (y :: post) by simp, List.getElem?_append_right (by simp; omega)]
        simp
        rw [show pre.length + m.length + 1 - (pre.length + (m.length + 1)) = 0 by omega]
        rfl
      have hlen : (pre ++ x :: (m ++ [y]) ++ post).length = pre.length + m.length + 2 + post.length := by simp; omega
      rw [rd_of_getElem? ex, bind_ok, rd_of_getElem? ey, bind_ok, wr_ok (by omega), bind_ok, wr_ok (by rw [List.length_set]; omega), bind_ok]
      have hset : ((pre ++ x :: (m ++ [y]) ++ post).set pre.length y).set (pre.length + m.length + 1) x = (pre ++ [y]) ++ m ++ ([x] ++ post) := by
        rw [show pre ++ x :: (m ++ [y]) ++ post = pre ++ (x :: (m ++ (y :: post))) by simp, List.set_append_right _ _ (Nat.le_refl _), Nat.sub_self, List.set_cons_zero,
          List.set_append_right _ _ (by omega), show pre.length + m.length + 1 - pre.length = m.length + 1 by omega, List.set_cons_succ,
          List.set_append_right _ _ (Nat.le_refl _), Nat.sub_self, List.set_cons_zero]
        simp
      rw [hset]
      have := ih (pre ++ [y]) m ([x] ++ post) (by simp at h; omega)
      rw [List.length_append, List.length_singleton] at this
      rw [show pre.length + m.length + 1 - 1 = pre.length + 1 + m.length - 1 by omega, this]
      simp
    · rw [if_neg hlt]
      have : mid.reverse = mid := by
        cases mid with
        | nil => rfl
        | cons x m => cases m with
          | nil => rfl
          | cons y m => simp at hlt
      rw [this]

theorem fNodes_append (a b : List Face) : faceNodes (a ++ b) = faceNodes a ++ faceNodes b := List.flatMap_append ..

theorem fNodes_cons (f : Face) (b : List Face) : faceNodes (f :: b) = f.nodes ++ faceNodes b := List.flatMap_cons ..

theorem take_face {fs : List Face} {k : Nat} {f : Face} (h : fs[k]? = some f) : fs.take (k + 1) = fs.take k ++ [f] := by rw [List.take_add_one, h]; rfl

theorem facePtr_get {fs : List Face} {k : Nat} (hk : k ≤ fs.length) : (facePtr fs)[k]? = some (faceNodes (fs.take k)).length := by
  unfold facePtr
  rw [List.getElem?_map, List.getElem?_range (by omega)]
  rfl

theorem length_reversed (fs : List Face) : (faceNodes (fs.map Face.reversed)).length = (faceNodes fs).length := by
  induction fs with
  | nil => rfl
  | cons f fs ih =>
    unfold faceNodes at ih ⊢
    rw [List.map_cons, List.flatMap_cons, List.flatMap_cons, List.length_append, List.length_append, ih]
    simp [Face.reversed]

theorem reverseFaceNodes_ok {fs : List Face} {ptr : List Nat} {nodes : List Int} (hp : ptr.take (fs.length + 1) = facePtr fs)
    (hn : nodes.take (faceNodes fs).length = faceNodes fs) (hne : ∀ f ∈ fs, f.nodes ≠ []) :
    ∃ l, reverseFaceNodes fs.length ptr nodes = .ok l ∧ l.length = nodes.length ∧ l.take (faceNodes (fs.map Face.reversed)).length = faceNodes (fs.map Face.reversed) := by
  have hptr : ∀ k, k ≤ fs.length → ptr[k]? = some (faceNodes (fs.take k)).length := by
    intro k hk
    rw [← facePtr_get hk, ← hp, List.getElem?_take_of_lt (by omega)]
  have hdec : nodes = faceNodes fs ++ nodes.drop (faceNodes fs).length := by
    conv => lhs; rw [← List.take_append_drop (faceNodes fs).length nodes]
    rw [hn]
  obtain ⟨l, e, h⟩ := loop_inv (n := fs.length) (s := nodes)
    (f := fun f (l : List Int) => do
      let i ← rd ptr f
      let j ← rd ptr (f + 1)
      check (i ≤ j - 1 ∧ 0 < j)
      reverseRange (j - i) l i (j - 1))
    (fun k (l : List Int) => l = faceNodes ((fs.take k).map Face.reversed) ++ faceNodes (fs.drop k) ++ nodes.drop (faceNodes fs).length)
    (by rw [List.take_zero, List.drop_zero]; exact hdec) (by
      intro k l hk hl
      have hf : fs[k]? = some fs[k] := List.getElem?_eq_getElem hk
      have hne' : (fs[k]).nodes ≠ [] := hne _ (List.getElem_mem hk)
      have hlen : 0 < (fs[k]).nodes.length := List.length_pos_of_ne_nil hne'
      have ht : (faceNodes (fs.take (k + 1))).length = (faceNodes (fs.take k)).length + (fs[k]).nodes.length := by
        rw [take_face hf, fNodes_append, fNodes_cons, List.length_append, List.length_append]
        rfl
      rw [rd_of_getElem? (hptr k (by omega)), bind_ok, rd_of_getElem? (hptr (k + 1) (by omega)), bind_ok, ht, check_ok (decide_eq_true ⟨by omega, by omega⟩), bind_ok]
      have hd : fs.drop k = fs[k] :: fs.drop (k + 1) := List.drop_eq_getElem_cons hk
      have hl' : l = faceNodes ((fs.take k).map Face.reversed) ++ (fs[k]).nodes ++ (faceNodes (fs.drop (k + 1)) ++ nodes.drop (faceNodes fs).length) := by
        rw [hl, hd, fNodes_cons]
        simp only [List.append_assoc]
      have hr := reverseRange_ok ((faceNodes (fs.take k)).length + (fs[k]).nodes.length - (faceNodes (fs.take k)).length) (faceNodes ((fs.take k).map Face.reversed)) (fs[k]).nodes
        (faceNodes (fs.drop (k + 1)) ++ nodes.drop (faceNodes fs).length) (by omega)
      rw [length_reversed] at hr
      rw [hl', hr]
      refine ⟨_, rfl, ?_⟩
      rw [take_face hf, List.map_append, fNodes_append, List.map_cons, fNodes_cons]
      simp only [List.append_assoc]
      rfl)
  rw [List.take_length, List.drop_length] at h
  refine ⟨l, e, ?_, ?_⟩
  · rw [h]
    conv => rhs; rw [hdec]
    rw [List.length_append, List.length_append, List.length_append, length_reversed]
    rfl
  · rw [h, List.append_assoc, List.take_append_of_le_length (Nat.le_refl _), List.take_length]

end Opm.Cpg
