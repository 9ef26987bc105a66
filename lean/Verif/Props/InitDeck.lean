import Verif.Props.InitBasic
import Verif.Props.SatProps
import Verif.Props.MonotCubic
import Verif.Props.BlackoilBasic
/-!
# Ranges of saturations, surface volumes, wells and compressible fluids
-/

namespace Opm.InitState
open Opm Opm.Blackoil Opm.Pvt

/-! ### Ranges of saturations -/

/-- The properties without a deck: water may have any saturation. -/
theorem range_basic (b : SatFunc.BasicSat) (n : Nat) (hb : 0 < b.num) :
    RangeOf (fun cells => b.satRange cells.length (List.replicate (b.num * cells.length) 0) (List.replicate (b.num * cells.length) 0)) b.num n (fun _ => 0) (fun _ => 1) := by
  intro cells _
  dsimp only
  rw [SatFunc.basic_sat_range (by simp) (by simp)]
  refine ⟨_, _, rfl, fun i c hi => ?_⟩
  have h1 : i < cells.length := (List.getElem?_eq_some_iff.1 hi).1
  have h2 : b.num * i < b.num * cells.length := Nat.mul_lt_mul_of_pos_left h1 hb
  exact ⟨by rw [List.getElem?_replicate, if_pos h2], by rw [List.getElem?_replicate, if_pos h2]⟩

/-- A list given by its blocks. -/
theorem exists_blocks (K n : Nat) (B : Nat → List Rat) (h : ∀ i, i < n → (B i).length = K) : ∃ l : List Rat, l.length = n * K ∧ ∀ i, i < n → block K i l = B i := by
  induction n with
  | zero => exact ⟨[], by simp, by simp⟩
  | succ n ih =>
    obtain ⟨l, l1, l2⟩ := ih fun i hi => h i (by omega)
    refine ⟨l ++ B n, by rw [List.length_append, l1, h n (by omega), Nat.succ_mul], fun i hi => ?_⟩
    rcases Nat.lt_succ_iff_lt_or_eq.1 hi with e | rfl
    · rw [← l2 i e]
      have := Nat.mul_le_mul_right K (show i + 1 ≤ n from e)
      rw [Nat.succ_mul] at this
      unfold block
      rw [List.drop_append_of_le_length (by rw [l1, Nat.mul_comm]; omega), List.take_append_of_le_length (by rw [List.length_drop, l1, Nat.mul_comm K]; omega)]
    · unfold block
      rw [List.drop_append_of_le_length (by rw [l1, Nat.mul_comm]), List.drop_of_length_le (by rw [l1, Nat.mul_comm]), List.nil_append, List.take_of_length_le (by rw [h i (by omega)])]

/-- The properties from a deck: the range is that of the saturation functions of the cell. -/
theorem range_from_deck {p : SatFunc.SatProps} {w g : Bool} (hu : p.usage = SatFunc.usageOf w g) (hwg : (w || g) = true) (hf : ∀ f ∈ p.funcs, f.smin.length = 3 ∧ f.smax.length = 3) {n : Nat} {F : Nat → SatFunc.Funcs}
    (hF : ∀ c, c < n → p.funcForCell c = .ok (F c) ∧ F c ∈ p.funcs) :
    RangeOf (fun cells => p.satRange cells.length cells (List.replicate (cells.length * p.usage.num) 0) (List.replicate (cells.length * p.usage.num) 0)) p.usage.num n (fun c => (F c).smin.getD 0 0) (fun c => (F c).smax.getD 0 0) := by
  intro cells hc
  have np : p.usage.num = 2 ∨ p.usage.num = 3 := by
    rw [hu]
    revert hwg
    cases w <;> cases g <;> decide
  have hget : ∀ i, i < cells.length → cells.getD i 0 < n := fun i hi => hc _ (by rw [List.getD_eq_getElem?_getD, List.getElem?_eq_getElem hi]; exact List.getElem_mem hi)
  obtain ⟨t, t1, t2⟩ := exists_blocks p.usage.num cells.length (fun i => (F (cells.getD i 0)).smin.take p.usage.num) (fun i hi => by
    have := (hf _ (hF _ (hget i hi)).2).1
    rw [List.length_take]; omega)
  obtain ⟨u, u1, u2⟩ := exists_blocks p.usage.num cells.length (fun i => (F (cells.getD i 0)).smax.take p.usage.num) (fun i hi => by
    have := (hf _ (hF _ (hget i hi)).2).2
    rw [List.length_take]; omega)
  refine ⟨t, u, (SatFunc.sat_range_batch hu hwg hf (by simp) (by simp) rfl t u).2 ⟨by rw [t1]; simp, by rw [u1]; simp, fun i hi => ⟨cells.getD i 0, F (cells.getD i 0), by rw [List.getD_eq_getElem?_getD, List.getElem?_eq_getElem hi]; rfl, (hF _ (hget i hi)).1, t2 i hi, u2 i hi⟩⟩, fun i c hi => ?_⟩
  have h1 : i < cells.length := (List.getElem?_eq_some_iff.1 hi).1
  have e : cells.getD i 0 = c := by rw [List.getD_eq_getElem?_getD, hi]; rfl
  have m := hf _ (hF _ (hget i h1)).2
  have b1 := t2 i h1
  have b2 := u2 i h1
  rw [e] at b1 b2 m
  have c1 := block_get (K := p.usage.num) (i := i) (j := 0) (l := t) (by omega)
  have c2 := block_get (K := p.usage.num) (i := i) (j := 0) (l := u) (by omega)
  rw [b1, Nat.add_zero, List.getElem?_take_of_lt (by omega)] at c1
  rw [b2, Nat.add_zero, List.getElem?_take_of_lt (by omega)] at c2
  exact ⟨by rw [← c1, getD_some (by omega)], by rw [← c2, getD_some (by omega)]⟩

/-! ### Surface volumes -/

/-- Surface volumes are the matrix of the cell, stored by columns, applied to its saturations. -/
theorem surface_volumes {g : SGrid} {np : Nat} {matrix : List Rat → List Rat → List Rat → M (List Rat)} {st : State} {a : List Rat} (hs : st.sat.length = g.cells * np) (ha : a.length = g.cells * (np * np))
    (hm : matrix st.press st.sat (List.replicate (g.cells * np * np) 0) = .ok a) :
    ∃ z, initSurfvol g np matrix st = .ok { st with surfvol := z } ∧ z.length = g.cells * np ∧
      ∀ c i, c < g.cells → i < np → z[c * np + i]? = some (∑ j ∈ Finset.range np, a.getD (c * (np * np) + np * j + i) 0 * st.sat.getD (c * np + j) 0) := by
  unfold initSurfvol
  rw [hm, bind_ok]
  have key : ∃ z, loop g.cells (fun c z => do
      let z ← loop np (fun row z => wr z (c * np + row) 0) z
      loop np (fun col z =>
        loop np (fun row z => do
          let x ← rd a (c * np * np + (row + np * col))
          let s ← rd st.sat (c * np + col)
          let y ← rd z (c * np + row)
          wr z (c * np + row) (y + x * s)) z) z) st.sat = .ok z ∧ z.length = g.cells * np ∧
      ∀ c i, c < g.cells → i < np → z.getD (c * np + i) 0 = ∑ j ∈ Finset.range np, a.getD (c * (np * np) + np * j + i) 0 * st.sat.getD (c * np + j) 0 := by
    obtain ⟨z, e, z1, z2⟩ := loop_inv (n := g.cells) (f := fun c z => do
      let z ← loop np (fun row z => wr z (c * np + row) 0) z
      loop np (fun col z =>
        loop np (fun row z => do
          let x ← rd a (c * np * np + (row + np * col))
          let s ← rd st.sat (c * np + col)
          let y ← rd z (c * np + row)
          wr z (c * np + row) (y + x * s)) z) z) (s := st.sat) (P := fun m (z : List Rat) => z.length = g.cells * np ∧
        ∀ c i, c < m → i < np → z.getD (c * np + i) 0 = ∑ j ∈ Finset.range np, a.getD (c * (np * np) + np * j + i) 0 * st.sat.getD (c * np + j) 0) ⟨hs, by simp⟩ (by
      rintro c z hc ⟨z1, z2⟩
      have bound : c * np + np ≤ g.cells * np := by
        have := Nat.mul_le_mul_right np (show c + 1 ≤ g.cells from hc)
        rwa [Nat.succ_mul] at this
      have bound2 : c * (np * np) + np * np ≤ g.cells * (np * np) := by
        have := Nat.mul_le_mul_right (np * np) (show c + 1 ≤ g.cells from hc)
        rwa [Nat.succ_mul] at this
      obtain ⟨t, et, t1, t2, t3⟩ := loop_writes (n := np) (f := fun row z => wr z (c * np + row) 0) (s := z) (fun i => c * np + i) (fun _ => 0) (fun i hi => by omega) (fun i j _ _ e => by omega) (fun i t hi _ _ => rfl)
      rw [et, bind_ok]
      obtain ⟨u, eu, u1, u2, u3⟩ := loop_inv (n := np) (f := fun col z =>
        loop np (fun row z => do
          let x ← rd a (c * np * np + (row + np * col))
          let s ← rd st.sat (c * np + col)
          let y ← rd z (c * np + row)
          wr z (c * np + row) (y + x * s)) z) (s := t) (P := fun m (u : List Rat) => u.length = g.cells * np ∧
          (∀ i, i < np → u.getD (c * np + i) 0 = ∑ j ∈ Finset.range m, a.getD (c * (np * np) + np * j + i) 0 * st.sat.getD (c * np + j) 0) ∧ ∀ k, (∀ i, i < np → k ≠ c * np + i) → u.getD k 0 = z.getD k 0)
        ⟨by omega, fun i hi => by rw [t2 i hi]; simp, fun k hk => t3 k fun i hi => Ne.symm (hk i hi)⟩ (by
          rintro col u hcol ⟨u1, u2, u3⟩
          have inner : np * col + np ≤ np * np := by
            have := Nat.mul_le_mul_left np (show col + 1 ≤ np from hcol)
            rwa [Nat.mul_succ] at this
          obtain ⟨v, ev, v1, v2, v3⟩ := loop_writes (n := np) (f := fun row z => do
            let x ← rd a (c * np * np + (row + np * col))
            let s ← rd st.sat (c * np + col)
            let y ← rd z (c * np + row)
            wr z (c * np + row) (y + x * s)) (s := u) (fun i => c * np + i) (fun i => u.getD (c * np + i) 0 + a.getD (c * np * np + (i + np * col)) 0 * st.sat.getD (c * np + col) 0)
            (fun i hi => by omega) (fun i j _ _ e => by omega) (fun i t hi tl th => by
              rw [rd_of_getElem? (getD_some (by rw [ha, Nat.mul_assoc c]; omega)), bind_ok, rd_of_getElem? (getD_some (by omega)), bind_ok, rd_of_getElem? (getD_some (by omega)), bind_ok, th])
          refine ⟨v, ev, by omega, fun i hi => ?_, fun k hk => ?_⟩
          · rw [v2 i hi, u2 i hi, Finset.sum_range_succ, Nat.mul_assoc c, Nat.add_comm i, ← Nat.add_assoc]
          · rw [v3 k fun i hi => Ne.symm (hk i hi), u3 k hk])
      refine ⟨u, eu, u1, fun c' i hc' hi => ?_⟩
      rcases Nat.lt_succ_iff_lt_or_eq.1 hc' with h | rfl
      · rw [u3 _ fun i' hi' e => ?_, z2 c' i h hi]
        have := Nat.mul_le_mul_right np (show c' + 1 ≤ c from h)
        rw [Nat.succ_mul] at this
        omega
      · exact u2 i hi)
    exact ⟨z, e, z1, z2⟩
  obtain ⟨z, e, z1, z2⟩ := key
  rw [e, bind_ok]
  refine ⟨z, rfl, z1, fun c i hc hi => ?_⟩
  have := Nat.mul_le_mul_right np (show c + 1 ≤ g.cells from hc)
  rw [Nat.succ_mul] at this
  rw [← z2 c i hc hi, getD_some (by omega)]

/-! ### Wells -/

/-- The bottom-hole pressure a well starts with: the target of the current control if that is a pressure; else the pressure of the cell of the first perforation. -/
inductive StartBhp (W : Wells.W) (p : List Rat) (w : Nat) : Rat → Prop
  | target (k : Nat) (v : Rat) (ct : Wells.Controls) (hc : W.ctrls[w]? = some ct) (hk : ct.current = (k : Int)) (ht : ct.type[k]? = some .bhp) (hv : ct.target[k]? = some v) : StartBhp W p w v
  | cell (i c : Nat) (v : Rat) (ct : Wells.Controls) (hc : W.ctrls[w]? = some ct) (hk : ct.current < 0 ∨ ∃ k t, ct.current = ((k : Nat) : Int) ∧ ct.type[k]? = some t ∧ t ≠ .bhp) (hi : W.connpos[w]? = some i) (hcell : W.cells[i]? = some (c : Int))
      (hv : p[c]? = some v) : StartBhp W p w v

theorem length_resizeWith (l : List Rat) (n : Nat) (v : Rat) : (resizeWith l n v).length = n := by
  simp [resizeWith]; omega

theorem wellBhp_ok {W : Wells.W} {p : List Rat} {w : Nat} {v : Rat} (h : StartBhp W p w v) : wellBhp W p w = .ok v := by
  have fp : ∀ {i c : Nat}, W.connpos[w]? = some i → W.cells[i]? = some (c : Int) → p[c]? = some v → firstPressure W p w = .ok v := fun {i c} h1 h2 h3 => by
    unfold firstPressure
    rw [rd_of_getElem? h1, bind_ok, rd_of_getElem? h2, bind_ok, rdI_of_getElem? rfl h3]
  unfold wellBhp
  cases h with
  | target k v ct hc hk ht hv =>
    rw [rd_of_getElem? hc, bind_ok, if_neg (by omega), hk, rdI_of_getElem? rfl ht, bind_ok, if_neg (by simp), rdI_of_getElem? rfl hv]
  | cell i c v ct hc hk hi hcell hv =>
    rw [rd_of_getElem? hc, bind_ok]
    rcases hk with hk | ⟨k, t, hk, ht, hne⟩
    · rw [if_pos hk, fp hi hcell hv]
    · rw [if_neg (by omega), hk, rdI_of_getElem? rfl ht, bind_ok, if_pos hne, fp hi hcell hv]

/-- All wells start so, and there is room for the rate and pressure of each perforation.  Without wells nothing changes. -/
theorem well_state {W : Wells.W} {p : List Rat} {n : Nat} (hn : W.connpos[W.nw]? = some n) {b : Nat → Rat} (hb : ∀ w, w < W.nw → StartBhp W p w (b w)) (s : WellState) :
    s.init none p = .ok s ∧ ∃ t, s.init (some W) p = .ok t ∧ t.bhp = (List.range W.nw).map b ∧ t.rates.length = n ∧ t.press.length = n ∧ (s.rates = [] → t.rates = List.replicate n 0) := by
  refine ⟨rfl, ?_⟩
  unfold WellState.init
  dsimp only
  obtain ⟨t, et, t1, t2, _⟩ := loop_writes (n := W.nw) (f := fun w b => do
      let v ← wellBhp W p w
      wr b w v) (s := resizeWith s.bhp W.nw 0) (fun i => i) b (fun i hi => by rw [length_resizeWith]; exact hi) (fun i j _ _ e => e) (fun i t hi _ _ => by rw [wellBhp_ok (hb i hi), bind_ok])
  rw [et, bind_ok, rd_of_getElem? hn, bind_ok]
  refine ⟨_, rfl, ?_, length_resizeWith _ _ _, length_resizeWith _ _ _, fun e => ?_⟩
  · refine List.ext_getElem (by rw [t1, length_resizeWith]; simp) fun i h1 h2 => ?_
    have hi : i < W.nw := by simpa using h2
    have := t2 i hi
    rw [List.getD_eq_getElem?_getD, List.getElem?_eq_getElem h1] at this
    simpa using this
  · dsimp only
    rw [e]
    simp [resizeWith]

/-! ### Compressible fluids -/

theorem mem_put {k v : Rat} {x : Rat × Rat} {m : List (Rat × Rat)} (hx : x ∈ MonotCubic.put k v m) : x ∈ m ∨ x = (k, v) := by
  induction m with
  | nil => exact Or.inr (by simpa [MonotCubic.put] using hx)
  | cons y l ih =>
    unfold MonotCubic.put at hx
    split at hx
    · exact (List.mem_cons.1 hx).symm
    · split at hx
      · exact (List.mem_cons.1 hx).symm.imp (List.mem_cons_of_mem _) id
      · rcases List.mem_cons.1 hx with k | k
        · exact Or.inl (by rw [k]; exact List.mem_cons_self)
        · exact (ih k).imp (List.mem_cons_of_mem _) id

theorem put_mem (k v : Rat) (m : List (Rat × Rat)) : (k, v) ∈ MonotCubic.put k v m := by
  induction m with
  | nil => exact List.mem_singleton.2 rfl
  | cons y l ih =>
    unfold MonotCubic.put
    split
    · exact List.mem_cons_self
    · split
      · exact List.mem_cons_self
      · exact List.mem_cons_of_mem _ ih

/-- The pressure follows from the density by steps of the explicit Euler method, and the points reached are added. -/
theorem march_steps {rho : Rat → M Rat} {grav h : Rat} {n : Nat} {z p : Rat} {m : List (Rat × Rat)} {a b : Rat} {m' : List (Rat × Rat)} (e : march rho grav h n z p m = .ok (a, b, m')) :
    ∃ P : Nat → Rat, P 0 = p ∧ a = z + n * h ∧ b = P n ∧ (∀ i, i < n → ∃ r, rho (P i) = .ok r ∧ P (i + 1) - P i = h * r * grav) ∧
      (∀ x ∈ m', x ∈ m ∨ ∃ i, 0 < i ∧ i ≤ n ∧ x = (z + i * h, P i)) ∧ (0 < n → (a, b) ∈ m') := by
  unfold march at e
  induction n generalizing a b m' with
  | zero =>
    rw [loop_zero] at e
    cases e
    exact ⟨fun _ => p, rfl, by simp, rfl, by simp, fun x hx => Or.inl hx, by simp⟩
  | succ n ih =>
    rw [loop_succ] at e
    obtain ⟨⟨a0, b0, m0⟩, e0, e1⟩ := bind_eq_ok.1 e
    obtain ⟨P, h1, h2, h3, h4, h5, _⟩ := ih e0
    obtain ⟨r, er, e2⟩ := bind_eq_ok.1 e1
    dsimp only at er e2
    cases e2
    refine ⟨fun i => if i ≤ n then P i else b0 + h * (r * grav), by simpa using h1, ?_, ?_, fun i hi => ?_, fun x hx => ?_, fun _ => ?_⟩
    · rw [h2]; push_cast; ring
    · simp
    · rcases Nat.lt_succ_iff_lt_or_eq.1 hi with l | rfl
      · obtain ⟨r', k1, k2⟩ := h4 i l
        exact ⟨r', by simpa [l.le] using k1, by simpa [l.le, Nat.succ_le_of_lt l] using k2⟩
      · refine ⟨r, by simpa [h3] using er, ?_⟩
        simp [h3]
        ring
    · rcases mem_put hx with k | k
      · rcases h5 x k with q | ⟨i, q1, q2, q3⟩
        · exact Or.inl q
        · exact Or.inr ⟨i, q1, by omega, by simpa [q2] using q3⟩
      · refine Or.inr ⟨n + 1, by omega, le_rfl, ?_⟩
        rw [k, h2]
        simp
        ring
    · exact put_mem _ _ _

/-- No steps are made only without a distance. -/
theorem numSteps_zero {len hmin : Rat} (hh : 0 < hmin) (e : numSteps len hmin = .ok 0) : len = 0 := by
  unfold numSteps at e
  rw [if_neg (ne_of_gt hh)] at e
  dsimp only at e
  split at e
  · cases e
  · have h1 := Except.ok.inj e
    have h2 : (|len| / hmin).ceil ≤ 0 := by omega
    have h3 : |len| / hmin ≤ 0 := by
      have := Rat.le_ceil (x := |len| / hmin)
      refine this.trans ?_
      exact_mod_cast h2
    have h4 : 0 ≤ |len| / hmin := div_nonneg (abs_nonneg _) hh.le
    have h5 : |len| / hmin = 0 := le_antisymm h3 h4
    rcases div_eq_zero_iff.1 h5 with k | k
    · exact abs_eq_zero.1 k
    · exact absurd k (ne_of_gt hh)

/-- For fluids whose density does not depend on the pressure, all points the pressure is interpolated from are those of the hydrostatic pressure. -/
theorem points_hydrostatic_partial {rho : Rat → Nat → M Rat} {water oil : Rat} (hw : ∀ p, rho p 0 = .ok water) (ho : ∀ p, rho p 1 = .ok oil) {zlim : Rat × Rat} (hz : zlim.1 < zlim.2) {woc grav datumZ datumP : Rat} {m : List (Rat × Rat)}
    (e : pressurePoints rho zlim woc grav datumZ datumP = .ok m) (hin : zlim.1 ≤ datumZ ∧ datumZ ≤ zlim.2) : ∃ P, Hydrostatic P woc water oil grav datumZ datumP ∧ ∀ x ∈ m, x.2 = P x.1 := by
  have lin : ∀ {r : Rat} {f : Rat → M Rat} (hf : ∀ p, f p = .ok r) {h : Rat} {n : Nat} {z p : Rat} {m m' : List (Rat × Rat)} {a b : Rat}, march f grav h n z p m = .ok (a, b, m') →
      a = z + n * h ∧ b = p + (a - z) * grav * r ∧ ∀ x ∈ m', x ∈ m ∨ (x.2 = p + (x.1 - z) * grav * r ∧ ∃ i : Nat, i ≤ n ∧ x.1 = z + i * h) := fun {r f} hf {h n z p m m' a b} e => by
    obtain ⟨P, h1, h2, h3, h4, h5, _⟩ := march_steps e
    have hP : ∀ i, i ≤ n → P i = p + i * h * grav * r := by
      intro i
      induction i with
      | zero => intro _; rw [h1]; simp
      | succ i ih =>
        intro hi
        obtain ⟨r', k1, k2⟩ := h4 i hi
        rw [hf] at k1
        cases k1
        rw [ih (by omega)] at k2
        push_cast
        linarith
    refine ⟨h2, by rw [h3, hP n le_rfl, h2]; ring, fun x hx => (h5 x hx).imp id ?_⟩
    rintro ⟨i, _, i2, rfl⟩
    exact ⟨by dsimp only; rw [hP i i2]; ring, i, i2, rfl⟩
  unfold pressurePoints at e
  obtain ⟨n1, e1, e⟩ := bind_eq_ok.1 e
  obtain ⟨⟨a1, a2, ma⟩, ea, e⟩ := bind_eq_ok.1 e
  obtain ⟨n2, e2, e⟩ := bind_eq_ok.1 e
  obtain ⟨⟨b1, b2, mb⟩, eb, e⟩ := bind_eq_ok.1 e
  obtain ⟨⟨c1, c2, mc⟩, ec, e⟩ := bind_eq_ok.1 e
  dsimp only at ea eb ec e
  cases e
  have hh : 0 < (zlim.2 - zlim.1) / 100 := by linarith
  have reach : (n1 : Rat) * ((woc - datumZ) / n1) = woc - datumZ := by
    rcases Nat.eq_zero_or_pos n1 with k | k
    · subst k
      rw [numSteps_zero hh e1]
      simp
    · have : (n1 : Rat) ≠ 0 := by exact_mod_cast k.ne'
      field_simp
  have frac : ∀ (i n : Nat) (l : Rat), 0 ≤ l → 0 ≤ (i : Rat) * (l / n) := fun i n l hl => mul_nonneg (Nat.cast_nonneg _) (div_nonneg hl (Nat.cast_nonneg _))
  have part : ∀ (i n : Nat) (l : Rat), l ≤ 0 → (i : Rat) * (l / n) ≤ 0 := fun i n l hl => mul_nonpos_of_nonneg_of_nonpos (Nat.cast_nonneg _) (div_nonpos_of_nonpos_of_nonneg hl (Nat.cast_nonneg _))
  have within : ∀ (i n : Nat) (l : Rat), i ≤ n → (n : Rat) * (l / n) = l → (l ≤ 0 → l ≤ i * (l / n)) ∧ (0 ≤ l → i * (l / n) ≤ l) := fun i n l hi hl => by
    have h : (i : Rat) ≤ n := by exact_mod_cast hi
    refine ⟨fun h0 => ?_, fun h0 => ?_⟩
    · have := mul_le_mul_of_nonpos_right h (div_nonpos_of_nonpos_of_nonneg h0 (Nat.cast_nonneg n))
      rwa [hl] at this
    · have := mul_le_mul_of_nonneg_right h (div_nonneg h0 (Nat.cast_nonneg n))
      rwa [hl] at this
  by_cases hwd : woc < datumZ
  · rw [if_pos hwd] at ea eb ec
    rw [if_pos hwd] at eb ec
    obtain ⟨A1, A2, A3⟩ := lin hw ea
    obtain ⟨B1, B2, B3⟩ := lin hw eb
    obtain ⟨C1, C2, C3⟩ := lin ho ec
    refine ⟨fun z => if z ≤ woc then datumP + (woc - datumZ) * grav * water + (z - woc) * grav * oil else datumP + (z - datumZ) * grav * water, ⟨?_, fun a b ha hb => ?_, fun a b ha hb => ?_⟩, ?_⟩
    · rw [if_neg (not_le.2 hwd)]; ring
    · have k : ∀ z, woc ≤ z → (if z ≤ woc then datumP + (woc - datumZ) * grav * water + (z - woc) * grav * oil else datumP + (z - datumZ) * grav * water) = datumP + (z - datumZ) * grav * water := fun z hz => by
        split
        · next h => rw [le_antisymm h hz]; ring
        · rfl
      rw [k a ha, k b hb]; ring
    · rw [if_pos ha, if_pos hb]; ring
    · have low : ∀ x : Rat × Rat, woc ≤ x.1 → x.2 = datumP + (x.1 - datumZ) * grav * water → x.2 = if x.1 ≤ woc then datumP + (woc - datumZ) * grav * water + (x.1 - woc) * grav * oil else datumP + (x.1 - datumZ) * grav * water := fun x hx h => by
        rw [h]
        split
        · next h => rw [le_antisymm h hx]; ring
        · rfl
      have high : ∀ x : Rat × Rat, x.1 ≤ woc → x.2 = datumP + (woc - datumZ) * grav * water + (x.1 - woc) * grav * oil → x.2 = if x.1 ≤ woc then datumP + (woc - datumZ) * grav * water + (x.1 - woc) * grav * oil else datumP + (x.1 - datumZ) * grav * water := fun x hx h => by
        rw [h, if_pos hx]
      intro x hx
      rcases C3 x hx with hx | ⟨k1, i, _, k2⟩
      · rcases B3 x hx with hx | ⟨k1, i, _, k2⟩
        · rcases A3 x hx with hx | ⟨k1, i, i1, k2⟩
          · rw [List.mem_singleton.1 hx]
            exact low _ (by dsimp only; linarith) (by dsimp only; ring)
          · refine low x ?_ k1
            rw [k2]
            have := within i n1 _ i1 reach
            exact le_of_sub_nonneg (by nlinarith [this.1 (by linarith)])
        · have := frac i n2 (zlim.2 - datumZ) (by linarith)
          exact low x (by rw [k2]; linarith) k1
      · have := part i n2 (zlim.1 - datumZ) (by linarith)
        rw [A2, A1, reach] at k1
        exact high x (by rw [k2]; linarith) (by rw [k1]; ring)
  · rw [if_neg hwd] at ea eb ec
    rw [if_neg hwd] at eb ec
    obtain ⟨A1, A2, A3⟩ := lin ho ea
    obtain ⟨B1, B2, B3⟩ := lin ho eb
    obtain ⟨C1, C2, C3⟩ := lin hw ec
    rw [not_lt] at hwd
    refine ⟨fun z => if z ≤ woc then datumP + (z - datumZ) * grav * oil else datumP + (woc - datumZ) * grav * oil + (z - woc) * grav * water, ⟨?_, fun a b ha hb => ?_, fun a b ha hb => ?_⟩, ?_⟩
    · rw [if_pos hwd]; ring
    · have k : ∀ z, woc ≤ z → (if z ≤ woc then datumP + (z - datumZ) * grav * oil else datumP + (woc - datumZ) * grav * oil + (z - woc) * grav * water) = datumP + (woc - datumZ) * grav * oil + (z - woc) * grav * water := fun z hz => by
        split
        · next h => rw [le_antisymm h hz]; ring
        · rfl
      rw [k a ha, k b hb]; ring
    · rw [if_pos ha, if_pos hb]; ring
    · have low : ∀ x : Rat × Rat, x.1 ≤ woc → x.2 = datumP + (x.1 - datumZ) * grav * oil → x.2 = if x.1 ≤ woc then datumP + (x.1 - datumZ) * grav * oil else datumP + (woc - datumZ) * grav * oil + (x.1 - woc) * grav * water := fun x hx h => by
        rw [h, if_pos hx]
      have high : ∀ x : Rat × Rat, woc ≤ x.1 → x.2 = datumP + (woc - datumZ) * grav * oil + (x.1 - woc) * grav * water → x.2 = if x.1 ≤ woc then datumP + (x.1 - datumZ) * grav * oil else datumP + (woc - datumZ) * grav * oil + (x.1 - woc) * grav * water := fun x hx h => by
        rw [h]
        split
        · next h => rw [le_antisymm h hx]; ring
        · rfl
      intro x hx
      rcases C3 x hx with hx | ⟨k1, i, _, k2⟩
      · rcases B3 x hx with hx | ⟨k1, i, _, k2⟩
        · rcases A3 x hx with hx | ⟨k1, i, i1, k2⟩
          · rw [List.mem_singleton.1 hx]
            exact low _ (by dsimp only; linarith) (by dsimp only; ring)
          · refine low x ?_ k1
            rw [k2]
            have := within i n1 _ i1 reach
            exact le_of_sub_nonneg (by nlinarith [this.2 (by linarith)])
        · have := part i n2 (zlim.1 - datumZ) (by linarith)
          exact low x (by rw [k2]; linarith) k1
      · have := frac i n2 (zlim.2 - datumZ) (by linarith)
        rw [A2, A1, reach] at k1
        exact high x (by rw [k2]; linarith) (by rw [k1]; ring)

/-- Cells which are all at the same depth: the number of steps is a division by zero. -/
theorem flat_undefined (rho : Rat → Nat → M Rat) (z woc grav datumZ datumP : Rat) : pressurePoints rho (z, z) woc grav datumZ datumP = .error .ub := by
  unfold pressurePoints
  simp only [sub_self, zero_div]
  rfl

/-- Without a contact one at `-1e100` is used, and the number of steps to it does not fit into an integer. -/
theorem default_undefined (rho : Rat → Nat → M Rat) {zlim : Rat × Rat} {z : Rat} (h1 : zlim.1 < zlim.2) (h2 : zlim.2 - zlim.1 ≤ 10 ^ 50) (h3 : -10 ^ 50 ≤ z) (grav datumP : Rat) : pressurePoints rho zlim (-(10 : Rat) ^ 100) grav z datumP = .error .ub := by
  have : numSteps (-(10 : Rat) ^ 100 - z) ((zlim.2 - zlim.1) / 100) = .error .ub := by
    unfold numSteps
    have hpos : 0 < (zlim.2 - zlim.1) / 100 := by linarith
    rw [if_neg (ne_of_gt hpos)]
    dsimp only
    have habs : (10 : Rat) ^ 100 - 10 ^ 50 ≤ |(-(10 : Rat) ^ 100 - z)| := by
      rw [abs_of_nonpos (by norm_num at h3 ⊢; linarith)]
      norm_num at h3 ⊢
      linarith
    have big : (2147483648 : Rat) ≤ |(-(10 : Rat) ^ 100 - z)| / ((zlim.2 - zlim.1) / 100) := by
      rw [le_div_iff₀ hpos]
      norm_num at h2 habs ⊢
      linarith
    have hc : (2147483648 : Int) ≤ (|(-(10 : Rat) ^ 100 - z)| / ((zlim.2 - zlim.1) / 100)).ceil := by
      have := big.trans (Rat.le_ceil (x := _))
      exact_mod_cast this
    rw [if_pos (Or.inl (by omega))]
  unfold pressurePoints
  dsimp only
  rw [this]
  rfl

/-- The smallest and largest depth. -/
theorem depth_range {g : SGrid} (hg : g.Fits) (h0 : 0 < g.cells) {b : Rat} (hb : b ≤ 10 ^ 100) (hz : ∀ c, c < g.cells → |g.z c| ≤ b) :
    ∃ lo hi, depthRange g = .ok (lo, hi) ∧ (∀ c, c < g.cells → lo ≤ g.z c ∧ g.z c ≤ hi) ∧ (∃ c, c < g.cells ∧ g.z c = lo) ∧ ∃ c, c < g.cells ∧ g.z c = hi := by
  obtain ⟨⟨lo, hi⟩, e, k⟩ := loop_inv (n := g.cells) (f := fun c (r : Rat × Rat) => do
    let z ← g.depth c
    .ok (min r.1 z, max r.2 z)) (s := ((10 : Rat) ^ 100, -(10 : Rat) ^ 100)) (P := fun m (r : Rat × Rat) => (m = 0 → r = ((10 : Rat) ^ 100, -(10 : Rat) ^ 100)) ∧
      (0 < m → (∀ c, c < m → r.1 ≤ g.z c ∧ g.z c ≤ r.2) ∧ (∃ c, c < m ∧ g.z c = r.1) ∧ ∃ c, c < m ∧ g.z c = r.2)) ⟨fun _ => rfl, by simp⟩ (by
      rintro c ⟨lo, hi⟩ hc ⟨k0, k⟩
      rw [depth_ok hg hc, bind_ok]
      refine ⟨_, rfl, by simp, fun _ => ?_⟩
      have hzc := abs_le.1 ((hz c hc).trans hb)
      dsimp only at k0 k ⊢
      rcases Nat.eq_zero_or_pos c with e | e
      · subst e
        obtain ⟨e1, e2⟩ := Prod.mk.inj (k0 rfl)
        rw [e1, e2, min_eq_right hzc.2, max_eq_right hzc.1]
        exact ⟨fun c h => by rw [show c = 0 by omega]; exact ⟨le_rfl, le_rfl⟩, ⟨0, by omega, rfl⟩, ⟨0, by omega, rfl⟩⟩
      · obtain ⟨a1, ⟨c1, l1, m1⟩, c2, l2, m2⟩ := k e
        refine ⟨fun c' h => ?_, ?_, ?_⟩
        · rcases Nat.lt_succ_iff_lt_or_eq.1 h with h | rfl
          · exact ⟨(min_le_left _ _).trans (a1 c' h).1, (a1 c' h).2.trans (le_max_left _ _)⟩
          · exact ⟨min_le_right _ _, le_max_right _ _⟩
        · rcases le_total lo (g.z c) with h | h
          · exact ⟨c1, by omega, by rw [min_eq_left h, m1]⟩
          · exact ⟨c, by omega, by rw [min_eq_right h]⟩
        · rcases le_total hi (g.z c) with h | h
          · exact ⟨c, by omega, by rw [max_eq_right h]⟩
          · exact ⟨c2, by omega, by rw [max_eq_left h, m2]⟩)
  exact ⟨lo, hi, e, (k.2 h0).1, (k.2 h0).2⟩

/-- So the state of black-oil fluids cannot be initialised without a contact: whatever the fluids are, the number of steps overflows or is a division by zero. -/
theorem comp_default_undefined {sqrt : Rat → Rat} {g : SGrid} (hg : g.Fits) (h0 : 0 < g.cells) (hz : ∀ c, c < g.cells → |g.z c| ≤ 10 ^ 49) {range : Range} {lo hi : Nat → Rat} (hr : RangeOf range 2 g.cells lo hi) {q : Params} (h1 : q.convection = false) (h2 : q.woc = none)
    (u : Sampling) (rho : Rat → Nat → M Rat) (grav : Rat) (st : State) :
    initBasicComp sqrt g 2 g.cells range (fun woc dz dp p => hydrostaticComp u 2 rho g woc grav dz dp p) q st = .error .ub := by
  unfold initBasicComp
  obtain ⟨a, e1, a1, a2, a3, a4, a5, _⟩ := state_init st g (np := 2) le_rfl
  obtain ⟨s, e2, s1, s2⟩ := set_first_sat (st := a) (n := g.cells) (by omega) (by rw [a1]; exact hr) (by rw [a5, a1]) (cells := List.range g.cells) (fun c hc => List.mem_range.1 hc) false
  rw [if_neg (by decide), e1, bind_ok, e2, bind_ok]
  unfold compCells
  rw [h1, h2]
  dsimp only
  rw [if_neg (by decide), depth_ok hg h0, bind_ok]
  unfold hydrostaticComp
  obtain ⟨l, r, e3, b1, ⟨c1, d1, f1⟩, c2, d2, f2⟩ := depth_range hg h0 (b := 10 ^ 49) (by norm_num) hz
  rw [show check (decide (2 = 2)) = .ok () from rfl, bind_ok, e3, bind_ok]
  have hl := abs_le.1 (hz c1 d1)
  have hr' := abs_le.1 (hz c2 d2)
  have h00 := abs_le.1 (hz 0 h0)
  rw [f1] at hl
  rw [f2] at hr'
  rcases eq_or_lt_of_le ((b1 0 h0).1.trans (b1 0 h0).2) with k | k
  · rw [k, flat_undefined]
    rfl
  · rw [default_undefined rho (zlim := (l, r)) k (by norm_num at hl hr' ⊢; linarith) (by norm_num at h00 ⊢; linarith)]
    rfl

/-- Cells at depths 0 and 100. -/
def twoCells : SGrid := { dim := 1, cells := 2, faces := 1, faceCells := [0, 1], cellCent := [0, 100], faceCent := [50], globalCell := none, cart0 := 1 }

/-- Water of density 1000 and oil of density 800. -/
def heavyLight : Rat → Nat → M Rat := fun _ ph => .ok (if ph = 0 then 1000 else 800)

/-- With the datum in the uppermost cell no steps are made below the contact: the pressure 100 m below the datum is that at the contact, 1 m below it. -/
theorem datum_at_top : hydrostaticComp noSampling 2 heavyLight twoCells 1 10 0 100000 [0, 0] = .ok [100000, 108000] ∧
    ∀ P, Hydrostatic P 1 1000 800 10 0 100000 → P 0 = 100000 ∧ P 1 = 108000 ∧ P 100 = 1098000 := by
  refine ⟨by decide +kernel, fun P h => ?_⟩
  have h0 := h.datum
  have h1 := h.above 0 1 (by norm_num) le_rfl
  have h2 := h.below 1 100 le_rfl (by norm_num)
  refine ⟨h0, ?_, ?_⟩ <;> linarith

/-- With the datum above the grid and the contact between, the weight of oil is used below the contact. -/
theorem datum_above_grid : (∃ m, pressurePoints heavyLight (2, 102) 1 10 0 100000 = .ok m ∧ (2, 116000) ∈ m) ∧ ∀ P, Hydrostatic P 1 1000 800 10 0 100000 → P 2 = 118000 := by
  refine ⟨⟨[(0, 100000), (1, 108000), (2, 116000), (52, 618000), (103, 1128000)], by decide +kernel, by decide +kernel⟩, fun P h => ?_⟩
  have h0 := h.datum
  have h1 := h.above 0 1 (by norm_num) le_rfl
  have h2 := h.below 1 2 le_rfl (by norm_num)
  linarith

/-! ### The hypotheses can be met -/

theorem twoCells_fits : twoCells.Fits := ⟨by decide, rfl, rfl, rfl, by decide⟩

theorem twoCells_apart : Apart (fun x => x) twoCells := by
  intro f a b h1 h2
  have hf : f = 0 := by
    have := (List.getElem?_eq_some_iff.1 h1).1
    simp only [twoCells, List.length_cons, List.length_nil] at this
    omega
  subst hf
  have e1 : a = 0 := by simpa [twoCells] using h1.symm
  have e2 : b = 1 := by simpa [twoCells] using h2.symm
  subst e1
  subst e2
  decide +kernel

theorem noRange : RangeOf (fun cells => .ok (List.replicate (2 * cells.length) (1 / 10), List.replicate (2 * cells.length) (9 / 10))) 2 2 (fun _ => 1 / 10) (fun _ => 9 / 10) := by
  intro cells _
  refine ⟨_, _, rfl, fun i c hi => ?_⟩
  have : i < cells.length := (List.getElem?_eq_some_iff.1 hi).1
  simp [this]

def twoPhases : IncProps := ⟨2, 2, [1000, 800], fun cells => .ok (List.replicate (2 * cells.length) (1 / 10), List.replicate (2 * cells.length) (9 / 10))⟩

theorem twoPhases_for : twoPhases.For twoCells 1000 800 (fun _ => 1 / 10) (fun _ => 9 / 10) := ⟨rfl, rfl, rfl, noRange⟩

example : (initBasic (fun x => x) twoCells twoPhases { convection := false, segregation := false, woc := some 50, initSat := none, refPressure := 100 } 10 {}).map (fun t => (t.sat, t.press, t.fpress)) = .ok ([1 / 10, 9 / 10, 9 / 10, 1 / 10], [9600000, 10500000], [10050000]) := by decide +kernel

example : ∃ t p, initBasic (fun x => x) twoCells twoPhases { convection := false, segregation := false, woc := some 50, initSat := none, refPressure := 100 } 10 {} = .ok t ∧ Hydrostatic p 50 1000 800 10 50 ((100 : Int) * 100000) ∧
    Initial (fun x => x) twoCells t (fun c => if 50 < twoCells.z c then 9 / 10 else 1 / 10) (fun c => p (twoCells.z c)) :=
  basic_contact twoCells_fits twoCells_apart twoPhases_for rfl rfl rfl 10 {}

example : Placed twoCells 2 := fun c hc => ⟨c, rfl, hc⟩

example : (initFromDeck (fun x => x) twoCells 3 (fun _ => .error .ub) (fun _ _ _ _ => .error .ub) { phases := { water := true, oil := true, gas := true }, pressure := some [1, 2], swat := some [1 / 4, 1 / 2], sgas := some [1 / 2, 1 / 4] } {}).map (·.sat) = .ok [1 / 4, 1 / 4, 1 / 2, 1 / 2, 1 / 4, 1 / 4] := by decide +kernel

example : (initSurfvol twoCells 2 (fun _ _ _ => .ok [2, 1, 3, 5, 1, 0, 0, 1]) { np := 2, press := [1, 1], fpress := [1], flux := [0], sat := [1, 0, 1 / 2, 1 / 2], surfvol := [] }).map (·.surfvol) = .ok [2, 1, 1 / 2, 1 / 2] := by decide +kernel

end Opm.InitState
