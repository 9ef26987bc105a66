import Verif.Proofs.UniqueAssign
/-!
# Points on the pillars of a corner-point grid

Properties of `finduniquepoints`.
-/

namespace Opm.UniquePoints
open Opm

theorem flat_get {Us : List (List Rat)} {q k : Nat} {u : List Rat} (h : Us[q]? = some u) (hk : k < u.length) : Us.flatten.getD (startOf Us q + k) 0 = u.getD k 0 := by
  have hq : q < Us.length := by by_contra hc; rw [List.getElem?_eq_none (by omega)] at h; cases h
  have : Us = Us.take q ++ u :: Us.drop (q + 1) := by
    rw [List.getElem?_eq_getElem hq] at h
    rw [← Option.some.inj h]
    simp
  unfold startOf
  conv_lhs => rw [this, List.flatten_append, List.flatten_cons]
  rw [← this, List.getD_eq_getElem?_getD, List.getElem?_append_right (by omega), Nat.add_sub_cancel_left, List.getElem?_append_left hk, List.getD_eq_getElem?_getD]

theorem startOf_succ {Us : List (List Rat)} {q : Nat} {u : List Rat} (h : Us[q]? = some u) : startOf Us (q + 1) = startOf Us q + u.length := by
  have hq : q < Us.length := by by_contra hc; rw [List.getElem?_eq_none (by omega)] at h; cases h
  unfold startOf
  rw [List.take_add_one, h, List.flatten_append, List.length_append]
  simp

/-- The second part of `finduniquepoints`. -/
theorem columns_ok {g : Grdecl} (hg : g.Ok) {tol : Rat} (ht : 0 ≤ tol) {Us : List (List Rat)} {s : Pillars} (hUs : Us.length = g.numPillars) (h : PInv g tol Us s)
    {plist : List Int} (hp : plist.length = (2 + 2 * g.nz) * (2 * g.nx * (2 * g.ny))) :
    ∃ pl p, loop (2 * g.ny) (fun j r => loop (2 * g.nx) (fun i r => column g tol s.zlist s.zptr i j r) r) (some (plist, 0)) = .ok (some (pl, p)) ∧
      pl.length = plist.length ∧ ∀ I J, I < 2 * g.nx → J < 2 * g.ny → ColOk (g.Active I J) (g.depth I J) s.zlist tol (startOf Us (g.pillarOf I J))
        (startOf Us (g.pillarOf I J + 1)) ((2 + 2 * g.nz) * (I + 2 * g.nx * J)) (2 * g.nz) pl := by
  obtain ⟨o, e, pl, p, rfl, h1, h2, h3⟩ := loop2_inv (a := 2 * g.nx) (b := 2 * g.ny) (f := fun i j r => column g tol s.zlist s.zptr i j r) (s := some (plist, 0))
    (P := fun c o => ∃ pl p, o = some (pl, p) ∧ p = (2 + 2 * g.nz) * c ∧ pl.length = plist.length ∧ ∀ I J, I < 2 * g.nx → J < 2 * g.ny → I + 2 * g.nx * J < c →
      ColOk (g.Active I J) (g.depth I J) s.zlist tol (startOf Us (g.pillarOf I J)) (startOf Us (g.pillarOf I J + 1)) ((2 + 2 * g.nz) * (I + 2 * g.nx * J)) (2 * g.nz) pl)
    ⟨plist, 0, rfl, by simp, rfl, by intro I J _ _ h; omega⟩ (by
      rintro I J o hI hJ ⟨pl, p, rfl, h1, h2, h3⟩
      have hc : I + 2 * g.nx * J + 1 ≤ 2 * g.nx * (2 * g.ny) := by
        have := Nat.mul_le_mul_left (2 * g.nx) (Nat.succ_le_of_lt hJ)
        rw [Nat.mul_succ] at this
        omega
      have hcap : p + 2 + 2 * g.nz ≤ pl.length := by
        rw [h2, hp, h1]
        have := Nat.mul_le_mul_left (2 + 2 * g.nz) hc
        rw [Nat.mul_succ] at this
        omega
      have hpix : (I + 1) / 2 + (g.nx + 1) * ((J + 1) / 2) < Us.length := by
        rw [hUs]
        unfold Grdecl.numPillars
        have := Nat.mul_le_mul_left (g.nx + 1) (show (J + 1) / 2 + 1 ≤ g.ny + 1 by omega)
        rw [Nat.mul_succ] at this
        omega
      obtain ⟨u, eu⟩ : ∃ u, Us[g.pillarOf I J]? = some u := ⟨_, List.getElem?_eq_getElem hpix⟩
      have hsu := startOf_succ eu
      have hfull : startOf Us (g.pillarOf I J + 1) ≤ s.zout := by
        rw [h.zout, ← startOf_full]
        exact startOf_mono _ hpix
      have hzl : s.zout ≤ s.zlist.length := by
        have := congrArg List.length h.zlist
        rw [List.length_take, ← h.zout] at this
        omega
      have hget : ∀ k, k < s.zout → s.zlist.getD k 0 = Us.flatten.getD k 0 := by
        intro k hk
        rw [← h.zlist, getD_take hk]
      obtain ⟨st, e1, g1, g2, g3⟩ := assign_ok (act := g.Active I J) (zc := g.depth I J) (zcorn := g.zcorn) (actnum := g.actnum) (begZ := 2 * g.nz * (I + 2 * g.nx * J))
        (begA := g.nz * (I / 2 + J / 2 * g.nx)) (fun K => by unfold Grdecl.Active; rw [Nat.mul_comm (J / 2)]) (fun K => rfl) (n := 2 * g.nz)
        (fun K hK => by rw [Nat.mul_comm (J / 2)]; exact actnum_lt hg ⟨hI, hJ, hK⟩) (fun K hK => zcorn_lt hg ⟨hI, hJ, hK⟩) (zlist := s.zlist) ht
        (b := startOf Us (g.pillarOf I J)) (e := startOf Us (g.pillarOf I J + 1)) (p := p) (by omega) (by
          intro K hK hact
          obtain ⟨_, _, near, deep⟩ := h.us _ _ eu
          have hd : g.DepthOn (g.pillarOf I J) (g.depth I J K) := ⟨I, J, K, ⟨hI, hJ, hK⟩, hact, rfl, rfl⟩
          obtain ⟨k, hk, _⟩ := near _ hd
          have := deep _ hd
          refine ⟨by omega, ?_⟩
          rw [hget _ (by omega), hsu, show startOf Us (g.pillarOf I J) + u.length - 1 = startOf Us (g.pillarOf I J) + (u.length - 1) by omega, flat_get eu (by omega)]
          exact this) (plist := pl) hcap
      refine ⟨some (st.plist, p + (2 + 2 * g.nz)), ?_, _, _, rfl, by rw [h1, Nat.mul_succ], by omega, ?_⟩
      · unfold column
        simp only
        rw [rd_of_getElem? (h.zptr _ (by omega)), bind_ok, rd_of_getElem? (h.zptr _ (by omega)), bind_ok]
        unfold Grdecl.pillarOf at e1
        rw [e1, bind_ok]
        rfl
      · intro I' J' hI' hJ' hlt
        rcases Nat.lt_or_ge (I' + 2 * g.nx * J') (I + 2 * g.nx * J) with hl | hg'
        · refine (h3 I' J' hI' hJ' hl).congr fun t ht1 ht2 => g2 t (Or.inl ?_)
          rw [h1]
          have := Nat.mul_le_mul_left (2 + 2 * g.nz) (Nat.succ_le_of_lt hl)
          rw [Nat.mul_succ] at this
          omega
        · have heq : I' + 2 * g.nx * J' = I + 2 * g.nx * J := by omega
          have hm := congrArg (· % (2 * g.nx)) heq
          have hd := congrArg (· / (2 * g.nx)) heq
          simp only [Nat.add_mul_mod_self_left, Nat.mod_eq_of_lt hI', Nat.mod_eq_of_lt hI] at hm
          simp only [Nat.add_mul_div_left _ _ (show 0 < 2 * g.nx by omega), Nat.div_eq_of_lt hI', Nat.div_eq_of_lt hI, Nat.zero_add] at hd
          subst hm; subst hd
          rw [← h1]
          exact g3)
  refine ⟨pl, p, e, h2, fun I J hI hJ => h3 I J hI hJ ?_⟩
  have := Nat.mul_le_mul_left (2 * g.nx) (Nat.succ_le_of_lt hJ)
  rw [Nat.mul_succ] at this
  omega

/-- **Points on pillars.**  For every grid description with arrays of the right sizes and every tolerance, `finduniquepoints` succeeds without leaving its buffers.  On each
pillar the points are more than the tolerance apart, are depths of active corners, one of them is within the tolerance of each active corner, the deepest active corner is
kept, and the points lie on the line of the pillar.  The corners get numbers as described in `Points.ColumnOk`. -/
theorem unique_points {g : Grdecl} (hg : g.Ok) {tol : Rat} (ht : 0 ≤ tol) {plist : List Int} (hp : plist.length = (2 + 2 * g.nz) * (2 * g.nx * (2 * g.ny)))
    (jr : Nat → Rat) (jn : Nat → Nat) :
    ∃ r start, findUniquePoints g plist tol jr jn = .ok (some r) ∧ r.plist.length = plist.length ∧ start 0 = 0 ∧ start g.numPillars = r.numNodes ∧
      3 * r.numNodes ≤ r.nodes.length ∧ (∀ q, q < g.numPillars → r.PillarOk g tol start q) ∧ ∀ I J, I < 2 * g.nx → J < 2 * g.ny → r.ColumnOk g tol start I J := by
  obtain ⟨s, Us, e1, hUs, h⟩ := pillars_ok hg ht jr jn
  obtain ⟨pl, p, e2, hl, hcol⟩ := columns_ok hg ht hUs h hp
  have hzl : s.zout ≤ s.zlist.length := by
    have := congrArg List.length h.zlist
    rw [List.length_take, ← h.zout] at this
    omega
  have hget : ∀ k, k < s.zout → s.nodes.getD (3 * k + 2) 0 = s.zlist.getD k 0 := by
    intro k hk
    rw [h.z k hk, ← h.zlist, getD_take hk]
  have hlast : startOf Us g.numPillars = s.zout := by rw [← hUs, startOf_full, h.zout]
  refine ⟨{ plist := pl, numNodes := s.zout, nodes := s.nodes }, startOf Us, ?_, hl, rfl, hlast, ?_, ?_, ?_⟩
  · unfold findUniquePoints
    rw [e1, bind_ok, h.pos, Nat.add_sub_cancel, rd_of_getElem? (h.zptr _ (le_refl _)), bind_ok, e2, bind_ok, hUs, hlast]
    rfl
  · have := length_flatten_le ht h.us
    have h1 := h.zout
    have h2 := h.nlen
    simp only
    omega
  · intro q hq
    obtain ⟨u, eu⟩ : ∃ u, Us[q]? = some u := ⟨_, List.getElem?_eq_getElem (by omega)⟩
    have hsu := startOf_succ eu
    have hfull : startOf Us (q + 1) ≤ s.zout := by
      rw [← hlast]
      exact startOf_mono _ (by omega)
    obtain ⟨apart, mem, near, deep⟩ := h.us _ _ eu
    have hz : ∀ k, k < u.length → s.nodes.getD (3 * (startOf Us q + k) + 2) 0 = u.getD k 0 := by
      intro k hk
      rw [h.z _ (by omega), flat_get eu hk]
    refine ⟨startOf_mono _ (by omega), ?_, ?_, ?_, ?_, ?_⟩
    · intro k h1 h2
      obtain ⟨k', rfl⟩ : ∃ k', k = startOf Us q + k' := ⟨k - startOf Us q, by omega⟩
      unfold Points.z
      simp only
      rw [hz _ (by omega), Nat.add_assoc, hz _ (by omega)]
      exact apart k' (by omega)
    · intro k h1 h2
      obtain ⟨k', rfl⟩ : ∃ k', k = startOf Us q + k' := ⟨k - startOf Us q, by omega⟩
      unfold Points.z
      simp only
      rw [hz _ (by omega)]
      exact mem _ (getD_mem (by omega))
    · intro v hv
      obtain ⟨k, hk, h1, h2⟩ := near v hv
      refine ⟨startOf Us q + k, by omega, by omega, ?_⟩
      unfold Points.z
      simp only
      rw [hz _ hk]
      exact ⟨h1, h2⟩
    · intro v hv
      obtain ⟨k, hk, _⟩ := near v hv
      have := deep v hv
      unfold Points.z
      simp only
      rw [hsu, show startOf Us q + u.length - 1 = startOf Us q + (u.length - 1) by omega, hz _ (by omega)]
      exact this
    · intro k h1 h2
      exact h.line q k (by omega) h1 h2
  · intro I J hI hJ
    have hc := hcol I J hI hJ
    have hpix : g.pillarOf I J < Us.length := by
      rw [hUs]
      unfold Grdecl.numPillars Grdecl.pillarOf
      have := Nat.mul_le_mul_left (g.nx + 1) (show (J + 1) / 2 + 1 ≤ g.ny + 1 by omega)
      rw [Nat.mul_succ] at this
      omega
    have hfull : startOf Us (g.pillarOf I J + 1) ≤ s.zout := by
      rw [← hlast]
      exact startOf_mono _ (by omega)
    obtain ⟨u, eu⟩ : ∃ u, Us[g.pillarOf I J]? = some u := ⟨_, List.getElem?_eq_getElem hpix⟩
    have hsu := startOf_succ eu
    obtain ⟨apart, mem, near, deep⟩ := h.us _ _ eu
    have hz : ∀ k, k < u.length → s.nodes.getD (3 * (startOf Us (g.pillarOf I J) + k) + 2) 0 = u.getD k 0 := by
      intro k hk
      rw [h.z _ (by omega), flat_get eu hk]
    have hslot : ∀ K, g.slot I J K - 1 = (2 + 2 * g.nz) * (I + 2 * g.nx * J) + K := by intro K; unfold Grdecl.slot; omega
    refine ⟨by rw [hslot]; exact hc.top, hc.bottom, ?_, ?_, ?_, ?_⟩
    · intro K hK hna
      rw [hslot]
      exact hc.inactive K hK hna
    · intro K hK hact
      obtain ⟨k, g1, g2, g3, g4, _⟩ := hc.active K hK hact
      refine ⟨k, g1, g2, g3, ?_⟩
      unfold Points.z
      simp only
      rw [hget k (by omega)]
      exact g4
    · intro K x y hK
      rw [hslot]
      exact hc.sorted K x y hK
    · intro hdown K k hK hact hk
      obtain ⟨k', g1, g2, g3, g4, g5⟩ := hc.active K hK hact
      have hkk : k' = k := by
        unfold Grdecl.slot at hk
        simp only at hk
        rw [g1] at hk
        exact_mod_cast Option.some.inj hk
      subst hkk
      have hfirst : ∀ m, startOf Us (g.pillarOf I J) ≤ m → m < k' → s.nodes.getD (3 * m + 2) 0 + tol < g.depth I J K := by
        intro m hm hm'
        obtain ⟨K', a1, a2, a3⟩ := g5 m hm hm'
        rw [hget m (by omega)]
        exact lt_of_lt_of_le a3 (hdown K' K a1 hK a2 hact)
      unfold Points.z
      simp only
      refine ⟨?_, by rw [hget k' (by omega)]; linarith, hfirst⟩
      obtain ⟨m, hm, n1, n2⟩ := near _ (⟨I, J, K, ⟨hI, hJ, hK⟩, hact, rfl, rfl⟩ : g.DepthOn (g.pillarOf I J) (g.depth I J K))
      have hkm : k' ≤ startOf Us (g.pillarOf I J) + m := by
        by_contra hcon
        have := hfirst (startOf Us (g.pillarOf I J) + m) (by omega) (by omega)
        rw [hz m hm] at this
        linarith
      obtain ⟨k, rfl⟩ : ∃ k, k' = startOf Us (g.pillarOf I J) + k := ⟨k' - startOf Us (g.pillarOf I J), by omega⟩
      rw [hz k (by omega)]
      have := apart_mono ht apart (show k ≤ m by omega) hm
      linarith

/-- **Corners that coincide share a point.**  Two active corners on the same pillar, in columns whose depths do not decrease downwards, get the same number if they have the
same depth, and the order of their numbers is that of their depths. -/
theorem coinciding_corners_share_point {g : Grdecl} {tol : Rat} {r : Points} {start : Nat → Nat} {I J I' J' K K' k k' : Nat} (hc : r.ColumnOk g tol start I J)
    (hc' : r.ColumnOk g tol start I' J') (hd : g.Downward I J) (hd' : g.Downward I' J') (hq : g.pillarOf I J = g.pillarOf I' J') (hK : K < 2 * g.nz) (hK' : K' < 2 * g.nz)
    (ha : g.Active I J K) (ha' : g.Active I' J' K') (hk : r.plist[g.slot I J K]? = some (k : Int)) (hk' : r.plist[g.slot I' J' K']? = some (k' : Int)) :
    (g.depth I J K ≤ g.depth I' J' K' → k ≤ k') ∧ (g.depth I J K = g.depth I' J' K' → k = k') := by
  have key : ∀ {I J I' J' K K' k k' : Nat}, r.ColumnOk g tol start I J → r.ColumnOk g tol start I' J' → g.Downward I J → g.Downward I' J' →
      g.pillarOf I J = g.pillarOf I' J' → K < 2 * g.nz → K' < 2 * g.nz → g.Active I J K → g.Active I' J' K' → r.plist[g.slot I J K]? = some (k : Int) →
      r.plist[g.slot I' J' K']? = some (k' : Int) → g.depth I J K ≤ g.depth I' J' K' → k ≤ k' := by
    intro I J I' J' K K' k k' hc hc' hd hd' hq hK hK' ha ha' hk hk' hle
    by_contra hcon
    obtain ⟨_, _, h1⟩ := hc.downward hd K k hK ha hk
    obtain ⟨j, e, h2, h3, h4⟩ := hc'.active K' hK' ha'
    rw [hk'] at e
    have : k' = j := by exact_mod_cast Option.some.inj e
    subst this
    have := h1 k' (by rw [hq]; exact h2) (by omega)
    linarith
  exact ⟨key hc hc' hd hd' hq hK hK' ha ha' hk hk', fun e => Nat.le_antisymm (key hc hc' hd hd' hq hK hK' ha ha' hk hk' (le_of_eq e))
    (key hc' hc hd' hd hq.symm hK' hK ha' ha hk' hk (le_of_eq e.symm))⟩

namespace Demo

/-- Two cells next to each other, the second one shifted down by one, and its top by two at one corner. -/
def g : Grdecl :=
  { nx := 2, ny := 1, nz := 1,
    coord := [0, 0, 0, 0, 0, 1, 1, 0, 0, 1, 0, 1, 2, 0, 0, 2, 0, 1, 0, 1, 0, 0, 1, 1, 1, 1, 0, 1, 1, 1, 2, 1, 0, 2, 1, 1],
    zcorn := [0, 2, 0, 2, 1, 3, 1, 3, 0, 2, 0, 2, 2, 3, 1, 3], actnum := [1, 1] }

theorem ok : g.Ok := ⟨by decide, by decide, rfl, rfl, rfl⟩

/-- What a run returns: the numbers of the corners, the number of points, and the depths of the points. -/
def shown (g : Grdecl) (tol : Rat) : M (Option (List Int × Nat × List Rat)) := do
  let r ← findUniquePoints g (List.replicate ((2 + 2 * g.nz) * (2 * g.nx * (2 * g.ny))) 0) tol (fun _ => 7) (fun _ => 7)
  .ok (r.map fun r => (r.plist, r.numNodes, (List.range r.numNodes).map r.z))

example : shown g (1/10) = .ok (some ([intMin, 0, 1, intMax, intMin, 2, 4, intMax, intMin, 3, 5, intMax, intMin, 6, 7, intMax, intMin, 8, 9, intMax, intMin, 10, 11, intMax,
    intMin, 11, 12, intMax, intMin, 13, 14, intMax], 15, [0, 2, 0, 1, 2, 3, 1, 3, 0, 2, 0, 2, 3, 1, 3])) := by decide +kernel

/-- With a column that is not sorted, a corner may get a point that is not near it: the hypothesis `Downward` is needed. -/
example : shown { nx := 1, ny := 1, nz := 2, coord := List.replicate 24 0, zcorn := [0, 5, 1, 5, 0, 5, 1, 5, 0, 5, 1, 5, 0, 5, 1, 5], actnum := [1, 1] } (1/10) =
    .ok (some ([intMin, 0, 2, 2, 2, intMax, intMin, 3, 5, 5, 5, intMax, intMin, 6, 8, 8, 8, intMax, intMin, 9, 11, 11, 11, intMax], 12, [0, 1, 5, 0, 1, 5, 0, 1, 5, 0, 1, 5])) := by
  decide +kernel

end Demo

end Opm.UniquePoints
