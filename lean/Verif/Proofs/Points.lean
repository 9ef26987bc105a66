import Verif.Proofs.Depths
import Verif.Props.UniquePoints
import Mathlib.Data.Finset.Card
import Mathlib.Data.Finset.Prod
import Mathlib.Order.Interval.Finset.Nat
/-!
# Points and columns of a corner-point grid
-/

namespace Opm.Cpg
open Opm UniquePoints

section
variable {g : Grdecl} {tol : Rat} {r : Points} {start : Nat → Nat}

/-- Depths increase along a pillar. -/
theorem pillar_lt {q : Nat} (ht : 0 ≤ tol) (h : r.PillarOk g tol start q) {k l : Nat} (hk : start q ≤ k) (hkl : k < l) (hl : l < start (q + 1)) : r.z k < r.z l := by
  induction l with
  | zero => omega
  | succ l ih =>
    have h1 := h.apart l (by omega) hl
    rcases Nat.lt_or_ge k l with hlt | hge
    · have := ih hlt (by omega); linarith
    · obtain rfl : k = l := by omega
      linarith

theorem start_mono {n : Nat} (h : ∀ q, q < n → start q ≤ start (q + 1)) {a b : Nat} (hab : a ≤ b) (hb : b ≤ n) : start a ≤ start b := by
  induction b with
  | zero => obtain rfl : a = 0 := by omega
            exact Nat.le_refl _
  | succ b ih =>
    rcases Nat.lt_or_ge a (b + 1) with hlt | hge
    · exact Nat.le_trans (ih (by omega) (by omega)) (h b (by omega))
    · obtain rfl : a = b + 1 := by omega
      exact Nat.le_refl _

/-- Every point is on some pillar. -/
theorem on_pillar {n : Nat} (h0 : start 0 = 0) {k : Nat} (hk : k < start n) : ∃ q, q < n ∧ start q ≤ k ∧ k < start (q + 1) := by
  induction n with
  | zero => omega
  | succ n ih =>
    rcases Nat.lt_or_ge k (start n) with h | h
    · obtain ⟨q, h1, h2⟩ := ih h
      exact ⟨q, by omega, h2⟩
    · exact ⟨n, by omega, h, hk⟩

/-- There are not more points than corners. -/
theorem numNodes_le (ht : 0 ≤ tol) (h0 : start 0 = 0) (hn : start g.numPillars = r.numNodes) (hp : ∀ q, q < g.numPillars → r.PillarOk g tol start q) :
    r.numNodes ≤ 2 * g.nx * (2 * g.ny) * (2 * g.nz) := by
  classical
  have hex : ∀ k, k < r.numNodes → ∃ c : Nat × Nat × Nat, g.Corner c.1 c.2.1 c.2.2 ∧ (∃ q, q < g.numPillars ∧ start q ≤ k ∧ k < start (q + 1) ∧ g.pillarOf c.1 c.2.1 = q) ∧
      g.depth c.1 c.2.1 c.2.2 = r.z k := by
    intro k hk
    obtain ⟨q, hq, h1, h2⟩ := on_pillar (n := g.numPillars) h0 (by omega : k < start g.numPillars)
    obtain ⟨I, J, K, hc, _, hpq, hd⟩ := (hp q hq).mem k h1 h2
    exact ⟨(I, J, K), hc, ⟨q, hq, h1, h2, hpq⟩, hd⟩
  choose! f hf using hex
  have hcard := Finset.card_le_card_of_injOn (s := Finset.range r.numNodes)
    (t := Finset.range (2 * g.nx) ×ˢ (Finset.range (2 * g.ny) ×ˢ Finset.range (2 * g.nz))) f (by
      intro k hk
      have hk' : k < r.numNodes := by simpa using hk
      obtain ⟨⟨a, b, c⟩, _⟩ := hf k hk'
      simp [a, b, c]) (by
      intro k hk l hl e
      have hk' : k < r.numNodes := by simpa using hk
      have hl' : l < r.numNodes := by simpa using hl
      obtain ⟨_, ⟨q, hq, h1, h2, h3⟩, h4⟩ := hf k hk'
      obtain ⟨_, ⟨q', hq', h1', h2', h3'⟩, h4'⟩ := hf l hl'
      rw [← e, h3] at h3'
      subst h3'
      rw [← e, h4] at h4'
      rcases Nat.lt_trichotomy k l with hlt | rfl | hlt
      · exact absurd h4' (ne_of_lt (pillar_lt ht (hp q hq) h1 hlt h2'))
      · rfl
      · exact absurd h4'.symm (ne_of_lt (pillar_lt ht (hp q hq) h1' hlt h2)))
  simp only [Finset.card_range, Finset.card_product] at hcard
  rw [Nat.mul_assoc (2 * g.nx)]
  exact hcard

theorem pillarOf_lt {I J : Nat} (hI : I < 2 * g.nx) (hJ : J < 2 * g.ny) : g.pillarOf I J < g.numPillars :=
  idx2_lt (show (I + 1) / 2 < g.nx + 1 by omega) (show (J + 1) / 2 < g.ny + 1 by omega)

/-- The numbers in column `(X, Y)`. -/
def colOf (nx nz : Nat) (plist : List Int) (X Y K : Nat) : Int := plist.getD ((2 + 2 * nz) * (X + 2 * nx * Y) + K) 0

/-- The result of `finduniquepoints`, as columns. -/
theorem columns_of (hl : r.plist.length = (2 + 2 * g.nz) * (2 * g.nx * (2 * g.ny))) (hn : start g.numPillars = r.numNodes)
    (hp : ∀ q, q < g.numPillars → r.PillarOk g tol start q) (hc : ∀ I J, I < 2 * g.nx → J < 2 * g.ny → r.ColumnOk g tol start I J) (hsmall : (r.numNodes : Int) ≤ intMax)
    {act : Nat → Nat → Nat → Prop} (ha : ∀ I J K, g.Corner I J K → (g.Active I J K ↔ act (I / 2) (J / 2) (K / 2))) :
    Columns g.nx g.ny g.nz r.numNodes r.plist (colOf g.nx g.nz r.plist) act start := by
  have hget : ∀ X Y K, X < 2 * g.nx → Y < 2 * g.ny → K < 2 * g.nz + 2 → r.plist[(2 + 2 * g.nz) * (X + 2 * g.nx * Y) + K]? = some (colOf g.nx g.nz r.plist X Y K) := by
    intro X Y K hX hY hK
    have h1 : X + 2 * g.nx * Y < 2 * g.nx * (2 * g.ny) := idx2_lt hX hY
    have h2 : K + (2 + 2 * g.nz) * (X + 2 * g.nx * Y) < (2 + 2 * g.nz) * (2 * g.nx * (2 * g.ny)) := idx2_lt (by omega) h1
    unfold colOf
    rw [List.getD_eq_getElem?_getD, List.getElem?_eq_getElem (by omega)]
    rfl
  have hslot : ∀ X Y K, X < 2 * g.nx → Y < 2 * g.ny → K < 2 * g.nz + 1 → r.plist[g.slot X Y K]? = some (colOf g.nx g.nz r.plist X Y (K + 1)) := by
    intro X Y K hX hY hK
    rw [← hget X Y (K + 1) hX hY (by omega)]
    unfold Grdecl.slot
    congr 1
    omega
  have hslot' : ∀ X Y K, X < 2 * g.nx → Y < 2 * g.ny → K < 2 * g.nz + 1 → r.plist[g.slot X Y K - 1]? = some (colOf g.nx g.nz r.plist X Y K) := by
    intro X Y K hX hY hK
    rw [← hget X Y K hX hY (by omega)]
    unfold Grdecl.slot
    congr 1
    omega
  have htop : ∀ X Y, X < 2 * g.nx → Y < 2 * g.ny → colOf g.nx g.nz r.plist X Y 0 = intMin := by
    intro X Y hX hY
    have := (hc X Y hX hY).top
    rw [hslot' X Y 0 hX hY (by omega)] at this
    exact Option.some.inj this
  have hbot : ∀ X Y, X < 2 * g.nx → Y < 2 * g.ny → colOf g.nx g.nz r.plist X Y (2 * g.nz + 1) = intMax := by
    intro X Y hX hY
    have := (hc X Y hX hY).bottom
    rw [hslot X Y (2 * g.nz) hX hY (by omega)] at this
    exact Option.some.inj this
  have hmono : ∀ X Y K, X < 2 * g.nx → Y < 2 * g.ny → K < 2 * g.nz → colOf g.nx g.nz r.plist X Y K ≤ colOf g.nx g.nz r.plist X Y (K + 1) := by
    intro X Y K hX hY hK
    exact (hc X Y hX hY).sorted K _ _ hK (hslot' X Y K hX hY (by omega)) (hslot X Y K hX hY (by omega))
  have hle : ∀ q, q < g.numPillars → start (q + 1) ≤ r.numNodes := by
    intro q hq
    rw [← hn]
    exact start_mono (fun q hq => (hp q hq).le) (by omega) (Nat.le_refl _)
  have hnum : ∀ X Y K, X < 2 * g.nx → Y < 2 * g.ny → K < 2 * g.nz + 1 → colOf g.nx g.nz r.plist X Y K = intMin ∨
      ∃ k : Nat, colOf g.nx g.nz r.plist X Y K = k ∧ start (g.pillarOf X Y) ≤ k ∧ k < start (g.pillarOf X Y + 1) := by
    intro X Y K hX hY hK
    induction K with
    | zero => exact Or.inl (htop X Y hX hY)
    | succ K ih =>
      by_cases hact : g.Active X Y K
      · obtain ⟨k, e, h1, h2, _⟩ := (hc X Y hX hY).active K (by omega) hact
        rw [hslot X Y K hX hY (by omega)] at e
        exact Or.inr ⟨k, Option.some.inj e, h1, h2⟩
      · have e := (hc X Y hX hY).inactive K (by omega) hact
        rw [hslot X Y K hX hY (by omega), hslot' X Y K hX hY (by omega)] at e
        rw [Option.some.inj e]
        exact ih (by omega)
  have hlt : ∀ X Y K, X < 2 * g.nx → Y < 2 * g.ny → K < 2 * g.nz + 1 → colOf g.nx g.nz r.plist X Y K < intMax := by
    intro X Y K hX hY hK
    rcases hnum X Y K hX hY hK with e | ⟨k, e, _, h2⟩
    · rw [e]; decide
    · rw [e]
      have := hle _ (pillarOf_lt hX hY)
      omega
  refine ⟨hget, htop, hbot, ?_, ?_, ?_, ?_, ?_, hlt, fun q hq => (hp q hq).le, hn⟩
  · intro X Y K hX hY hK
    rcases Nat.lt_or_ge K (2 * g.nz) with h | h
    · exact hmono X Y K hX hY h
    · obtain rfl : K = 2 * g.nz := by omega
      rw [hbot X Y hX hY]
      exact le_of_lt (hlt X Y _ hX hY (by omega))
  · intro X Y k hX hY hk hact
    refine ⟨?_, hlt X Y _ hX hY (by omega)⟩
    have hA : g.Active X Y (2 * k) := (ha X Y (2 * k) ⟨hX, hY, by omega⟩).2 (by rwa [show 2 * k / 2 = k by omega])
    obtain ⟨m, e, h1, h2, _⟩ := (hc X Y hX hY).active (2 * k) (by omega) hA
    rw [hslot X Y (2 * k) hX hY (by omega)] at e
    rw [Option.some.inj e]
    have : intMin < 0 := by decide
    omega
  · intro X Y K hX hY hK hact
    have hA : ¬ g.Active X Y K := fun hh => hact ((ha X Y K ⟨hX, hY, by omega⟩).1 hh)
    have e := (hc X Y hX hY).inactive K (by omega) hA
    rw [hslot X Y K hX hY (by omega), hslot' X Y K hX hY (by omega)] at e
    exact Option.some.inj e
  · intro X Y K hX hY hK
    rcases Nat.lt_or_ge K (2 * g.nz + 1) with h | h
    · rcases hnum X Y K hX hY h with e | e
      · exact Or.inl e
      · exact Or.inr (Or.inr e)
    · obtain rfl : K = 2 * g.nz + 1 := by omega
      exact Or.inr (Or.inl (hbot X Y hX hY))
  · intro X Y X' Y' K hX hY hX' hY' hK ex ey
    induction K with
    | zero => intro _; exact htop X' Y' hX' hY'
    | succ K ih =>
      intro e
      rcases Nat.lt_or_ge K (2 * g.nz) with hK' | hK'
      · have hn : ¬ g.Active X Y K := by
          intro hact
          obtain ⟨k, e', _⟩ := (hc X Y hX hY).active K hK' hact
          rw [hslot X Y K hX hY (by omega), e] at e'
          have : intMin < 0 := by decide
          have := Option.some.inj e'
          omega
        have hn' : ¬ g.Active X' Y' K := by
          rw [ha X' Y' K ⟨hX', hY', hK'⟩, ← ex, ← ey, ← ha X Y K ⟨hX, hY, hK'⟩]
          exact hn
        have e1 := (hc X Y hX hY).inactive K hK' hn
        rw [hslot X Y K hX hY (by omega), hslot' X Y K hX hY (by omega)] at e1
        have e2 := (hc X' Y' hX' hY').inactive K hK' hn'
        rw [hslot X' Y' K hX' hY' (by omega), hslot' X' Y' K hX' hY' (by omega)] at e2
        rw [Option.some.inj e2]
        exact ih (by omega) (by rw [← Option.some.inj e1]; exact e)
      · obtain rfl : K = 2 * g.nz := by omega
        rw [hbot X Y hX hY] at e
        exact absurd e (by decide)

end

section
variable {inp : Input}

theorem sign_mul {s : Int} (hs : s = 1 ∨ s = -1) (v : Rat) : (s : Rat) * (s * v) = v := by
  rcases hs with rfl | rfl <;> push_cast <;> ring

/-- The first part of `process_grdecl`.  Depths of points are still multiplied by the sign. -/
theorem points_ok (h : inp.Ok) {tol : Rat} (ht : 0 ≤ tol) (hsmall : (8 * (inp.nx * inp.ny * inp.nz) : Nat) ≤ intMax) (J : Junk)
    (hdir : inp.Downward 1 ∨ inp.Downward (-1)) :
    ∃ r s start, points J inp tol = .ok (r, s) ∧ (s = 1 ∧ inp.Downward 1 ∨ s = -1 ∧ ¬ inp.Downward 1 ∧ inp.Downward (-1)) ∧ start 0 = 0 ∧ 3 * r.numNodes ≤ r.nodes.length ∧
      Columns inp.nx inp.ny inp.nz r.numNodes r.plist (colOf inp.nx inp.nz r.plist) inp.Active start ∧
      PillarPoints inp s tol (colOf inp.nx inp.nz r.plist) start (fun k => ⟨(ptOf r.nodes k).x, (ptOf r.nodes k).y, s * (ptOf r.nodes k).z⟩) := by
  obtain ⟨ac, e1, hal, hac⟩ := permuteActnum_ok h (out := realloc J.i [] (inp.nx * inp.ny * inp.nz)) (length_realloc ..)
  obtain ⟨s, e, e2, hs1, hs2, hs3⟩ := zcornSign_ok h
  have hs : s = 1 ∧ inp.Downward 1 ∨ s = -1 ∧ ¬ inp.Downward 1 ∧ inp.Downward (-1) := by
    by_cases hd : inp.Downward 1
    · exact Or.inl ⟨(hs1 hd).1, hd⟩
    · have hd' := hdir.resolve_left hd
      exact Or.inr ⟨(hs2 hd hd').1, hd, hd'⟩
  have hs' : s = 1 ∨ s = -1 := hs.imp (fun x => x.1) (fun x => x.1)
  obtain ⟨zc, e3, hzl, hzc⟩ := permuteZcorn_ok h s (out := realloc J.r [] (inp.nx * inp.ny * inp.nz * 8)) (by rw [length_realloc]; ring)
  have hg : Grdecl.Ok { nx := inp.nx, ny := inp.ny, nz := inp.nz, coord := inp.coord, zcorn := zc, actnum := ac } := ⟨h.nx, h.ny, h.coord, hzl, hal⟩
  obtain ⟨r, start, e4, hpl, h0, hn, hnl, hp, hc⟩ := unique_points hg ht (plist := realloc J.i [] (8 * (inp.nx * inp.ny * inp.nz + inp.nx * inp.ny)))
    (by rw [length_realloc]; ring) J.r J.n
  generalize hgd : ({ nx := inp.nx, ny := inp.ny, nz := inp.nz, coord := inp.coord, zcorn := zc, actnum := ac } : Grdecl) = g at hg e4 hn hp hc
  have gx : g.nx = inp.nx := by rw [← hgd]
  have gy : g.ny = inp.ny := by rw [← hgd]
  have gz : g.nz = inp.nz := by rw [← hgd]
  have gnp : g.numPillars = (inp.nx + 1) * (inp.ny + 1) := by unfold Grdecl.numPillars; rw [gx, gy]
  have gdepth : ∀ I J K, I < 2 * inp.nx → J < 2 * inp.ny → K < 2 * inp.nz → g.depth I J K = s * inp.z I J K := by
    intro I J K hI hJ hK
    rw [← hgd]
    unfold Grdecl.depth
    simp only
    rw [List.getD_eq_getElem?_getD, hzc I J K hI hJ hK]
    rfl
  have gact : ∀ I J K, I < 2 * inp.nx → J < 2 * inp.ny → K < 2 * inp.nz → (g.Active I J K ↔ inp.Active (I / 2) (J / 2) (K / 2)) := by
    intro I J K hI hJ hK
    obtain ⟨v, hv, hv', _⟩ := hac (I / 2) (J / 2) (K / 2) (by omega) (by omega) (by omega)
    rw [← hgd]
    unfold Grdecl.Active
    simp only
    rw [List.getD_eq_getElem?_getD, hv]
    exact hv'
  have gpil : ∀ I J, g.pillarOf I J = pillarAt inp.nx I J := by
    intro I J; unfold Grdecl.pillarOf pillarAt; rw [gx]
  have hpl' : r.plist.length = (2 + 2 * g.nz) * (2 * g.nx * (2 * g.ny)) := by rw [hpl, length_realloc, gx, gy, gz]; ring
  have hle := numNodes_le ht h0 hn hp
  rw [gx, gy, gz] at hle
  have hcols := columns_of hpl' hn hp hc (by
    refine le_trans ?_ hsmall
    have : r.numNodes ≤ 8 * (inp.nx * inp.ny * inp.nz) := le_trans hle (le_of_eq (by ring))
    exact_mod_cast this) (act := inp.Active) (by
    rintro I J K ⟨hI, hJ, hK⟩
    rw [gx] at hI
    rw [gy] at hJ
    rw [gz] at hK
    exact gact I J K hI hJ hK)
  rw [gx, gy, gz] at hcols
  refine ⟨r, s, start, ?_, hs, h0, hnl, hcols, ?_, ?_, ?_, ?_⟩
  · unfold points
    simp only [e1, e2, e3, bind_ok]
    rw [hgd, e4]
    rfl
  · intro q k hq h1 h2
    have := (hp q (by omega)).apart k h1 h2
    show (s : Rat) * (s * _) + tol < s * (s * _)
    rw [sign_mul hs', sign_mul hs']
    exact this
  · intro q k hq h1 h2
    obtain ⟨a, g1, g2, g3, g4⟩ := (hp q (by omega)).line k h1 h2
    rw [← hgd] at g1 g2 g3 g4
    refine ⟨a, ?_, ?_, ?_, ?_⟩
    · show r.nodes.getD (3 * k) 0 = inp.coord.getD (3 * (2 * q)) 0 + a * (inp.coord.getD (3 * (2 * q + 1)) 0 - inp.coord.getD (3 * (2 * q)) 0)
      rw [show 3 * (2 * q) = 6 * q by omega, show 3 * (2 * q + 1) = 6 * q + 3 by omega]
      exact g1
    · show r.nodes.getD (3 * k + 1) 0 = inp.coord.getD (3 * (2 * q) + 1) 0 + a * (inp.coord.getD (3 * (2 * q + 1) + 1) 0 - inp.coord.getD (3 * (2 * q) + 1) 0)
      rw [show 3 * (2 * q) = 6 * q by omega, show 3 * (2 * q + 1) + 1 = 6 * q + 4 by omega]
      exact g2
    · show inp.coord.getD (3 * (2 * q) + 2) 0 ≠ inp.coord.getD (3 * (2 * q + 1) + 2) 0 → (s : Rat) * (s * r.nodes.getD (3 * k + 2) 0) = inp.coord.getD (3 * (2 * q) + 2) 0 +
        a * (inp.coord.getD (3 * (2 * q + 1) + 2) 0 - inp.coord.getD (3 * (2 * q) + 2) 0)
      rw [sign_mul hs', show 3 * (2 * q) = 6 * q by omega, show 3 * (2 * q + 1) + 2 = 6 * q + 5 by omega]
      exact g3
    · show inp.coord.getD (3 * (2 * q) + 2) 0 = inp.coord.getD (3 * (2 * q + 1) + 2) 0 → a = 0
      rw [show 3 * (2 * q) = 6 * q by omega, show 3 * (2 * q + 1) + 2 = 6 * q + 5 by omega]
      exact g4
  · intro q k hq h1 h2
    obtain ⟨I, J, K, ⟨hI, hJ, hK⟩, ha, hpq, hd⟩ := (hp q (by omega)).mem k h1 h2
    rw [gx] at hI
    rw [gy] at hJ
    rw [gz] at hK
    refine ⟨I, J, K, hI, hJ, hK, (gact I J K hI hJ hK).1 ha, by rw [← gpil]; exact hpq, ?_⟩
    rw [gdepth I J K hI hJ hK] at hd
    show inp.z I J K = s * r.z k
    rw [← hd, sign_mul hs']
  · intro I J K hI hJ hK ha
    have hco := hc I J (by omega) (by omega)
    have hA := (gact I J K hI hJ hK).2 ha
    obtain ⟨k, hk, h1, h2, _⟩ := hco.active K (by omega) hA
    have hcol : colOf inp.nx inp.nz r.plist I J (K + 1) = k := by
      unfold colOf
      rw [List.getD_eq_getElem?_getD, show (2 + 2 * inp.nz) * (I + 2 * inp.nx * J) + (K + 1) = g.slot I J K by unfold Grdecl.slot; rw [gx, gz]; omega, hk]
      rfl
    refine ⟨k, hcol, by rw [← gpil]; exact h1, by rw [← gpil]; exact h2, ?_⟩
    intro hsort
    have hdn : g.Downward I J := by
      intro K1 K2 h12 hK2 ha1 ha2
      rw [gz] at hK2
      rw [gdepth I J K1 hI hJ (by omega), gdepth I J K2 hI hJ hK2]
      exact hsort K1 K2 h12 hK2 ((gact I J K1 hI hJ (by omega)).1 ha1) ((gact I J K2 hI hJ hK2).1 ha2)
    obtain ⟨d1, d2, d3⟩ := hco.downward hdn K k (by omega) hA hk
    rw [gdepth I J K hI hJ hK] at d1 d2 d3
    have hfirst : ∀ m, start (pillarAt inp.nx I J) ≤ m → m < k → (s : Rat) * (s * r.z m) + tol < s * inp.z I J K := by
      intro m hm1 hm2
      rw [sign_mul hs']
      exact d3 m (by rw [gpil]; exact hm1) hm2
    have hnear : (s : Rat) * r.z k - inp.z I J K ≤ tol ∧ inp.z I J K - s * r.z k ≤ tol := by
      rcases hs' with rfl | rfl
      · push_cast at d1 d2 ⊢
        constructor <;> linarith
      · push_cast at d1 d2 ⊢
        constructor <;> linarith
    exact ⟨hnear.1, hnear.2, hfirst⟩

end

end Opm.Cpg
