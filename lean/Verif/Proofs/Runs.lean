import Verif.Proofs.ProcessedGrid
import Verif.Proofs.Tame
/-!
# Inputs for which processing succeeds
-/

namespace Opm.Cpg
open Opm UniquePoints

theorem tame_of_none {A B : Stack} {n : Nat} (h : ∀ i j, i < n → j < n → ¬ Cross A B i j) : Tame A B n := by
  intro base fs qs hc
  cases qs with
  | nil => simp
  | cons q qs =>
    obtain ⟨i, j, hi, hj, hcr, _⟩ := hc.cross q (by simp)
    exact absurd hcr (h i j hi hj)

theorem tame_self {A : Stack} {n : Nat} (hA : A.Ok n) : Tame A A n := by
  apply tame_of_none
  intro i j hi hj hc
  rcases Nat.le_total i j with h | h
  · have h1 := mono_le hA.monoP h hj
    have h2 := mono_le hA.monoQ h hj
    unfold Cross at hc
    omega
  · have h1 := mono_le hA.monoP h hi
    have h2 := mono_le hA.monoQ h hi
    unfold Cross at hc
    omega

section
variable {inp : Input} {tol : Rat} {s : Int} {np : Nat} {start : Nat → Nat} {col : Nat → Nat → Nat → Int} {plist : List Int} {pt : Nat → Pt}

/-- The order of numbers is that of depths. -/
theorem num_mono (h : PillarPoints inp s tol col start pt) (hs1 : s = 1 ∨ s = -1) (hs : ∀ I J, I < 2 * inp.nx → J < 2 * inp.ny → inp.Sorted s I J) {I J K I' J' K' : Nat}
    (hc : inp.Corner I J K) (hc' : inp.Corner I' J' K') (hp : pillarAt inp.nx I J = pillarAt inp.nx I' J') (hz : (s : Rat) * inp.z I J K ≤ s * inp.z I' J' K') :
    col I J (K + 1) ≤ col I' J' (K' + 1) := by
  obtain ⟨hI, hJ, hK, ha⟩ := hc
  obtain ⟨hI', hJ', hK', ha'⟩ := hc'
  obtain ⟨m, e, h1, h2, h3⟩ := h.corner I J K hI hJ hK ha
  obtain ⟨m', e', h1', h2', h3'⟩ := h.corner I' J' K' hI' hJ' hK' ha'
  obtain ⟨d1, d2, d3⟩ := h3 (hs I J hI hJ)
  obtain ⟨d1', d2', _⟩ := h3' (hs I' J' hI' hJ')
  rw [e, e']
  by_contra hcon
  have := d3 m' (by rw [hp]; exact h1') (by omega)
  rcases hs1 with rfl | rfl <;> push_cast at this hz <;> linarith

/-- The numbers on a line of a cell column are those of a line of an active cell, except above all of them. -/
theorem Columns.lastActive {nx ny nz : Nat} {act : Nat → Nat → Nat → Prop} (h : Columns nx ny nz np plist col act start) {i j : Nat} (hi : i < nx) (hj : j < ny) : ∀ K, K ≤ 2 * nz →
    (∀ a b, a < 2 → b < 2 → col (2 * i + a) (2 * j + b) K = intMin) ∨
    ∃ M, M < 2 * nz ∧ act i j (M / 2) ∧ ∀ a b, a < 2 → b < 2 → col (2 * i + a) (2 * j + b) K = col (2 * i + a) (2 * j + b) (M + 1)
  | 0, _ => Or.inl (fun a b ha hb => h.top _ _ (by omega) (by omega))
  | K + 1, hK => by
    by_cases ha : act i j (K / 2)
    · exact Or.inr ⟨K, by omega, ha, fun a b _ _ => rfl⟩
    · have hv : ∀ a b, a < 2 → b < 2 → col (2 * i + a) (2 * j + b) (K + 1) = col (2 * i + a) (2 * j + b) K := by
        intro a b h1 h2
        refine h.void _ _ K (by omega) (by omega) (by omega) ?_
        rw [show (2 * i + a) / 2 = i by omega, show (2 * j + b) / 2 = j by omega]
        exact ha
      rcases h.lastActive hi hj K (by omega) with e | ⟨M, h1, h2, e⟩
      · exact Or.inl (fun a b x y => by rw [hv a b x y, e a b x y])
      · exact Or.inr ⟨M, h1, h2, fun a b x y => by rw [hv a b x y, e a b x y]⟩

theorem sideCols_form {dir r : Nat} (hr : r < 2) (i j : Nat) : ∃ a b c d, a < 2 ∧ b < 2 ∧ c < 2 ∧ d < 2 ∧ sideCols dir r i j = ((2 * i + a, 2 * j + b), (2 * i + c, 2 * j + d)) := by
  unfold sideCols
  split
  · exact ⟨r, 0, r, 1, hr, by omega, hr, by omega, rfl⟩
  · exact ⟨1, r, 0, r, by omega, hr, by omega, hr, rfl⟩

theorem Columns.sideLine {nx ny nz : Nat} {act : Nat → Nat → Nat → Prop} (h : Columns nx ny nz np plist col act start) {dir r i j : Nat} (hr : r < 2) (hi : i < nx) (hj : j < ny)
    {K : Nat} (hK : K < 2 * nz + 2) :
    ((sideStack col dir r i j).p K = intMin ∧ (sideStack col dir r i j).q K = intMin) ∨ ((sideStack col dir r i j).p K = intMax ∧ (sideStack col dir r i j).q K = intMax) ∨
    ∃ M, M < 2 * nz ∧ act i j (M / 2) ∧ (sideStack col dir r i j).p K = (sideStack col dir r i j).p (M + 1) ∧ (sideStack col dir r i j).q K = (sideStack col dir r i j).q (M + 1) := by
  simp only [sideStack_p, sideStack_q]
  obtain ⟨a, b, c, d, h1, h2, h3, h4, e⟩ := sideCols_form (dir := dir) hr i j
  rw [e]
  simp only
  rcases Nat.lt_or_ge K (2 * nz + 1) with hl | hl
  · rcases h.lastActive hi hj K (by omega) with e | ⟨M, m1, m2, e⟩
    · exact Or.inl ⟨e a b h1 h2, e c d h3 h4⟩
    · exact Or.inr (Or.inr ⟨M, m1, m2, e a b h1 h2, e c d h3 h4⟩)
  · obtain rfl : K = 2 * nz + 1 := by omega
    exact Or.inr (Or.inl ⟨h.bottom _ _ (by omega) (by omega), h.bottom _ _ (by omega) (by omega)⟩)

theorem noCross_tame (h : Columns inp.nx inp.ny inp.nz np plist col inp.Active start) (hp : PillarPoints inp s tol col start pt) (hs1 : s = 1 ∨ s = -1)
    (hs : ∀ I J, I < 2 * inp.nx → J < 2 * inp.ny → inp.Sorted s I J) {dir i j i' j' : Nat} (hn : NextTo dir i j i' j') (hi : i < inp.nx) (hj : j < inp.ny) (hi' : i' < inp.nx)
    (hj' : j' < inp.ny) (hc : inp.NoCross s dir i j i' j') : Tame (sideStack col dir 1 i j) (sideStack col dir 0 i' j') (2 * inp.nz + 2) := by
  apply tame_of_none
  intro K L hK hL hcr
  have hA := h.sideOk (dir := dir) (s := 1) (by omega) hi hj
  have hB := h.sideOk (dir := dir) (s := 0) (by omega) hi' hj'
  have fA := hA.geFirst hK
  have lA := hA.leLast hK
  have fB := hB.geFirst hL
  have lB := hB.leLast hL
  rcases h.sideLine (dir := dir) (r := 1) (by omega) hi hj hK with e | e | ⟨M, m1, m2, e1, e2⟩
  · unfold Cross at hcr; omega
  · unfold Cross at hcr; omega
  · rcases h.sideLine (dir := dir) (r := 0) (by omega) hi' hj' hL with f | f | ⟨N, n1, n2, f1, f2⟩
    · unfold Cross at hcr; omega
    · unfold Cross at hcr; omega
    · unfold Cross at hcr
      rw [e1, e2, f1, f2] at hcr
      simp only [sideStack_p, sideStack_q] at hcr
      have hpil := sideCols_pillar hn hi hj hi' hj'
      have cA := sideCols_cell (dir := dir) (r := 1) (i := i) (j := j) (by omega)
      have cB := sideCols_cell (dir := dir) (r := 0) (i := i') (j := j') (by omega)
      have kA : inp.Corner (sideCols dir 1 i j).1.1 (sideCols dir 1 i j).1.2 M := ⟨by omega, by omega, m1, by rw [cA.1.1, cA.1.2]; exact m2⟩
      have kA' : inp.Corner (sideCols dir 1 i j).2.1 (sideCols dir 1 i j).2.2 M := ⟨by omega, by omega, m1, by rw [cA.2.1, cA.2.2]; exact m2⟩
      have kB : inp.Corner (sideCols dir 0 i' j').1.1 (sideCols dir 0 i' j').1.2 N := ⟨by omega, by omega, n1, by rw [cB.1.1, cB.1.2]; exact n2⟩
      have kB' : inp.Corner (sideCols dir 0 i' j').2.1 (sideCols dir 0 i' j').2.2 N := ⟨by omega, by omega, n1, by rw [cB.2.1, cB.2.2]; exact n2⟩
      have less : ∀ {I J K I' J' K'}, inp.Corner I J K → inp.Corner I' J' K' → pillarAt inp.nx I J = pillarAt inp.nx I' J' → col I J (K + 1) < col I' J' (K' + 1) →
          (s : Rat) * inp.z I J K < s * inp.z I' J' K' := by
        intro I J K I' J' K' c1 c2 hq hlt
        by_contra hcon
        have := num_mono hp hs1 hs c2 c1 hq.symm (not_lt.1 hcon)
        omega
      obtain ⟨x1, x2⟩ := hc M N m1 n1 m2 n2
      rcases hcr with ⟨g1, g2⟩ | ⟨g1, g2⟩
      · exact x1 ⟨less kA kB hpil.1 g1, less kB' kA' hpil.2.symm g2⟩
      · exact x2 ⟨less kB kA hpil.1.symm g1, less kA' kB' hpil.2 g2⟩

theorem filled_gaps (hp : PillarPoints inp s tol col start pt) (hs1 : s = 1 ∨ s = -1)
    (hs : ∀ I J, I < 2 * inp.nx → J < 2 * inp.ny → inp.Sorted s I J) (hz : 0 < inp.nz) {dir r i j : Nat} (hr : r < 2) (hi : i < inp.nx) (hj : j < inp.ny) (hf : inp.Filled s tol i j) :
    (sideStack col dir r i j).gaps (2 * inp.nz + 2) = 0 ∧ 0 < (sideStack col dir r i j).cells (2 * inp.nz + 2) := by
  obtain ⟨hact, hz1⟩ := hf
  have hgap : ∀ a b, a < 2 → b < 2 → ∀ k, k + 1 < inp.nz → col (2 * i + a) (2 * j + b) (2 * k + 2) = col (2 * i + a) (2 * j + b) (2 * k + 3) := by
    intro a b ha hb k hk
    have e := (hz1 a b ha hb).1 k hk
    have c1 : inp.Corner (2 * i + a) (2 * j + b) (2 * k + 1) := ⟨by omega, by omega, by omega, by
      rw [show (2 * i + a) / 2 = i by omega, show (2 * j + b) / 2 = j by omega]; exact hact _ (by omega)⟩
    have c2 : inp.Corner (2 * i + a) (2 * j + b) (2 * k + 2) := ⟨by omega, by omega, by omega, by
      rw [show (2 * i + a) / 2 = i by omega, show (2 * j + b) / 2 = j by omega]; exact hact _ (by omega)⟩
    exact le_antisymm (num_mono hp hs1 hs c1 c2 rfl (by rw [e])) (num_mono hp hs1 hs c2 c1 rfl (by rw [e]))
  obtain ⟨a, b, c, d, h1, h2, h3, h4, e⟩ := sideCols_form (dir := dir) hr i j
  have hE : ∀ K, (sideStack col dir r i j).Empty K ↔ col (2 * i + a) (2 * j + b) K = col (2 * i + a) (2 * j + b) (K + 1) ∧ col (2 * i + c) (2 * j + d) K = col (2 * i + c) (2 * j + d) (K + 1) := by
    intro K
    unfold Stack.Empty
    simp only [sideStack_p, sideStack_q]
    rw [e]
  have hg : ∀ K, ¬ IsCell K → 0 < K → K < 2 * inp.nz → (sideStack col dir r i j).Empty K := by
    intro K g1 g2 g3
    have g1' : K % 2 ≠ 1 := g1
    obtain ⟨k, rfl⟩ : ∃ k, K = 2 * k + 2 := ⟨K / 2 - 1, by omega⟩
    rw [hE]
    exact ⟨hgap a b h1 h2 k (by omega), hgap c d h3 h4 k (by omega)⟩
  constructor
  · unfold Stack.gaps
    rw [List.countP_eq_zero]
    intro K hK
    rw [List.mem_range] at hK
    simp only [decide_eq_true_eq]
    rintro ⟨g1, g2, g3, g4⟩
    exact g4 (hg K g1 g2 (by omega))
  · rw [Nat.pos_iff_ne_zero]
    intro h0
    unfold Stack.cells at h0
    rw [List.countP_eq_zero] at h0
    have hall : ∀ K, 0 < K → K < 2 * inp.nz → (sideStack col dir r i j).Empty K := by
      intro K g1 g2
      by_cases g3 : IsCell K
      · have := h0 K (List.mem_range.2 (by omega))
        simp only [decide_eq_true_eq, not_and, not_not] at this
        exact this g3
      · exact hg K g3 g1 g2
    have heq : ∀ K, K < 2 * inp.nz → col (2 * i + a) (2 * j + b) (K + 1) = col (2 * i + a) (2 * j + b) 1 := by
      intro K
      induction K with
      | zero => intro _; rfl
      | succ K ih =>
        intro hK
        rw [← ih (by omega)]
        exact (((hE (K + 1)).1 (hall (K + 1) (by omega) hK)).1).symm
    have hd := (hz1 a b h1 h2).2
    have hA : ∀ K, K < 2 * inp.nz → inp.Active ((2 * i + a) / 2) ((2 * j + b) / 2) (K / 2) := by
      intro K hK
      rw [show (2 * i + a) / 2 = i by omega, show (2 * j + b) / 2 = j by omega]
      exact hact _ (by omega)
    obtain ⟨m, e1, _, _, g1⟩ := hp.corner (2 * i + a) (2 * j + b) 0 (by omega) (by omega) (by omega) (hA 0 (by omega))
    obtain ⟨m', e2, _, _, g2⟩ := hp.corner (2 * i + a) (2 * j + b) (2 * inp.nz - 1) (by omega) (by omega) (by omega) (hA _ (by omega))
    rw [heq _ (by omega), e1] at e2
    have : m = m' := by exact_mod_cast e2
    subst this
    obtain ⟨u1, u2, _⟩ := g1 (hs _ _ (by omega) (by omega))
    obtain ⟨v1, v2, _⟩ := g2 (hs _ _ (by omega) (by omega))
    rcases hs1 with rfl | rfl <;> push_cast at hd <;> linarith

/-- If the lines of neighbouring columns do not cross, or both are filled, processing succeeds. -/
theorem runs (J : Junk) (h : inp.Good s) (ht : 0 ≤ tol)
    (hn : ∀ dir i j i' j', NextTo dir i j i' j' → i' < inp.nx → j' < inp.ny → (inp.Filled s tol i j ∧ inp.Filled s tol i' j') ∨ inp.NoCross s dir i j i' j') :
    ∃ out, processGrdecl J inp tol = .ok out := by
  obtain ⟨s', np, start, col, plist, pt, hs', hcols, hpp, hg⟩ := processGrdecl_ok J h.ok ht (by exact_mod_cast h.small)
    (by rcases h.sign with r | r <;> have := h.downward <;> rw [r] at this <;> simp [this]) h.thick h.area
  have : s' = s := h.signOf hs'
  subst this
  obtain ⟨out, _, _, _, _, e, _⟩ := hg (Or.inl (by
    intro dir i j hpair
    have hA := hcols.lowOk h.ok.nx h.ok.ny hpair
    have hB := hcols.highOk h.ok.nx h.ok.ny hpair
    cases e1 : lowCol dir i j with
    | none =>
      have e2 : highCol inp.nx inp.ny i j = some (i, j) := by
        unfold highCol
        refine if_pos ?_
        have h1 := h.ok.nx
        have h2 := h.ok.ny
        obtain ⟨g1, g2, g3⟩ := hpair
        unfold lowCol at e1
        split at e1 <;> split at e1 <;> first | omega | cases e1
      have : lowStack col dir i j = highStack inp.nx inp.ny col dir i j := by unfold lowStack highStack; rw [e1, e2]
      rw [← this]
      exact tame_self hA
    | some ab =>
      obtain ⟨a, b⟩ := ab
      cases e2 : highCol inp.nx inp.ny i j with
      | none =>
        have : highStack inp.nx inp.ny col dir i j = lowStack col dir i j := by unfold highStack; rw [e2]
        rw [this]
        exact tame_self hA
      | some cd =>
        obtain ⟨c, d⟩ := cd
        obtain ⟨hi', hj', rfl, rfl⟩ := highCol_lt e2
        obtain ⟨hi, hj⟩ := lowCol_lt hpair e1
        have hnt := (nextTo_iff hpair ⟨e1, e2⟩).1
        rw [low_eq e1, high_eq e2] at *
        rcases hn dir a b c d hnt hi' hj' with ⟨f1, f2⟩ | hc
        · have g1 := filled_gaps (dir := dir) hpp h.sign h.sorted h.ok.nz (r := 1) (by omega) hi hj f1
          have g2 := filled_gaps (dir := dir) hpp h.sign h.sorted h.ok.nz (r := 0) (by omega) hi' hj' f2
          exact tame_of_count hA hB (count_le hA hB (by omega) (by rw [g1.1]; exact g1.2) g2.1)
        · exact noCross_tame hcols hpp h.sign h.sorted hnt hi hj hi' hj' hc))
  exact ⟨out, e⟩

end

end Opm.Cpg
