import Verif.Props.Wachspress
/-!
# Barycentric coordinates reproduce the point: lemmas
-/

namespace Opm.Wachspress
open Opm

variable {g : Grid} {m : Mesh}

/-- Sign. -/
def sg (q : Rat) : Rat := if 0 < q then 1 else if q < 0 then -1 else 0

theorem sg_pos {q : Rat} (h : 0 < q) : sg q = 1 := if_pos h
theorem sg_neg' {q : Rat} (h : q < 0) : sg q = -1 := by unfold sg; rw [if_neg (by linarith), if_pos h]
@[simp] theorem sg_zero : sg 0 = 0 := by simp [sg]

theorem sg_neg (q : Rat) : sg (-q) = -sg q := by
  rcases lt_trichotomy q 0 with h | h | h
  · rw [sg_pos (by linarith), sg_neg' h, neg_neg]
  · subst h; simp
  · rw [sg_neg' (by linarith), sg_pos h]

theorem sg_mul (p q : Rat) : sg (p * q) = sg p * sg q := by
  rcases lt_trichotomy p 0 with h | h | h <;> rcases lt_trichotomy q 0 with k | k | k
  · rw [sg_pos (mul_pos_of_neg_of_neg h k), sg_neg' h, sg_neg' k]; norm_num
  · subst k; simp
  · rw [sg_neg' (mul_neg_of_neg_of_pos h k), sg_neg' h, sg_pos k]; norm_num
  · subst h; simp
  · subst h; simp
  · subst h; simp
  · rw [sg_neg' (mul_neg_of_pos_of_neg h k), sg_pos h, sg_neg' k]; norm_num
  · subst k; simp
  · rw [sg_pos (mul_pos h k), sg_pos h, sg_pos k]; norm_num

theorem sg_sq {q : Rat} (h : q ≠ 0) : sg q * sg q = 1 := by
  rcases lt_or_gt_of_ne h with h | h
  · rw [sg_neg' h]; norm_num
  · rw [sg_pos h]; norm_num

theorem abs_eq_sg (q : Rat) : |q| = sg q * q := by
  rcases lt_trichotomy q 0 with h | h | h
  · rw [abs_of_neg h, sg_neg' h]; ring
  · subst h; simp
  · rw [abs_of_pos h, sg_pos h]; ring

/-- The outward normal of a face of cell `c`. -/
def N (g : Grid) (c f d : Nat) : Rat := (if g.faceCells.getD (2 * f) (-1) = (c : Int) then 1 else -1) * nrm g f d

/-- Product of the outward normal with a vector. -/
def dotN (g : Grid) (c f : Nat) (t : Nat → Rat) : Rat := ∑ d ∈ Finset.range g.dim, N g c f d * t d

theorem dist_sub {c f : Nat} (x y : Nat → Rat) : dist g c f x - dist g c f y = dotN g c f (fun d => y d - x d) := by
  unfold dist dotN through N
  rw [← mul_sub, ← Finset.sum_sub_distrib, Finset.mul_sum]
  exact Finset.sum_congr rfl (fun d _ => by ring)

theorem dotN_zero_iff {c f : Nat} (t : Nat → Rat) : dotN g c f t = 0 ↔ through g f t = 0 := by
  have : dotN g c f t = (if g.faceCells.getD (2 * f) (-1) = (c : Int) then 1 else -1) * through g f t := by
    unfold dotN through N
    rw [Finset.mul_sum]
    exact Finset.sum_congr rfl (fun d _ => by ring)
  rw [this, mul_eq_zero]
  constructor
  · rintro (h | h)
    · split at h <;> norm_num at h
    · exact h
  · exact Or.inr

/-- The faces of a cell at a vertex, and all its vertices, as sets. -/
def A (m : Mesh) (c v : Nat) : Finset Nat := (m.faces c).toFinset.filter (fun f => v ∈ m.nodes f)

theorem mem_A {c v f : Nat} : f ∈ A m c v ↔ f ∈ m.faces c ∧ v ∈ m.nodes f := by simp [A]

theorem A_eq {c v : Nat} : A m c v = (m.at c v).toFinset := by
  ext f
  rw [mem_A, List.mem_toFinset, Mesh.at, List.mem_filter, decide_eq_true_eq]

theorem card_A (h : GridOk g m) (hs : Simple g m) {c v : Nat} (hc : c < g.nc) (hv : m.Vertex c v) : (A m c v).card = g.dim := by
  have hn : (m.at c v).Nodup := (h.once c hc).filter _
  rw [A_eq, List.toFinset_card_of_nodup hn]
  exact hs c v hc hv

theorem card_diff (h : GridOk g m) (hs : Simple g m) {c a b : Nat} (hc : c < g.nc) (ha : m.Vertex c a) (hb : m.Vertex c b) : (A m c a \ A m c b).card = (A m c b \ A m c a).card := by
  have h1 := Finset.card_sdiff_add_card_inter (A m c a) (A m c b)
  have h2 := Finset.card_sdiff_add_card_inter (A m c b) (A m c a)
  rw [card_A h hs hc ha] at h1
  rw [card_A h hs hc hb, Finset.inter_comm] at h2
  omega

/-- At the two ends of an edge the orientations are opposite. -/
theorem ends_cancel (h : GridOk g m) (hs : Simple g m) (hi : Independent g m) {c : Nat} (hc : c < g.nc) {X : Nat → Nat → Rat} (hX : Convex g m c X) {a b : Nat} (ha : m.Vertex c a) (hb : m.Vertex c b) (hab : a ≠ b)
    {κ δ : Rat} {D : Nat → Rat} (hκ : 0 < κ) (hD : ∀ f, κ * dotN g c f (fun d => X b d - X a d) = D f * δ) :
    ∑ f ∈ A m c a, sg (D f) + ∑ f ∈ A m c b, sg (D f) = 0 := by
  have hneg : ∀ f ∈ A m c a, sg (dotN g c f (fun d => X b d - X a d)) = if f ∈ A m c b then 0 else -1 := by
    intro f hf
    obtain ⟨hf1, hf2⟩ := mem_A.1 hf
    rw [← dist_sub, hX.on f a hf1 ha hf2]
    split
    · next hfb => rw [hX.on f b hf1 hb (mem_A.1 hfb).2]; simp
    · next hfb => exact sg_neg' (by have := hX.inside f b hf1 hb (fun hh => hfb (mem_A.2 ⟨hf1, hh⟩)); linarith)
  have hpos : ∀ f ∈ A m c b, sg (dotN g c f (fun d => X b d - X a d)) = if f ∈ A m c a then 0 else 1 := by
    intro f hf
    obtain ⟨hf1, hf2⟩ := mem_A.1 hf
    rw [← dist_sub, hX.on f b hf1 hb hf2]
    split
    · next hfb => rw [hX.on f a hf1 ha (mem_A.1 hfb).2]; simp
    · next hfb => exact sg_pos (by have := hX.inside f a hf1 ha (fun hh => hfb (mem_A.2 ⟨hf1, hh⟩)); linarith)
  have hδ : δ ≠ 0 := by
    intro h0
    have hz : ∀ f, dotN g c f (fun d => X b d - X a d) = 0 := by
      intro f
      have := hD f
      rw [h0, mul_zero, mul_eq_zero] at this
      exact this.resolve_left hκ.ne'
    refine hab (hX.distinct a b ha hb (fun d hd => ?_))
    have := hi c a hc ha (fun d => X b d - X a d) (fun f _ => (dotN_zero_iff _).1 (hz f)) d hd
    linarith
  have key : ∀ f, sg (D f) = sg δ * sg (dotN g c f (fun d => X b d - X a d)) := by
    intro f
    have := congrArg sg (hD f)
    rw [sg_mul, sg_mul, sg_pos hκ, one_mul] at this
    rw [this, mul_left_comm, sg_sq hδ, mul_one]
  simp only [key]
  rw [← Finset.mul_sum, ← Finset.mul_sum, Finset.sum_congr rfl hneg, Finset.sum_congr rfl hpos, ← mul_add]
  have e1 : ∑ f ∈ A m c a, (if f ∈ A m c b then (0 : Rat) else -1) = -((A m c a \ A m c b).card : Rat) := by
    rw [Finset.sum_ite, Finset.sum_const_zero, zero_add, Finset.sum_const, nsmul_eq_mul, mul_neg_one, Finset.filter_notMem_eq_sdiff]
  have e2 : ∑ f ∈ A m c b, (if f ∈ A m c a then (0 : Rat) else 1) = ((A m c b \ A m c a).card : Rat) := by
    rw [Finset.sum_ite, Finset.sum_const_zero, zero_add, Finset.sum_const, nsmul_eq_mul, mul_one, Finset.filter_notMem_eq_sdiff]
  rw [e1, e2, card_diff h hs hc ha hb]
  ring

/-- Contributions of edges with two ends vanish in the sum. -/
theorem telescope {ι : Type} {V : Finset Nat} {P : Finset ι} (inc : Nat → ι → Prop) [∀ v p, Decidable (inc v p)] (s : Nat → ι → Rat) (E : ι → Rat)
    (h : ∀ p ∈ P, E p ≠ 0 → (∃ v, v ∈ V ∧ inc v p) → ∃ a b, a ∈ V ∧ b ∈ V ∧ a ≠ b ∧ (∀ v, v ∈ V → (inc v p ↔ v = a ∨ v = b)) ∧ s a p + s b p = 0) :
    ∑ v ∈ V, ∑ p ∈ P with inc v p, s v p * E p = 0 := by
  simp only [Finset.sum_filter]
  rw [Finset.sum_comm]
  apply Finset.sum_eq_zero
  intro p hp
  by_cases hE : E p = 0
  · apply Finset.sum_eq_zero
    intro v _
    simp [hE]
  by_cases hv : ∃ v, v ∈ V ∧ inc v p
  · obtain ⟨a, b, ha, hb, hab, hinc, hsum⟩ := h p hp hE hv
    have e : ∀ v ∈ V, (if inc v p then s v p * E p else 0) = (if v = a then s a p * E p else 0) + if v = b then s b p * E p else 0 := by
      intro v hv
      by_cases h1 : v = a
      · subst h1
        rw [if_pos ((hinc v hv).2 (Or.inl rfl)), if_pos rfl, if_neg hab, add_zero]
      · by_cases h2 : v = b
        · subst h2
          rw [if_pos ((hinc v hv).2 (Or.inr rfl)), if_neg h1, if_pos rfl, zero_add]
        · rw [if_neg (fun hh => by rcases (hinc v hv).1 hh with h | h; exact h1 h; exact h2 h), if_neg h1, if_neg h2, add_zero]
    rw [Finset.sum_congr rfl e, Finset.sum_add_distrib, Finset.sum_ite_eq', Finset.sum_ite_eq', if_pos ha, if_pos hb, ← add_mul, hsum, zero_mul]
  · apply Finset.sum_eq_zero
    intro v hvV
    rw [if_neg (fun hh => hv ⟨v, hvV, hh⟩)]

/-- Product of the distances from all faces but those in a set. -/
def Pd (g : Grid) (m : Mesh) (c : Nat) (x : Nat → Rat) (s : Finset Nat) : Rat := ∏ f ∈ (m.faces c).toFinset \ s, dist g c f x

theorem Pd_insert {c f : Nat} {x : Nat → Rat} {s : Finset Nat} (hf : f ∈ m.faces c) (hs : f ∉ s) : Pd g m c x s = dist g c f x * Pd g m c x (insert f s) := by
  unfold Pd
  rw [Finset.sdiff_insert]
  exact (Finset.mul_prod_erase _ _ (Finset.mem_sdiff.2 ⟨List.mem_toFinset.2 hf, hs⟩)).symm

theorem prod_off (h : GridOk g m) {c v : Nat} (hc : c < g.nc) {x : Nat → Rat} : ((m.off c v).map (fun f => dist g c f x)).prod = Pd g m c x (A m c v) := by
  unfold Pd
  have hn : (m.off c v).Nodup := (h.once c hc).filter _
  rw [← List.prod_toFinset _ hn]
  congr 1
  ext f
  simp [mem_A, Mesh.off]
  tauto

/-! ### Two dimensions -/

/-- A normal, turned. -/
def turn (p : Nat → Rat) (d : Nat) : Rat := if d = 0 then p 1 else -p 0

theorem vertex2 (h : GridOk g m) (hs : Simple g m) (hd : g.dim = 2) {c v : Nat} (hc : c < g.nc) {X : Nat → Nat → Rat} (hX : Convex g m c X) (hv : m.Vertex c v) (x : Nat → Rat) {d : Nat} (hd2 : d < g.dim) :
    vol g (m.at c v) * Pd g m c x (A m c v) * (X v d - x d) =
      -∑ p ∈ (m.faces c).toFinset with v ∈ m.nodes p, (∑ f ∈ A m c v, sg (det2 (N g c p) (N g c f))) * (Pd g m c x {p} * turn (N g c p) d) := by
  have hl := hs c v hc hv
  have hn : (m.at c v).Nodup := (h.once c hc).filter _
  have hmem : ∀ f ∈ m.at c v, f ∈ m.faces c ∧ v ∈ m.nodes f := fun f hf => by simpa [Mesh.at] using hf
  have hA : A m c v = (m.at c v).toFinset := A_eq
  change _ = -∑ p ∈ A m c v, _
  unfold vol
  rw [if_pos hd]
  rw [hd] at hl
  generalize m.at c v = l at hl hn hmem hA
  match l, hl with
  | [f1, f2], _ =>
    obtain ⟨m1, k1⟩ := hmem f1 (by simp)
    obtain ⟨m2, k2⟩ := hmem f2 (by simp)
    have hne : f1 ≠ f2 := by simpa using hn
    have hA' : A m c v = {f1, f2} := by rw [hA]; simp
    have dd : ∀ f, f ∈ m.faces c → v ∈ m.nodes f → dist g c f x = N g c f 0 * (X v 0 - x 0) + N g c f 1 * (X v 1 - x 1) := by
      intro f hf hvf
      have := dist_sub (g := g) (c := c) (f := f) x (X v)
      rw [hX.on f v hf hv hvf, sub_zero] at this
      rw [this, dotN, hd, Finset.sum_range_succ, Finset.sum_range_one]
    have hdet : |det2 (nb g f1) (nb g f2)| = |det2 (N g c f1) (N g c f2)| := by
      have : det2 (N g c f1) (N g c f2) = (if g.faceCells.getD (2 * f1) (-1) = (c : Int) then 1 else -1) * (if g.faceCells.getD (2 * f2) (-1) = (c : Int) then 1 else -1) * det2 (nb g f1) (nb g f2) := by
        simp only [det2, N, nb]; ring
      rw [this, abs_mul, abs_mul]
      split <;> split <;> simp
    simp only [List.getD_cons_zero, List.getD_cons_succ]
    rw [hdet, hA', Finset.sum_pair hne, Finset.sum_pair hne, Finset.sum_pair hne]
    have z : ∀ a, det2 a a = 0 := fun a => by simp only [det2]; ring
    have sw : det2 (N g c f2) (N g c f1) = -det2 (N g c f1) (N g c f2) := by simp only [det2]; ring
    rw [z, z, sw, sg_neg, sg_zero, Pd_insert (s := {f1}) m2 (by simpa using hne.symm), Pd_insert (s := {f2}) m1 (by simpa using hne), Finset.pair_comm f2 f1, dd f1 m1 k1, dd f2 m2 k2, abs_eq_sg]
    have hdd : d = 0 ∨ d = 1 := by omega
    rcases hdd with rfl | rfl
    · simp only [turn, det2, if_pos]; ring
    · simp only [turn, det2, if_neg one_ne_zero]; ring

/-! ### Three dimensions -/

/-- Cross product. -/
def cr (p q : Nat → Rat) (d : Nat) : Rat := if d = 0 then p 1 * q 2 - p 2 * q 1 else if d = 1 then p 2 * q 0 - p 0 * q 2 else p 0 * q 1 - p 1 * q 0

theorem sum_three {a b c : Nat} (h1 : a ≠ b) (h2 : a ≠ c) (h3 : b ≠ c) (F : Nat → Rat) : ∑ f ∈ ({a, b, c} : Finset Nat), F f = F a + F b + F c := by
  rw [Finset.sum_insert (by simp [h1, h2]), Finset.sum_pair h3, add_assoc]

theorem vertex3 (h : GridOk g m) (hs : Simple g m) (hd : g.dim = 3) {c v : Nat} (hc : c < g.nc) {X : Nat → Nat → Rat} (hX : Convex g m c X) (hv : m.Vertex c v) (x : Nat → Rat) {d : Nat} (hd2 : d < g.dim) :
    vol g (m.at c v) * Pd g m c x (A m c v) * (X v d - x d) =
      1 / 2 * ∑ p ∈ (m.faces c).toFinset ×ˢ (m.faces c).toFinset with v ∈ m.nodes p.1 ∧ v ∈ m.nodes p.2,
        (∑ f ∈ A m c v, sg (det3 (N g c p.1) (N g c p.2) (N g c f))) * (Pd g m c x {p.1, p.2} * cr (N g c p.1) (N g c p.2) d) := by
  have hl := hs c v hc hv
  have hn : (m.at c v).Nodup := (h.once c hc).filter _
  have hmem : ∀ f ∈ m.at c v, f ∈ m.faces c ∧ v ∈ m.nodes f := fun f hf => by simpa [Mesh.at] using hf
  have hA : A m c v = (m.at c v).toFinset := A_eq
  rw [Finset.filter_product (fun f => v ∈ m.nodes f) (fun f => v ∈ m.nodes f)]
  change _ = 1 / 2 * ∑ p ∈ A m c v ×ˢ A m c v, _
  rw [Finset.sum_product]
  unfold vol
  rw [if_neg (by omega)]
  rw [hd] at hl
  generalize m.at c v = l at hl hn hmem hA
  match l, hl with
  | [f1, f2, f3], _ =>
    obtain ⟨m1, k1⟩ := hmem f1 (by simp)
    obtain ⟨m2, k2⟩ := hmem f2 (by simp)
    obtain ⟨m3, k3⟩ := hmem f3 (by simp)
    have hne : (f1 ≠ f2 ∧ f1 ≠ f3) ∧ f2 ≠ f3 := by simpa [not_or] using hn
    obtain ⟨⟨h12, h13⟩, h23⟩ := hne
    have hA' : A m c v = {f1, f2, f3} := by rw [hA]; simp
    have dd : ∀ f, f ∈ m.faces c → v ∈ m.nodes f → dist g c f x = N g c f 0 * (X v 0 - x 0) + N g c f 1 * (X v 1 - x 1) + N g c f 2 * (X v 2 - x 2) := by
      intro f hf hvf
      have := dist_sub (g := g) (c := c) (f := f) x (X v)
      rw [hX.on f v hf hv hvf, sub_zero] at this
      rw [this, dotN, hd, Finset.sum_range_succ, Finset.sum_range_succ, Finset.sum_range_one]
    have hdet : |det3 (nb g f1) (nb g f2) (nb g f3)| = |det3 (N g c f1) (N g c f2) (N g c f3)| := by
      have : det3 (N g c f1) (N g c f2) (N g c f3) = (if g.faceCells.getD (2 * f1) (-1) = (c : Int) then 1 else -1) * (if g.faceCells.getD (2 * f2) (-1) = (c : Int) then 1 else -1) *
          (if g.faceCells.getD (2 * f3) (-1) = (c : Int) then 1 else -1) * det3 (nb g f1) (nb g f2) (nb g f3) := by
        simp only [det3, N, nb]; ring
      rw [this, abs_mul, abs_mul, abs_mul]
      split <;> split <;> split <;> simp
    simp only [List.getD_cons_zero, List.getD_cons_succ]
    have z1 : ∀ a b, det3 a a b = 0 := fun a b => by simp only [det3]; ring
    have z2 : ∀ a b, det3 a b a = 0 := fun a b => by simp only [det3]; ring
    have z3 : ∀ a b, det3 b a a = 0 := fun a b => by simp only [det3]; ring
    have z4 : ∀ a d, cr a a d = 0 := fun a d => by simp only [cr]; split_ifs <;> ring
    have c1 : det3 (N g c f2) (N g c f3) (N g c f1) = det3 (N g c f1) (N g c f2) (N g c f3) := by simp only [det3]; ring
    have c2 : det3 (N g c f3) (N g c f1) (N g c f2) = det3 (N g c f1) (N g c f2) (N g c f3) := by simp only [det3]; ring
    have c3 : det3 (N g c f2) (N g c f1) (N g c f3) = -det3 (N g c f1) (N g c f2) (N g c f3) := by simp only [det3]; ring
    have c4 : det3 (N g c f1) (N g c f3) (N g c f2) = -det3 (N g c f1) (N g c f2) (N g c f3) := by simp only [det3]; ring
    have c5 : det3 (N g c f3) (N g c f2) (N g c f1) = -det3 (N g c f1) (N g c f2) (N g c f3) := by simp only [det3]; ring
    have anti : ∀ a b, cr a b d = -cr b a d := fun a b => by simp only [cr]; split_ifs <;> ring
    have q12 : Pd g m c x {f1, f2} = dist g c f3 x * Pd g m c x {f1, f2, f3} := by
      rw [Pd_insert (f := f3) m3 (by simp [Ne.symm h13, Ne.symm h23])]
      congr 2; ext f; simp; tauto
    have q13 : Pd g m c x {f1, f3} = dist g c f2 x * Pd g m c x {f1, f2, f3} := by
      rw [Pd_insert (f := f2) m2 (by simp [Ne.symm h12, h23])]
      congr 2; ext f; simp; tauto
    have q23 : Pd g m c x {f2, f3} = dist g c f1 x * Pd g m c x {f1, f2, f3} := by
      rw [Pd_insert (f := f1) m1 (by simp [h12, h13])]
    rw [hdet, hA']
    simp only [sum_three h12 h13 h23, z1, z2, z3, z4, c1, c2, c3, c4, c5, sg_neg, sg_zero, Finset.pair_comm f2 f1, Finset.pair_comm f3 f1, Finset.pair_comm f3 f2, q12, q13, q23,
      anti (N g c f2) (N g c f1), anti (N g c f3) (N g c f1), anti (N g c f3) (N g c f2), dd f1 m1 k1, dd f2 m2 k2, dd f3 m3 k3, abs_eq_sg]
    have hdd : d = 0 ∨ d = 1 ∨ d = 2 := by omega
    rcases hdd with rfl | rfl | rfl
    · simp only [cr, det3, if_pos]; ring
    · simp only [cr, det3, if_neg one_ne_zero, if_pos]; ring
    · simp only [cr, det3, if_neg two_ne_zero, if_neg (show (2 : Nat) ≠ 1 by omega)]; ring

/-- The weighted sum of the positions of the vertices, relative to the point, is zero. -/
theorem weighted_zero (h : GridOk g m) (hs : Simple g m) (hi : Independent g m) {c : Nat} (hc : c < g.nc) {X : Nat → Nat → Rat} (hX : Convex g m c X) (x : Nat → Rat) {V : Finset Nat} (hV : ∀ v, v ∈ V ↔ m.Vertex c v)
    {d : Nat} (hd : d < g.dim) : ∑ v ∈ V, vol g (m.at c v) * Pd g m c x (A m c v) * (X v d - x d) = 0 := by
  rcases h.dim with h2 | h3
  · rw [Finset.sum_congr rfl (fun v hv => vertex2 h hs h2 hc hX ((hV v).1 hv) x hd), Finset.sum_neg_distrib, neg_eq_zero]
    refine telescope (P := (m.faces c).toFinset) (fun v p => v ∈ m.nodes p) (fun v p => ∑ f ∈ A m c v, sg (det2 (N g c p) (N g c f))) (fun p => Pd g m c x {p} * turn (N g c p) d) ?_
    intro p hp hE ⟨v, hvV, hvp⟩
    have hp' : p ∈ m.faces c := List.mem_toFinset.1 hp
    obtain ⟨a, b, hab, hends⟩ := hX.ends [p] (by simp) (by simp [h2]) (by simpa using hp') ⟨v, by simpa using hvp⟩
    simp only [List.mem_cons, List.not_mem_nil, or_false, forall_eq] at hends
    have ha : m.Vertex c a := ⟨p, hp', (hends a).2 (Or.inl rfl)⟩
    have hb : m.Vertex c b := ⟨p, hp', (hends b).2 (Or.inr rfl)⟩
    refine ⟨a, b, (hV a).2 ha, (hV b).2 hb, hab, fun w _ => hends w, ?_⟩
    have hNt : dotN g c p (fun d => X b d - X a d) = 0 := by
      rw [← dist_sub, hX.on p a hp' ha ((hends a).2 (Or.inl rfl)), hX.on p b hp' hb ((hends b).2 (Or.inr rfl)), sub_zero]
    have hdot : ∀ f t, dotN g c f t = N g c f 0 * t 0 + N g c f 1 * t 1 := fun f t => by rw [dotN, h2, Finset.sum_range_succ, Finset.sum_range_one]
    have hpos : 0 < N g c p 0 ^ 2 + N g c p 1 ^ 2 := by
      refine lt_of_le_of_ne (by positivity) (fun e => hE ?_)
      have e0 : N g c p 0 = 0 := by nlinarith [sq_nonneg (N g c p 0), sq_nonneg (N g c p 1)]
      have e1 : N g c p 1 = 0 := by nlinarith [sq_nonneg (N g c p 0), sq_nonneg (N g c p 1)]
      simp [turn, e0, e1]
    refine ends_cancel h hs hi hc hX ha hb hab (κ := N g c p 0 ^ 2 + N g c p 1 ^ 2) (δ := det2 (N g c p) (fun d => X b d - X a d)) hpos (fun f => ?_)
    rw [hdot] at hNt ⊢
    simp only [det2]
    linear_combination (N g c p 0 * N g c f 0 + N g c p 1 * N g c f 1) * hNt
  · rw [Finset.sum_congr rfl (fun v hv => vertex3 h hs h3 hc hX ((hV v).1 hv) x hd), ← Finset.mul_sum]
    refine mul_eq_zero_of_right _ ?_
    refine telescope (P := (m.faces c).toFinset ×ˢ (m.faces c).toFinset) (fun v p => v ∈ m.nodes p.1 ∧ v ∈ m.nodes p.2) (fun v p => ∑ f ∈ A m c v, sg (det3 (N g c p.1) (N g c p.2) (N g c f)))
      (fun p => Pd g m c x {p.1, p.2} * cr (N g c p.1) (N g c p.2) d) ?_
    rintro ⟨p, q⟩ hp hE ⟨v, hvV, hvp⟩
    obtain ⟨hp1, hp2⟩ := Finset.mem_product.1 hp
    have hp' : p ∈ m.faces c := List.mem_toFinset.1 hp1
    have hq' : q ∈ m.faces c := List.mem_toFinset.1 hp2
    dsimp only at hE hvp ⊢
    have hpq : p ≠ q := by
      rintro rfl
      exact hE (by simp only [cr]; split_ifs <;> ring)
    obtain ⟨a, b, hab, hends⟩ := hX.ends [p, q] (by simpa using hpq) (by simp [h3]) (by simp [hp', hq']) ⟨v, by simpa using hvp⟩
    simp only [List.mem_cons, List.not_mem_nil, or_false, forall_eq_or_imp, forall_eq] at hends
    have ha2 := (hends a).2 (Or.inl rfl)
    have hb2 := (hends b).2 (Or.inr rfl)
    have ha : m.Vertex c a := ⟨p, hp', ha2.1⟩
    have hb : m.Vertex c b := ⟨p, hp', hb2.1⟩
    refine ⟨a, b, (hV a).2 ha, (hV b).2 hb, hab, fun w _ => hends w, ?_⟩
    have hNp : dotN g c p (fun d => X b d - X a d) = 0 := by rw [← dist_sub, hX.on p a hp' ha ha2.1, hX.on p b hp' hb hb2.1, sub_zero]
    have hNq : dotN g c q (fun d => X b d - X a d) = 0 := by rw [← dist_sub, hX.on q a hq' ha ha2.2, hX.on q b hq' hb hb2.2, sub_zero]
    have hdot : ∀ f t, dotN g c f t = N g c f 0 * t 0 + N g c f 1 * t 1 + N g c f 2 * t 2 := fun f t => by rw [dotN, h3, Finset.sum_range_succ, Finset.sum_range_succ, Finset.sum_range_one]
    have hpos : 0 < cr (N g c p) (N g c q) 0 ^ 2 + cr (N g c p) (N g c q) 1 ^ 2 + cr (N g c p) (N g c q) 2 ^ 2 := by
      refine lt_of_le_of_ne (by positivity) (fun e => hE ?_)
      have e0 : cr (N g c p) (N g c q) 0 = 0 := by nlinarith [sq_nonneg (cr (N g c p) (N g c q) 0), sq_nonneg (cr (N g c p) (N g c q) 1), sq_nonneg (cr (N g c p) (N g c q) 2)]
      have e1 : cr (N g c p) (N g c q) 1 = 0 := by nlinarith [sq_nonneg (cr (N g c p) (N g c q) 0), sq_nonneg (cr (N g c p) (N g c q) 1), sq_nonneg (cr (N g c p) (N g c q) 2)]
      have e2 : cr (N g c p) (N g c q) 2 = 0 := by nlinarith [sq_nonneg (cr (N g c p) (N g c q) 0), sq_nonneg (cr (N g c p) (N g c q) 1), sq_nonneg (cr (N g c p) (N g c q) 2)]
      have hdd : d = 0 ∨ d = 1 ∨ d = 2 := by omega
      rcases hdd with rfl | rfl | rfl
      · rw [e0, mul_zero]
      · rw [e1, mul_zero]
      · rw [e2, mul_zero]
    refine ends_cancel h hs hi hc hX ha hb hab (κ := cr (N g c p) (N g c q) 0 ^ 2 + cr (N g c p) (N g c q) 1 ^ 2 + cr (N g c p) (N g c q) 2 ^ 2)
      (δ := cr (N g c p) (N g c q) 0 * (X b 0 - X a 0) + cr (N g c p) (N g c q) 1 * (X b 1 - X a 1) + cr (N g c p) (N g c q) 2 * (X b 2 - X a 2)) hpos (fun f => ?_)
    rw [hdot] at hNp hNq ⊢
    have key : ∀ (u0 u1 u2 w0 w1 w2 t0 t1 t2 n0 n1 n2 C0 C1 C2 : Rat), u0 * t0 + u1 * t1 + u2 * t2 = 0 → w0 * t0 + w1 * t1 + w2 * t2 = 0 → C0 = u1 * w2 - u2 * w1 → C1 = u2 * w0 - u0 * w2 → C2 = u0 * w1 - u1 * w0 →
        (C0 ^ 2 + C1 ^ 2 + C2 ^ 2) * (n0 * t0 + n1 * t1 + n2 * t2) = (C0 * n0 + C1 * n1 + C2 * n2) * (C0 * t0 + C1 * t1 + C2 * t2) := by
      intro u0 u1 u2 w0 w1 w2 t0 t1 t2 n0 n1 n2 C0 C1 C2 hu hw e0 e1 e2
      have x0 : C1 * t2 - C2 * t1 = 0 := by
        subst e1; subst e2
        linear_combination w0 * hu - u0 * hw
      have x1 : C2 * t0 - C0 * t2 = 0 := by
        subst e0; subst e2
        linear_combination w1 * hu - u1 * hw
      have x2 : C0 * t1 - C1 * t0 = 0 := by
        subst e0; subst e1
        linear_combination w2 * hu - u2 * hw
      linear_combination (C1 * n2 - C2 * n1) * x0 + (C2 * n0 - C0 * n2) * x1 + (C0 * n1 - C1 * n0) * x2
    have hk := key (N g c p 0) (N g c p 1) (N g c p 2) (N g c q 0) (N g c q 1) (N g c q 2) (X b 0 - X a 0) (X b 1 - X a 1) (X b 2 - X a 2) (N g c f 0) (N g c f 1) (N g c f 2)
      (cr (N g c p) (N g c q) 0) (cr (N g c p) (N g c q) 1) (cr (N g c p) (N g c q) 2) hNp hNq (by simp [cr]) (by simp [cr]) (by simp [cr])
    rw [hk]
    congr 1
    simp only [cr, det3, if_pos, if_neg one_ne_zero, if_neg two_ne_zero, if_neg (show (2 : Nat) ≠ 1 by omega)]
    ring

end Opm.Wachspress
