import Verif.Spec.Chopper
import Verif.Proofs.GridInspector
/-!
# Lemmas on cutting a part out of a corner-point grid
-/

namespace Opm.Chopper
open Opm Opm.GridInspector

/-- The entries in `D` of a list of length `N` have the values `V`. -/
def Filled (V : Nat → Rat) (N : Nat) (D : Nat → Prop) (z : List Rat) : Prop :=
  z.length = N ∧ ∀ n, D n → z[n]? = some (V n)

theorem put_ok {V : Nat → Rat} {N : Nat} {old : List Rat} (l : List (Nat × Nat × (Rat → Rat)))
    (h : ∀ p ∈ l, p.2.1 < N ∧ ∃ v, rd old p.1 = .ok v ∧ p.2.2 v = V p.2.1) :
    ∀ {D : Nat → Prop} {z : List Rat}, Filled V N D z →
      ∃ z', put old l z = .ok z' ∧ Filled V N (fun n => D n ∨ ∃ p ∈ l, p.2.1 = n) z' := by
  induction l with
  | nil => intro D z hz; exact ⟨z, rfl, hz.1, fun n hn => hz.2 n (by simpa using hn)⟩
  | cons p l ih =>
    intro D z hz
    obtain ⟨hN, v, hv, hV⟩ := h p (by simp)
    have hw : Filled V N (fun n => D n ∨ p.2.1 = n) (z.set p.2.1 (p.2.2 v)) := by
      refine ⟨by rw [List.length_set]; exact hz.1, ?_⟩
      intro n hn
      by_cases e : p.2.1 = n
      · subst e
        rw [List.getElem?_set_self (by rw [hz.1]; exact hN), hV]
      · rw [List.getElem?_set_ne e]
        exact hz.2 n (hn.resolve_right e)
    obtain ⟨z', h1, h2⟩ := ih (fun q hq => h q (by simp [hq])) hw
    refine ⟨z', ?_, h2.1, ?_⟩
    · unfold put at h1 ⊢
      rw [List.foldlM_cons, hv]
      simp only [bind_ok]
      rw [wr_ok (by rw [hz.1]; exact hN)]
      exact h1
    · intro n hn
      apply h2.2
      rcases hn with hn | ⟨q, hq, e⟩
      · exact Or.inl (Or.inl hn)
      · rcases List.mem_cons.1 hq with rfl | hq
        · exact Or.inl (Or.inr e)
        · exact Or.inr ⟨q, hq, e⟩

theorem put_cover {V : Nat → Rat} {N : Nat} {old : List Rat} {D : Nat → Prop} {z : List Rat} {E : Nat → Prop} (l : List (Nat × Nat × (Rat → Rat)))
    (h : ∀ p ∈ l, p.2.1 < N ∧ ∃ v, rd old p.1 = .ok v ∧ p.2.2 v = V p.2.1) (hE : ∀ n, E n → ∃ p ∈ l, p.2.1 = n) (hz : Filled V N D z) :
    ∃ z', put old l z = .ok z' ∧ Filled V N (fun n => D n ∨ E n) z' := by
  obtain ⟨z', h1, h2⟩ := put_ok l h hz
  exact ⟨z', h1, h2.1, fun n hn => h2.2 n (hn.imp id (hE n))⟩

theorem loop_cover {V : Nat → Rat} {N m : Nat} {f : Nat → List Rat → M (List Rat)} (E : Nat → Nat → Prop)
    (h : ∀ i, i < m → ∀ (D : Nat → Prop) z, Filled V N D z → ∃ z', f i z = .ok z' ∧ Filled V N (fun n => D n ∨ E i n) z')
    (D : Nat → Prop) (z : List Rat) (hz : Filled V N D z) :
    ∃ z', loop m f z = .ok z' ∧ Filled V N (fun n => D n ∨ ∃ i, i < m ∧ E i n) z' := by
  apply loop_inv (fun k z => Filled V N (fun n => D n ∨ ∃ i, i < k ∧ E i n) z)
  · exact ⟨hz.1, fun n hn => hz.2 n (hn.resolve_right (by rintro ⟨i, hi, _⟩; omega))⟩
  · intro k s hk hs
    obtain ⟨z', h1, h2⟩ := h k hk _ s hs
    refine ⟨z', h1, h2.1, fun n hn => h2.2 n ?_⟩
    rcases hn with hn | ⟨i, hi, he⟩
    · exact Or.inl (Or.inl hn)
    · by_cases e : i = k
      · exact Or.inr (e ▸ he)
      · exact Or.inl (Or.inr ⟨i, by omega, he⟩)

theorem decode {A B x y z : Nat} (hx : x < A) (hy : y < B) :
    (x + A * (y + B * z)) % A = x ∧ (x + A * (y + B * z)) / A % B = y ∧ (x + A * (y + B * z)) / A / B = z := by
  have h : (x + A * (y + B * z)) / A = y + B * z := by
    rw [Nat.add_mul_div_left _ _ (by omega), Nat.div_eq_of_lt hx, Nat.zero_add]
  refine ⟨by rw [Nat.add_mul_mod_self_left, Nat.mod_eq_of_lt hx], ?_, ?_⟩
  · rw [h, Nat.add_mul_mod_self_left, Nat.mod_eq_of_lt hy]
  · rw [h, Nat.add_mul_div_left _ _ (by omega), Nat.div_eq_of_lt hy, Nat.zero_add]

theorem getD_of {l : List Rat} {n : Nat} {v : Rat} (h : l[n]? = some v) : l.getD n 0 = v := by
  simp [List.getD, h]

variable {I : Inspector}

theorem chopZcorn_ok (W : WellSized I) {imin imax jmin jmax kmin kmax : Nat} (hi : imax ≤ I.nx) (hj : jmax ≤ I.ny) (hk : kmax ≤ I.nz)
    (lo hi' o : Rat) :
    ∃ z, chopZcorn I imin imax jmin jmax kmin kmax lo hi' o = .ok z ∧
      z.length = 8 * ((imax - imin) * (jmax - jmin) * (kmax - kmin)) ∧
      ∀ i j k a b c, i < imax - imin → j < jmax - jmin → k < kmax - kmin → a ≤ 1 → b ≤ 1 → c ≤ 1 →
        z.getD ((2 * i + a) + 2 * (imax - imin) * ((2 * j + b) + 2 * (jmax - jmin) * (2 * k + c))) 0
          = clamp lo hi' (cornerZ I (i + imin) (j + jmin) (k + kmin) a b c) - o := by
  generalize hA : imax - imin = nx
  generalize hB : jmax - jmin = ny
  generalize hC : kmax - kmin = nz
  let V : Nat → Rat := fun n => clamp lo hi' (I.zcorn.getD
    ((n % (2 * nx) + 2 * imin) + 2 * I.nx * ((n / (2 * nx) % (2 * ny) + 2 * jmin) + 2 * I.ny * (n / (2 * nx) / (2 * ny) + 2 * kmin))) 0) - o
  let N := 8 * nx * ny * nz
  have val : ∀ i j k a b c, i < nx → j < ny → k < nz → a ≤ 1 → b ≤ 1 → c ≤ 1 →
      V ((2 * i + a) + 2 * nx * ((2 * j + b) + 2 * ny * (2 * k + c))) = clamp lo hi' (cornerZ I (i + imin) (j + jmin) (k + kmin) a b c) - o := by
    intro i j k a b c h1 h2 h3 h4 h5 h6
    obtain ⟨d1, d2, d3⟩ := decode (A := 2 * nx) (B := 2 * ny) (x := 2 * i + a) (y := 2 * j + b) (z := 2 * k + c) (by omega) (by omega)
    simp only [V, d1, d2, d3, cornerZ]
    congr 3
    ring_nf
  have lt : ∀ i j k a b c, i < nx → j < ny → k < nz → a ≤ 1 → b ≤ 1 → c ≤ 1 →
      (2 * i + a) + 2 * nx * ((2 * j + b) + 2 * ny * (2 * k + c)) < N := by
    intro i j k a b c h1 h2 h3 h4 h5 h6
    have := index_lt (show 2 * i + a < 2 * nx by omega) (show 2 * j + b < 2 * ny by omega) (show 2 * k + c < 2 * nz by omega)
    have e : 2 * nx * (2 * ny * (2 * nz)) = N := by simp only [N]; ring
    omega
  let E : Nat → Nat → Nat → Nat → Prop := fun k j i n => ∃ a b c, a ≤ 1 ∧ b ≤ 1 ∧ c ≤ 1 ∧
    (2 * i + a) + 2 * nx * ((2 * j + b) + 2 * ny * (2 * k + c)) = n
  have step : ∀ k, k < nz → ∀ j, j < ny → ∀ i, i < nx → ∀ (D : Nat → Prop) z, Filled V N D z →
      ∃ z', (let o' := 2 * ((i + imin) + (j + jmin) * (2 * I.nx) + (k + kmin) * (4 * I.nx * I.ny))
        let n := 2 * (i + j * (2 * nx) + k * (4 * nx * ny))
        let f := fun v : Rat => min hi' (max lo v) - o
        put I.zcorn
          [(o', n, f), (o' + 1, n + 1, f), (o' + 2 * I.nx, n + 2 * nx, f), (o' + 2 * I.nx + 1, n + 2 * nx + 1, f),
           (o' + 4 * I.nx * I.ny, n + 4 * nx * ny, f), (o' + 4 * I.nx * I.ny + 1, n + 4 * nx * ny + 1, f),
           (o' + 4 * I.nx * I.ny + 2 * I.nx, n + 4 * nx * ny + 2 * nx, f),
           (o' + 4 * I.nx * I.ny + 2 * I.nx + 1, n + 4 * nx * ny + 2 * nx + 1, f)] z) = .ok z' ∧
        Filled V N (fun n => D n ∨ E k j i n) z' := by
    intro k h3 j h2 i h1 D z hz
    have pt : ∀ a b c p q, a ≤ 1 → b ≤ 1 → c ≤ 1 →
        p = (2 * (i + imin) + a) + 2 * I.nx * ((2 * (j + jmin) + b) + 2 * I.ny * (2 * (k + kmin) + c)) →
        q = (2 * i + a) + 2 * nx * ((2 * j + b) + 2 * ny * (2 * k + c)) →
        q < N ∧ ∃ v, rd I.zcorn p = .ok v ∧ min hi' (max lo v) - o = V q := by
      intro a b c p q ha hb hc hp hq
      subst hq
      exact ⟨lt i j k a b c h1 h2 h3 ha hb hc, _, rd_corner W (by omega) (by omega) (by omega) ha hb hc hp,
        (val i j k a b c h1 h2 h3 ha hb hc).symm⟩
    refine put_cover _ ?_ ?_ hz
    · intro p hp
      simp only [List.mem_cons, List.not_mem_nil, or_false] at hp
      rcases hp with rfl | rfl | rfl | rfl | rfl | rfl | rfl | rfl
      · exact pt 0 0 0 _ _ (by omega) (by omega) (by omega) (by ring) (by ring)
      · exact pt 1 0 0 _ _ (by omega) (by omega) (by omega) (by ring) (by ring)
      · exact pt 0 1 0 _ _ (by omega) (by omega) (by omega) (by ring) (by ring)
      · exact pt 1 1 0 _ _ (by omega) (by omega) (by omega) (by ring) (by ring)
      · exact pt 0 0 1 _ _ (by omega) (by omega) (by omega) (by ring) (by ring)
      · exact pt 1 0 1 _ _ (by omega) (by omega) (by omega) (by ring) (by ring)
      · exact pt 0 1 1 _ _ (by omega) (by omega) (by omega) (by ring) (by ring)
      · exact pt 1 1 1 _ _ (by omega) (by omega) (by omega) (by ring) (by ring)
    · rintro n ⟨a, b, c, ha, hb, hc, e⟩
      have ha : a = 0 ∨ a = 1 := by omega
      have hb : b = 0 ∨ b = 1 := by omega
      have hc : c = 0 ∨ c = 1 := by omega
      simp only [List.mem_cons, List.not_mem_nil, or_false, exists_eq_or_imp, exists_eq_left]
      subst e
      rcases ha with rfl | rfl <;> rcases hb with rfl | rfl <;> rcases hc with rfl | rfl
      · left; ring
      · right; right; right; right; left; ring
      · right; right; left; ring
      · right; right; right; right; right; right; left; ring
      · right; left; ring
      · right; right; right; right; right; left; ring
      · right; right; right; left; ring
      · right; right; right; right; right; right; right; ring
  obtain ⟨z, g1, g2⟩ := loop_cover (V := V) (N := N) (m := nz) _
    (fun k hk => loop_cover (V := V) (N := N) (m := ny) _ (fun j hj => loop_cover (V := V) (N := N) (m := nx) _ (step k hk j hj)))
    (fun _ => False) (List.replicate N (10 ^ 100)) ⟨by simp, fun _ h => h.elim⟩
  refine ⟨z, ?_, by rw [g2.1]; simp only [N]; ring, ?_⟩
  · unfold chopZcorn
    simp only [hA, hB, hC]
    exact g1
  · intro i j k a b c h1 h2 h3 ha hb hc
    rw [← val i j k a b c h1 h2 h3 ha hb hc]
    exact getD_of (g2.2 _ (Or.inr ⟨k, h3, j, h2, i, h1, a, b, c, ha, hb, hc, rfl⟩))

/-- What happens to coordinate `m` of a pillar. -/
def change (x0 y0 dz : Rat) (reset : Bool) (m : Nat) (v : Rat) : Rat :=
  if reset then (if m = 0 ∨ m = 3 then v - x0 else if m = 1 ∨ m = 4 then v - y0 else if m = 2 then 0 else dz) else v

theorem chopCoord_ok (W : WellSized I) {imin imax jmin jmax : Nat} (hi : imax ≤ I.nx) (hj : jmax ≤ I.ny)
    (hi' : imin ≤ imax) (hj' : jmin ≤ jmax) (reset : Bool) (dz : Rat) :
    ∃ z, chopCoord I imin imax jmin jmax reset dz = .ok z ∧ z.length = 6 * ((imax - imin + 1) * (jmax - jmin + 1)) ∧
      ∀ i j m, i ≤ imax - imin → j ≤ jmax - jmin → m < 6 →
        z.getD (6 * (i + (imax - imin + 1) * j) + m) 0
          = change (pillar I imin jmin 0) (pillar I imin jmin 1) dz reset m (pillar I (i + imin) (j + jmin) m) := by
  generalize hA : imax - imin = nx
  generalize hB : jmax - jmin = ny
  generalize hx0 : pillar I imin jmin 0 = x0
  generalize hy0 : pillar I imin jmin 1 = y0
  let V : Nat → Rat := fun n => change x0 y0 dz reset (n % 6) (pillar I (n / 6 % (nx + 1) + imin) (n / 6 / (nx + 1) + jmin) (n % 6))
  let N := 6 * (nx + 1) * (ny + 1)
  have val : ∀ i j m, i ≤ nx → j ≤ ny → m < 6 →
      V (6 * (i + (nx + 1) * j) + m) = change x0 y0 dz reset m (pillar I (i + imin) (j + jmin) m) := by
    intro i j m h1 h2 h3
    obtain ⟨d1, d2, d3⟩ := decode (A := 6) (B := nx + 1) (x := m) (y := i) (z := j) (by omega) (by omega)
    rw [Nat.add_comm _ m]
    simp only [V, d1, d2, d3]
  have lt : ∀ i j m, i ≤ nx → j ≤ ny → m < 6 → 6 * (i + (nx + 1) * j) + m < N := by
    intro i j m h1 h2 h3
    have := index_lt h3 (show i < nx + 1 by omega) (show j < ny + 1 by omega)
    have e : 6 * ((nx + 1) * (ny + 1)) = N := by simp only [N]; ring
    omega
  let E : Nat → Nat → Nat → Prop := fun j i n => ∃ m, m < 6 ∧ 6 * (i + (nx + 1) * j) + m = n
  have step : ∀ j, j < ny + 1 → ∀ i, i < nx + 1 → ∀ (D : Nat → Prop) z, Filled V N D z →
      ∃ z', (let pos := (I.nx + 1) * (j + jmin) + (i + imin)
        let new := (nx + 1) * j + i
        put I.coord
          [(6 * pos, 6 * new, fun v => if reset then v - x0 else v),
           (6 * pos + 1, 6 * new + 1, fun v => if reset then v - y0 else v),
           (6 * pos + 2, 6 * new + 2, fun v => if reset then 0 else v),
           (6 * pos + 3, 6 * new + 3, fun v => if reset then v - x0 else v),
           (6 * pos + 4, 6 * new + 4, fun v => if reset then v - y0 else v),
           (6 * pos + 5, 6 * new + 5, fun v => if reset then dz else v)] z) = .ok z' ∧
        Filled V N (fun n => D n ∨ E j i n) z' := by
    intro j h2 i h1 D z hz
    have pt : ∀ m p q (f : Rat → Rat), m < 6 → p = 6 * ((i + imin) + (I.nx + 1) * (j + jmin)) + m → q = 6 * (i + (nx + 1) * j) + m →
        (∀ v, f v = change x0 y0 dz reset m v) → q < N ∧ ∃ v, rd I.coord p = .ok v ∧ f v = V q := by
      intro m p q f hm hp hq hf
      subst hp hq
      refine ⟨lt i j m (by omega) (by omega) hm, _, rd_getD (pillar_lt W (by omega) (by omega) hm), ?_⟩
      rw [hf, val i j m (by omega) (by omega) hm]
      rfl
    refine put_cover _ ?_ ?_ hz
    · intro p hp
      simp only [List.mem_cons, List.not_mem_nil, or_false] at hp
      rcases hp with rfl | rfl | rfl | rfl | rfl | rfl
      · exact pt 0 _ _ _ (by omega) (by ring) (by ring) (fun v => by simp [change])
      · exact pt 1 _ _ _ (by omega) (by ring) (by ring) (fun v => by simp [change])
      · exact pt 2 _ _ _ (by omega) (by ring) (by ring) (fun v => by simp [change])
      · exact pt 3 _ _ _ (by omega) (by ring) (by ring) (fun v => by simp [change])
      · exact pt 4 _ _ _ (by omega) (by ring) (by ring) (fun v => by simp [change])
      · exact pt 5 _ _ _ (by omega) (by ring) (by ring) (fun v => by simp [change])
    · rintro n ⟨m, hm, e⟩
      simp only [List.mem_cons, List.not_mem_nil, or_false, exists_eq_or_imp, exists_eq_left]
      subst e
      have : (nx + 1) * j + i = i + (nx + 1) * j := by ring
      rw [this]
      omega
  obtain ⟨z, g1, g2⟩ := loop_cover (V := V) (N := N) (m := ny + 1) _
    (fun j hj => loop_cover (V := V) (N := N) (m := nx + 1) _ (step j hj))
    (fun _ => False) (List.replicate N (10 ^ 100)) ⟨by simp, fun _ h => h.elim⟩
  refine ⟨z, ?_, by rw [g2.1]; simp only [N]; ring, ?_⟩
  · unfold chopCoord
    have r0 : rd I.coord (6 * ((I.nx + 1) * jmin + imin)) = .ok x0 := by
      rw [Nat.add_comm _ imin, ← hx0]; exact rd_getD (pillar_lt (m := 0) W (by omega) (by omega) (by omega))
    have r1 : rd I.coord (6 * ((I.nx + 1) * jmin + imin) + 1) = .ok y0 := by
      rw [Nat.add_comm _ imin, ← hy0]; exact rd_getD (pillar_lt (m := 1) W (by omega) (by omega) (by omega))
    rw [r0, r1]
    simp only [bind_ok, hA, hB]
    exact g1
  · intro i j m h1 h2 h3
    rw [← val i j m h1 h2 h3]
    exact getD_of (g2.2 _ (Or.inr ⟨j, by omega, i, by omega, m, h3, rfl⟩))

end Opm.Chopper
