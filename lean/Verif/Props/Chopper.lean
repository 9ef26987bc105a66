import Verif.Proofs.Chopper
/-!
# C130: cutting a part out of a corner-point grid

The part has the depths of the chosen columns, moved between the limits; the layers left out lie outside the limits.
-/

namespace Opm.Chopper.Props
open Opm Opm.GridInspector Opm.Chopper

variable {I : Inspector}

theorem corner_mem_layer (W : WellSized I) {i j k a b c : Nat} (hi : i < I.nx) (hj : j < I.ny) (hk : k < I.nz)
    (ha : a ≤ 1) (hb : b ≤ 1) (hc : c ≤ 1) : cornerZ I i j k a b c ∈ layer I k := by
  have h1 := index_lt (show 2 * i + a < 2 * I.nx by omega) (show 2 * j + b < 2 * I.ny by omega) (show c < 2 by omega)
  have e1 : 2 * I.nx * (2 * I.ny * 2) = 8 * I.nx * I.ny := by ring
  have e2 : (2 * i + a) + 2 * I.nx * ((2 * j + b) + 2 * I.ny * (2 * k + c))
      = k * (8 * I.nx * I.ny) + ((2 * i + a) + 2 * I.nx * ((2 * j + b) + 2 * I.ny * c)) := by ring
  have h2 := corner_lt W hi hj hk ha hb hc
  apply List.mem_of_getElem? (i := (2 * i + a) + 2 * I.nx * ((2 * j + b) + 2 * I.ny * c))
  unfold layer cornerZ
  rw [List.getElem?_take_of_lt (by omega), List.getElem?_drop, ← e2, List.getD_eq_getElem?_getD, List.getElem?_eq_getElem h2]
  rfl

theorem surface (W : WellSized I) {k c s : Nat} (hk : k < I.nz) (hc : c ≤ 1) (hs : s = 4 * I.nx * I.ny * (2 * k + c)) :
    {z | z ∈ (I.zcorn.drop s).take (8 * I.nx * I.ny / 2)} =
      {v | ∃ i j a b, i < I.nx ∧ j < I.ny ∧ a ≤ 1 ∧ b ≤ 1 ∧ v = cornerZ I i j k a b c} := by
  have half : 8 * I.nx * I.ny / 2 = 4 * I.nx * I.ny := by
    rw [show 8 * I.nx * I.ny = 2 * (4 * I.nx * I.ny) by ring, Nat.mul_div_cancel_left _ (by omega)]
  have e4 : 4 * I.nx * I.ny = 2 * I.nx * (2 * I.ny) := by ring
  ext v
  rw [half]
  constructor
  · intro h
    obtain ⟨n, hn⟩ := List.getElem?_of_mem h
    have hlt : n < 4 * I.nx * I.ny := by
      by_contra g
      rw [List.getElem?_take_eq_none (by omega)] at hn
      cases hn
    rw [List.getElem?_take_of_lt hlt, List.getElem?_drop] at hn
    have hx : 0 < 2 * I.nx := by
      rcases Nat.eq_zero_or_pos I.nx with e | e
      · rw [e] at hlt; simp at hlt
      · omega
    have q : n / (2 * I.nx) < 2 * I.ny := Nat.div_lt_of_lt_mul (by omega)
    have r : n % (2 * I.nx) < 2 * I.nx := Nat.mod_lt _ hx
    have d := Nat.div_add_mod n (2 * I.nx)
    refine ⟨n % (2 * I.nx) / 2, n / (2 * I.nx) / 2, n % (2 * I.nx) % 2, n / (2 * I.nx) % 2, by omega, by omega, by omega, by omega, ?_⟩
    unfold cornerZ
    rw [show 2 * (n % (2 * I.nx) / 2) + n % (2 * I.nx) % 2 = n % (2 * I.nx) by omega,
      show 2 * (n / (2 * I.nx) / 2) + n / (2 * I.nx) % 2 = n / (2 * I.nx) by omega,
      show n % (2 * I.nx) + 2 * I.nx * (n / (2 * I.nx) + 2 * I.ny * (2 * k + c)) = s + n by
        rw [hs, Nat.mul_add, ← Nat.mul_assoc (2 * I.nx), ← e4]; omega]
    exact (getD_of hn).symm
  · rintro ⟨i, j, a, b, hi, hj, ha, hb, rfl⟩
    have h1 := index_lt (show 2 * i + a < 2 * I.nx by omega) (show 2 * j + b < 2 * I.ny by omega) (show 0 < 1 by omega)
    simp only [Nat.mul_zero, Nat.add_zero, Nat.mul_one] at h1
    have h2 := corner_lt W hi hj hk ha hb hc
    have e2 : (2 * i + a) + 2 * I.nx * ((2 * j + b) + 2 * I.ny * (2 * k + c)) = s + ((2 * i + a) + 2 * I.nx * (2 * j + b)) := by
      rw [hs]; ring
    apply List.mem_of_getElem? (i := (2 * i + a) + 2 * I.nx * (2 * j + b))
    unfold cornerZ
    rw [List.getElem?_take_of_lt (by omega), List.getElem?_drop, ← e2, List.getD_eq_getElem?_getD, List.getElem?_eq_getElem h2]
    rfl

theorem first_eq (W : WellSized I) (hz : 0 < I.nz) : {z | z ∈ firstSurface I} = topDepths I := by
  have := surface W (k := 0) (c := 0) (s := 0) hz (by omega) (by ring)
  rw [List.drop_zero] at this
  exact this

theorem last_eq (W : WellSized I) (hz : 0 < I.nz) : {z | z ∈ lastSurface I} = bottomDepths I := by
  apply surface W (k := I.nz - 1) (c := 1) (by omega) (by omega)
  rw [show 8 * I.nx * I.ny = 2 * (4 * I.nx * I.ny) by ring, Nat.mul_div_cancel_left _ (by omega)]
  obtain ⟨m, hm⟩ : ∃ m, I.nz = m + 1 := ⟨I.nz - 1, by omega⟩
  rw [hm, Nat.add_sub_cancel]
  generalize 4 * I.nx * I.ny = L
  rw [show (m + 1) * (2 * L) = L * (2 * m + 1) + L by ring, Nat.add_sub_cancel]

theorem find_reverse {n k : Nat} {p : Nat → Bool} (h : (List.range n).reverse.find? p = some k) :
    k < n ∧ p k = true ∧ ∀ m, k < m → m < n → p m = false := by
  induction n with
  | zero => simp at h
  | succ n ih =>
    rw [List.range_succ, List.reverse_append, List.reverse_singleton, List.singleton_append, List.find?_cons] at h
    split at h
    · rename_i hp
      cases h
      exact ⟨by omega, hp, fun m h1 h2 => by omega⟩
    · rename_i hp
      obtain ⟨h1, h2, h3⟩ := ih h
      refine ⟨by omega, h2, fun m g1 g2 => ?_⟩
      by_cases e : m = n
      · rw [e]; simpa using hp
      · exact h3 m g1 (by omega)

theorem find_forward {n k : Nat} {p : Nat → Bool} (h : (List.range n).find? p = some k) :
    k < n ∧ p k = true ∧ ∀ m, m < k → p m = false := by
  rw [List.find?_range_eq_some] at h
  exact ⟨List.mem_range.1 h.2.1, h.1, fun m hm => by simpa using h.2.2 m hm⟩

/-- **C130**: the part has the chosen columns and a range of layers; its depths are those of the grid, moved between the limits; the layers left out lie wholly above or wholly below the limits. -/
theorem part (W : WellSized I) (hz : 0 < I.nz) {imin imax jmin jmax : Nat} (hi : imax ≤ I.nx) (hj : jmax ≤ I.ny)
    (hi' : imin < imax) (hj' : jmin < jmax) (zmin zmax : Rat) (reset : Bool) {top bottom : Rat}
    (ht : IsGreatest (topDepths I) top) (hb : IsLeast (bottomDepths I) bottom) (hlt : max zmin top < min zmax bottom) :
    ∃ C kmin kmax, chop I imin imax jmin jmax zmin zmax reset = .ok C ∧
      C.nx = imax - imin ∧ C.ny = jmax - jmin ∧ C.nz = kmax - kmin ∧ kmin ≤ kmax ∧ kmax ≤ I.nz ∧
      Part I C imin jmin kmin (max zmin top) (min zmax bottom) reset (zmax - zmin) ∧
      (∀ i j k a b c, i < I.nx → j < I.ny → k < kmin → a ≤ 1 → b ≤ 1 → c ≤ 1 → cornerZ I i j k a b c ≤ max zmin top) ∧
      (∀ i j k a b c, i < I.nx → j < I.ny → kmax ≤ k → k < I.nz → a ≤ 1 → b ≤ 1 → c ≤ 1 → min zmax bottom ≤ cornerZ I i j k a b c) := by
  have c0 : cornerZ I 0 0 0 0 0 0 ∈ topDepths I := ⟨0, 0, 0, 0, by omega, by omega, by omega, by omega, rfl⟩
  have c1 : cornerZ I 0 0 (I.nz - 1) 0 0 1 ∈ bottomDepths I := ⟨0, 0, 0, 0, by omega, by omega, by omega, by omega, rfl⟩
  obtain ⟨rt, ft, gt⟩ : ∃ r, (firstSurface I).foldl widen none = some r ∧ Range (topDepths I) r := by
    have := seen_foldl (firstSurface I)
    rw [first_eq W hz] at this
    exact this.resolve_left (fun h => by rw [h.2] at c0; exact c0)
  obtain ⟨rb, fb, gb⟩ : ∃ r, (lastSurface I).foldl widen none = some r ∧ Range (bottomDepths I) r := by
    have := seen_foldl (lastSurface I)
    rw [last_eq W hz] at this
    exact this.resolve_left (fun h => by rw [h.2] at c1; exact c1)
  have et : rt.2 = top := gt.2.unique ht
  have eb : rb.1 = bottom := gb.1.unique hb
  generalize hlo : max zmin top = lo at *
  generalize hhi : min zmax bottom = hi2 at *
  have lo0 : cornerZ I 0 0 0 0 0 0 ≤ lo := le_trans (ht.2 c0) (by rw [← hlo]; exact le_max_right _ _)
  have hi0 : hi2 ≤ cornerZ I 0 0 (I.nz - 1) 0 0 1 := le_trans (by rw [← hhi]; exact min_le_right _ _) (hb.2 c1)
  obtain ⟨kmin, hkmin⟩ : ∃ k, findMin I lo = some k := by
    rw [← Option.isSome_iff_exists, findMin, List.find?_isSome]
    exact ⟨I.nz - 1, by simp; omega, List.any_eq_true.2 ⟨_, corner_mem_layer W (i := 0) (j := 0) (k := I.nz - 1) (a := 0) (b := 0) (c := 1) (by omega) (by omega) (by omega) (by omega) (by omega) (by omega),
      by simpa using lt_of_lt_of_le hlt hi0⟩⟩
  obtain ⟨kl, hkl⟩ : ∃ k, (List.range I.nz).reverse.find? (fun k => (layer I k).any (fun v => v < hi2)) = some k := by
    rw [← Option.isSome_iff_exists, List.find?_isSome]
    exact ⟨0, by simp; omega, List.any_eq_true.2 ⟨_, corner_mem_layer W (i := 0) (j := 0) (k := 0) (a := 0) (b := 0) (c := 0) (by omega) (by omega) (by omega) (by omega) (by omega) (by omega),
      by simpa using lt_of_le_of_lt lo0 hlt⟩⟩
  have hkmax : findMax I hi2 = some (kl + 1) := by rw [findMax, hkl]; rfl
  obtain ⟨m1, -, m3⟩ := find_forward hkmin
  obtain ⟨n1, -, n3⟩ := find_reverse hkl
  have above : ∀ i j k a b c, i < I.nx → j < I.ny → k < kmin → a ≤ 1 → b ≤ 1 → c ≤ 1 → cornerZ I i j k a b c ≤ lo := by
    intro i j k a b c h1 h2 h3 h4 h5 h6
    have := m3 k h3
    rw [List.any_eq_false] at this
    simpa using this _ (corner_mem_layer W h1 h2 (by omega) h4 h5 h6)
  have below : ∀ i j k a b c, i < I.nx → j < I.ny → kl + 1 ≤ k → k < I.nz → a ≤ 1 → b ≤ 1 → c ≤ 1 → hi2 ≤ cornerZ I i j k a b c := by
    intro i j k a b c h1 h2 h3 h3' h4 h5 h6
    have := n3 k (by omega) h3'
    rw [List.any_eq_false] at this
    simpa using this _ (corner_mem_layer W h1 h2 (by omega) h4 h5 h6)
  have hle : kmin ≤ kl + 1 := by
    by_contra g
    have p := above 0 0 (kl + 1) 0 0 0 (by omega) (by omega) (by omega) (by omega) (by omega) (by omega)
    have q := below 0 0 (kl + 1) 0 0 0 (by omega) (by omega) (by omega) (by omega) (by omega) (by omega) (by omega)
    linarith
  obtain ⟨co, hco, lco, vco⟩ := chopCoord_ok W hi hj (by omega : imin ≤ imax) (by omega : jmin ≤ jmax) reset (zmax - zmin)
  obtain ⟨zc, hzc, lzc, vzc⟩ := chopZcorn_ok W (imin := imin) (jmin := jmin) (kmin := kmin) hi hj (by omega : kl + 1 ≤ I.nz) lo hi2 (if reset then lo else 0)
  refine ⟨⟨co, zc, true, imax - imin, jmax - jmin, kl + 1 - kmin⟩, kmin, kl + 1, ?_, rfl, rfl, rfl, hle, by omega, ?_, above, below⟩
  · unfold chop
    rw [if_neg (by rw [W.coord]; simp [Nat.mul_assoc]), hco]
    simp only [bind_ok]
    rw [if_neg (by rw [W.zcorn]; simp [Nat.mul_assoc]), ft, fb]
    simp only [et, eb, hlo, hhi]
    rw [if_neg (by linarith), hkmin, hkmax]
    simp only []
    rw [hzc]
    rfl
  · refine ⟨⟨lco, lzc⟩, ?_, ?_, ?_, ?_, ?_⟩
    · intro i j k a b c h1 h2 h3 h4 h5 h6
      exact vzc i j k a b c h1 h2 h3 h4 h5 h6
    · rintro rfl i j m h1 h2 h3
      exact (vco i j m h1 h2 h3).trans (by simp [change])
    · rintro rfl i j m h1 h2 h3
      exact (vco i j m h1 h2 (by omega)).trans (by rcases h3 with rfl | rfl <;> simp [change])
    · rintro rfl i j m h1 h2 h3
      exact (vco i j m h1 h2 (by omega)).trans (by rcases h3 with rfl | rfl <;> simp [change])
    · rintro rfl i j h1 h2
      exact ⟨(vco i j 2 h1 h2 (by omega)).trans (by simp [change]), (vco i j 5 h1 h2 (by omega)).trans (by simp [change])⟩

/-- **C130**: an exception is thrown if there is no depth between the limits. -/
theorem empty_thrown (W : WellSized I) (hz : 0 < I.nz) {imin imax jmin jmax : Nat} (hi : imax ≤ I.nx) (hj : jmax ≤ I.ny)
    (hi' : imin < imax) (hj' : jmin < jmax) (zmin zmax : Rat) (reset : Bool) {top bottom : Rat}
    (ht : IsGreatest (topDepths I) top) (hb : IsLeast (bottomDepths I) bottom) (hle : min zmax bottom ≤ max zmin top) :
    chop I imin imax jmin jmax zmin zmax reset = .error .thrown := by
  have c0 : cornerZ I 0 0 0 0 0 0 ∈ topDepths I := ⟨0, 0, 0, 0, by omega, by omega, by omega, by omega, rfl⟩
  have c1 : cornerZ I 0 0 (I.nz - 1) 0 0 1 ∈ bottomDepths I := ⟨0, 0, 0, 0, by omega, by omega, by omega, by omega, rfl⟩
  obtain ⟨rt, ft, gt⟩ : ∃ r, (firstSurface I).foldl widen none = some r ∧ Range (topDepths I) r := by
    have := seen_foldl (firstSurface I)
    rw [first_eq W hz] at this
    exact this.resolve_left (fun h => by rw [h.2] at c0; exact c0)
  obtain ⟨rb, fb, gb⟩ : ∃ r, (lastSurface I).foldl widen none = some r ∧ Range (bottomDepths I) r := by
    have := seen_foldl (lastSurface I)
    rw [last_eq W hz] at this
    exact this.resolve_left (fun h => by rw [h.2] at c1; exact c1)
  have et : rt.2 = top := gt.2.unique ht
  have eb : rb.1 = bottom := gb.1.unique hb
  obtain ⟨co, hco, -⟩ := chopCoord_ok W hi hj (by omega : imin ≤ imax) (by omega : jmin ≤ jmax) reset (zmax - zmin)
  unfold chop
  rw [if_neg (by rw [W.coord]; simp [Nat.mul_assoc]), hco]
  simp only [bind_ok]
  rw [if_neg (by rw [W.zcorn]; simp [Nat.mul_assoc]), ft, fb]
  simp only [et, eb]
  rw [if_pos hle]

/-- **C130**: the corners of the part are at the places of the grid, moved with the first pillar, if the pillars are kept or the pillar is vertical.  Missing: slanted pillars with `reset`, see `slanted_fails`. -/
theorem corner_x_partial {C : Inspector} {imin jmin kmin : Nat} {lo hi dz : Rat} {reset : Bool} (P : Part I C imin jmin kmin lo hi reset dz)
    {i j : Nat} (h1 : i ≤ C.nx) (h2 : j ≤ C.ny)
    (h : reset = false ∨ pillar I (i + imin) (j + jmin) 3 = pillar I (i + imin) (j + jmin) 0) (z : Rat) :
    xAt C i j (z - (if reset then lo else 0)) = xAt I (i + imin) (j + jmin) z - (if reset then pillar I imin jmin 0 else 0) := by
  cases reset with
  | false =>
    have k := P.kept rfl i j
    simp only [xAt, k 0 h1 h2 (by omega), k 2 h1 h2 (by omega), k 3 h1 h2 (by omega), k 5 h1 h2 (by omega)]
    simp
  | true =>
    have v := h.resolve_left (by simp)
    simp only [xAt, P.xs rfl i j 0 h1 h2 (Or.inl rfl), P.xs rfl i j 3 h1 h2 (Or.inr rfl), v]
    simp

theorem flat_get {α : Type} {L : Nat} {f : Nat → List α} {n : Nat} (h : ∀ m, m < n → (f m).length = L) :
    ((List.range n).flatMap f).length = L * n ∧ ∀ m r : Nat, m < n → r < L → ((List.range n).flatMap f)[r + L * m]? = (f m)[r]? := by
  induction n with
  | zero => exact ⟨by simp, fun m r hm _ => by omega⟩
  | succ n ih =>
    obtain ⟨h1, h2⟩ := ih (fun m hm => h m (by omega))
    rw [List.range_succ, List.flatMap_append, List.flatMap_singleton]
    refine ⟨by rw [List.length_append, h1, h n (by omega)]; ring, ?_⟩
    intro m r hm hr
    by_cases e : m = n
    · subst e
      rw [List.getElem?_append_right (by omega), h1, Nat.add_sub_cancel]
    · have : L * (m + 1) ≤ L * n := Nat.mul_le_mul_left L (by omega)
      rw [Nat.mul_add, Nat.mul_one] at this
      rw [List.getElem?_append_left (by omega)]
      exact h2 m r (by omega) hr

theorem mapM_get {α : Type} {field : List α} (cells : List Nat) (h : ∀ c ∈ cells, c < field.length) :
    ∃ out, filterField field cells = .ok out ∧ out.length = cells.length ∧ ∀ (n c : Nat), cells[n]? = some c → out[n]? = field[c]? := by
  unfold filterField
  induction cells with
  | nil => exact ⟨[], rfl, rfl, by simp⟩
  | cons c cells ih =>
    obtain ⟨out, h1, h2, h3⟩ := ih (fun d hd => h d (by simp [hd]))
    have hc := h c (by simp)
    refine ⟨field[c] :: out, ?_, by simp [h2], ?_⟩
    · rw [List.mapM_cons, rd_ok hc, h1]; rfl
    · intro n d hd
      cases n with
      | zero => simp only [List.getElem?_cons_zero, Option.some.injEq] at hd ⊢; subst hd; rw [List.getElem?_eq_getElem hc]
      | succ n => exact h3 n d (by simpa using hd)

/-- **C130**: in a field with a value for each cell, each cell of the part gets the value of its cell in the grid. -/
theorem field {α : Type} {v : List α} (hv : v.length = I.nx * (I.ny * I.nz)) {imin imax jmin jmax kmin kmax : Nat}
    (hi : imax ≤ I.nx) (hj : jmax ≤ I.ny) (hk : kmax ≤ I.nz) :
    ∃ out, filterField v (newToOld I imin imax jmin jmax kmin kmax) = .ok out ∧
      out.length = (imax - imin) * ((jmax - jmin) * (kmax - kmin)) ∧
      ∀ i j k : Nat, i < imax - imin → j < jmax - jmin → k < kmax - kmin →
        out[i + (imax - imin) * (j + (jmax - jmin) * k)]? = v[(i + imin) + I.nx * ((j + jmin) + I.ny * (k + kmin))]? := by
  generalize hA : imax - imin = nx
  generalize hB : jmax - jmin = ny
  generalize hC : kmax - kmin = nz
  have row : ∀ k, ∀ j, ((List.range nx).map fun i => I.nx * I.ny * (k + kmin) + I.nx * (j + jmin) + (i + imin)).length = nx := by
    intro k j; simp
  have lay := fun k => flat_get (n := ny) (fun j _ => row k j)
  have all := flat_get (n := nz) (fun k _ => (lay k).1)
  obtain ⟨out, h1, h2, h3⟩ := mapM_get (field := v) (newToOld I imin imax jmin jmax kmin kmax) (by
    intro c hc
    simp only [newToOld, List.mem_flatMap, List.mem_map, List.mem_range] at hc
    obtain ⟨k, g3, j, g2, i, g1, rfl⟩ := hc
    have := index_lt (show i + imin < I.nx by omega) (show j + jmin < I.ny by omega) (show k + kmin < I.nz by omega)
    rw [hv]
    have e : I.nx * I.ny * (k + kmin) + I.nx * (j + jmin) + (i + imin) = (i + imin) + I.nx * ((j + jmin) + I.ny * (k + kmin)) := by ring
    omega)
  refine ⟨out, h1, ?_, ?_⟩
  · rw [h2, newToOld, hA, hB, hC, all.1]; ring
  · intro i j k g1 g2 g3
    apply h3
    have lt := index_lt g1 g2 (show 0 < 1 by omega)
    simp only [Nat.mul_zero, Nat.add_zero, Nat.mul_one] at lt
    rw [newToOld, hA, hB, hC, show i + nx * (j + ny * k) = (i + nx * j) + nx * ny * k by ring, all.2 k _ g3 lt, (lay k).2 j i g2 g1,
      List.getElem?_map, List.getElem?_range g1]
    simp only [Option.map_some, Option.some.injEq]
    ring

/-! ## Concrete cases -/

deriving instance DecidableEq for Inspector

/-- Three layers of two cells; the pillars lean by one in ten. -/
def leaning : Inspector where
  coord := [0, 0, 0, 3, 0, 30,  5, 0, 0, 8, 0, 30,  9, 0, 0, 12, 0, 30,  0, 4, 0, 3, 4, 30,  5, 4, 0, 8, 4, 30,  9, 4, 0, 12, 4, 30]
  zcorn := List.replicate 8 0 ++ List.replicate 8 10 ++ List.replicate 8 10 ++ List.replicate 8 20 ++ List.replicate 8 20 ++ List.replicate 8 30
  specgrid := true
  nx := 2
  ny := 1
  nz := 3

/-- The second cell of the last two layers of `leaning`. -/
def cut : Inspector where
  coord := [0, 0, 0, 3, 0, 15,  4, 0, 0, 7, 0, 15,  0, 4, 0, 3, 4, 15,  4, 4, 0, 7, 4, 15]
  zcorn := List.replicate 4 0 ++ List.replicate 4 8 ++ List.replicate 4 8 ++ List.replicate 4 15
  specgrid := true
  nx := 1
  ny := 1
  nz := 2

theorem cut_eq : chop leaning 1 2 0 1 12 27 true = .ok cut := by decide +kernel

/-- **C130**, failure: with the origin moved, a slanted pillar is not at its place: at depth 20 (8 in the part) the first pillar was at 7, that is 2 beside its top, and now is at 8/5. -/
theorem slanted_fails : chop leaning 1 2 0 1 12 27 true = .ok cut ∧
    xAt cut 0 0 (20 - 12) ≠ xAt leaning 1 0 20 - pillar leaning 1 0 0 := ⟨cut_eq, by decide +kernel⟩

/-- **C130**, failure: the length of the pillars is that of the limits asked for, also if the limits used are narrower. -/
theorem length_fails : ∃ C, chop leaning 1 2 0 1 (-10) 50 true = .ok C ∧ pillar C 0 0 5 = 60 ∧ ∀ z ∈ C.zcorn, z ≤ 30 := by
  refine ⟨⟨[0, 0, 0, 3, 0, 60,  4, 0, 0, 7, 0, 60,  0, 4, 0, 3, 4, 60,  4, 4, 0, 7, 4, 60], List.replicate 4 0 ++ List.replicate 4 10 ++ List.replicate 4 10
    ++ List.replicate 4 20 ++ List.replicate 4 20 ++ List.replicate 4 30, true, 1, 1, 3⟩, by decide +kernel, by decide +kernel, by decide +kernel⟩

example : WellSized leaning := ⟨rfl, rfl⟩

example : filterField [10, 11, 12, 13, 14, 15] (newToOld leaning 1 2 0 1 1 3) = .ok [13, 15] := by decide +kernel

/-- The hypotheses of `part` are met. -/
example : IsGreatest (topDepths leaning) 0 ∧ IsLeast (bottomDepths leaning) 30 := by
  rw [← first_eq ⟨rfl, rfl⟩ (by decide), ← last_eq ⟨rfl, rfl⟩ (by decide)]
  have h : (0 ∈ firstSurface leaning ∧ ∀ z ∈ firstSurface leaning, z ≤ 0) ∧ (30 ∈ lastSurface leaning ∧ ∀ z ∈ lastSurface leaning, 30 ≤ z) := by decide +kernel
  exact ⟨⟨h.1.1, fun z hz => h.1.2 z hz⟩, ⟨h.2.1, fun z hz => h.2.2 z hz⟩⟩

end Opm.Chopper.Props
