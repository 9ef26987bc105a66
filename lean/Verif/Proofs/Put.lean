import Verif.Proofs.BlackoilMatrix
/-!
# Replacing a block of an array
-/

namespace Opm
open Opm.Blackoil

/-- The array with the elements from `k` on replaced by those of `m`. -/
def put (l : List Rat) (k : Nat) (m : List Rat) : List Rat := l.take k ++ m ++ l.drop (k + m.length)

theorem put_length {l : List Rat} {k : Nat} {m : List Rat} (h : k + m.length ≤ l.length) : (put l k m).length = l.length := by
  simp only [put, List.length_append, List.length_take, List.length_drop]
  omega

theorem put_get {l : List Rat} {k : Nat} {m : List Rat} (h : k + m.length ≤ l.length) (j : Nat) :
    (put l k m)[j]? = if k ≤ j ∧ j < k + m.length then m[j - k]? else l[j]? := by
  unfold put
  by_cases h1 : j < k
  · rw [if_neg (by omega), List.append_assoc, List.getElem?_append_left (by simp; omega), List.getElem?_take_of_lt h1]
  · by_cases h2 : j < k + m.length
    · rw [if_pos ⟨by omega, h2⟩, List.append_assoc, List.getElem?_append_right (by simp; omega), List.length_take, min_eq_left (by omega), List.getElem?_append_left (by omega)]
    · rw [if_neg (by omega), List.getElem?_append_right (by simp; omega), List.getElem?_drop]
      congr 1
      simp only [List.length_append, List.length_take]
      omega

theorem put_self {l : List Rat} {k n : Nat} (h : k + n ≤ l.length) : put l k ((l.drop k).take n) = l := by
  apply List.ext_getElem?
  intro j
  rw [put_get (by simp; omega)]
  split
  · next q =>
    simp only [List.length_take, List.length_drop] at q
    rw [List.getElem?_take_of_lt (by omega), List.getElem?_drop]
    congr 1
    omega
  · rfl

theorem put_put {l : List Rat} {k : Nat} {m m' : List Rat} (h : k + m.length ≤ l.length) (e : m'.length = m.length) : put (put l k m) k m' = put l k m' := by
  apply List.ext_getElem?
  intro j
  rw [put_get (by rw [put_length h]; omega), put_get h, put_get (by omega), e]
  split <;> rfl

theorem wr_put {l : List Rat} {k : Nat} {m : List Rat} (h : k + m.length ≤ l.length) {j : Nat} (hj : j < m.length) (x : Rat) : wr (put l k m) (k + j) x = .ok (put l k (m.set j x)) := by
  rw [wr_ok (by rw [put_length h]; omega)]
  congr 1
  apply List.ext_getElem?
  intro i
  rw [put_get (by simpa using h), List.getElem?_set, put_get h, List.length_set, put_length h]
  by_cases e : k + j = i
  · rw [if_pos e, if_pos (by omega), if_pos (by omega), List.getElem?_set, if_pos (by omega), if_pos hj]
  · rw [if_neg e]
    split
    · rw [List.getElem?_set, if_neg (by omega)]
    · rfl

theorem rd_put {l : List Rat} {k : Nat} {m : List Rat} (h : k + m.length ≤ l.length) {j : Nat} (hj : j < m.length) : rd (put l k m) (k + j) = rd m j := by
  rw [rd_of_getElem? (show (put l k m)[k + j]? = some (m[j]'hj) by rw [put_get h, if_pos ⟨by omega, by omega⟩, Nat.add_sub_cancel_left, List.getElem?_eq_getElem hj]),
    rd_of_getElem? (List.getElem?_eq_getElem hj)]

theorem zeros_put {l : List Rat} {k n : Nat} (h : k + n ≤ l.length) : zeros k n l = .ok (put l k (List.replicate n 0)) := by
  obtain ⟨t, e, h1, h2, h3⟩ := zeros_ok h
  rw [e]
  congr 1
  apply List.ext_getElem?
  intro j
  rw [put_get (by simpa using h), List.length_replicate]
  split
  · next q =>
    have := h2 (j - k) (by omega)
    rw [show k + (j - k) = j by omega, List.getD_eq_getElem?_getD, List.getElem?_eq_getElem (by omega)] at this
    rw [List.getElem?_eq_getElem (by omega), List.getElem?_replicate, if_pos (by omega)]
    simpa using this
  · next q =>
    by_cases hj : j < l.length
    · have := h3 j (fun i hi e => q ⟨by omega, by omega⟩)
      rw [List.getD_eq_getElem?_getD, List.getD_eq_getElem?_getD, List.getElem?_eq_getElem (by omega), List.getElem?_eq_getElem hj] at this
      rw [List.getElem?_eq_getElem (by omega), List.getElem?_eq_getElem hj]
      simpa using this
    · rw [List.getElem?_eq_none (by omega), List.getElem?_eq_none (by omega)]

/-- Two arrays of the same length coincide if their elements do. -/
theorem ext_getD {a b : List Rat} (hl : a.length = b.length) (h : ∀ i, i < a.length → a.getD i 0 = b.getD i 0) : a = b := by
  apply List.ext_getElem?
  intro j
  by_cases hj : j < a.length
  · have := h j hj
    rw [List.getD_eq_getElem?_getD, List.getD_eq_getElem?_getD, List.getElem?_eq_getElem hj, List.getElem?_eq_getElem (by omega)] at this
    rw [List.getElem?_eq_getElem hj, List.getElem?_eq_getElem (by omega)]
    simpa using this
  · rw [List.getElem?_eq_none (by omega), List.getElem?_eq_none (by omega)]

/-- Block `i` of an array of blocks of `K` elements. -/
def block (K i : Nat) (l : List Rat) : List Rat := (l.drop (K * i)).take K

theorem block_length {K i n : Nat} {l : List Rat} (h : l.length = n * K) (hi : i < n) : (block K i l).length = K := by
  have : (i + 1) * K ≤ n * K := Nat.mul_le_mul_right K hi
  rw [Nat.succ_mul] at this
  simp only [block, List.length_take, List.length_drop, Nat.mul_comm K]
  omega

theorem block_get {K i j : Nat} {l : List Rat} (hj : j < K) : (block K i l)[j]? = l[K * i + j]? := by
  rw [block, List.getElem?_take_of_lt hj, List.getElem?_drop]

theorem block_put {K i j n : Nat} {l m : List Rat} (h : l.length = n * K) (hi : i < n) (hm : m.length = K) : block K j (put l (K * i) m) = if j = i then m else block K j l := by
  have q : ∀ i, i < n → K * i + K ≤ l.length := fun i hi => by
    have : (i + 1) * K ≤ n * K := Nat.mul_le_mul_right K hi
    rw [Nat.succ_mul] at this
    rw [h, Nat.mul_comm]
    omega
  have hl := q i hi
  have dis : ∀ t, t < K → j ≠ i → ¬(K * i ≤ K * j + t ∧ K * j + t < K * i + K) := by
    intro t ht hne hh
    rcases Nat.lt_or_gt_of_ne hne with g | g
    · have := Nat.mul_le_mul_left K (Nat.succ_le_of_lt g)
      rw [Nat.mul_succ] at this
      omega
    · have := Nat.mul_le_mul_left K (Nat.succ_le_of_lt g)
      rw [Nat.mul_succ] at this
      omega
  apply List.ext_getElem?
  intro t
  by_cases ht : t < K
  · rw [block_get ht, put_get (by omega)]
    by_cases e : j = i
    · subst e; rw [if_pos (by omega), if_pos rfl]; congr 1; omega
    · rw [if_neg (by rw [hm]; exact dis t ht e), if_neg e, block_get ht]
  · rw [List.getElem?_eq_none (by simp [block]; omega)]
    split
    · rw [List.getElem?_eq_none (by omega)]
    · rw [List.getElem?_eq_none (by simp [block]; omega)]

/-- A loop which replaces one block in each pass, by values which do not depend on the array. -/
theorem loop_put {n K : Nat} {f : Nat → List Rat → M (List Rat)} {s : List Rat} (hs : s.length = n * K) (g : Nat → M (List Rat)) (hg : ∀ i v, i < n → g i = .ok v → v.length = K)
    (hf : ∀ i t, i < n → t.length = s.length → f i t = g i >>= fun v => .ok (put t (K * i) v)) (t : List Rat) :
    loop n f s = .ok t ↔ t.length = s.length ∧ ∀ i, i < n → g i = .ok (block K i t) := by
  have q : ∀ i, i < n → K * i + K ≤ s.length := fun i hi => by
    have : (i + 1) * K ≤ n * K := Nat.mul_le_mul_right K hi
    rw [Nat.succ_mul] at this
    rw [hs, Nat.mul_comm]
    omega
  have main : ∀ m, m ≤ n → ∀ t, loop m f s = .ok t → t.length = s.length ∧ ∀ i, i < m → g i = .ok (block K i t) := by
    intro m
    induction m with
    | zero => intro _ t h; rw [loop_zero] at h; cases h; exact ⟨rfl, by omega⟩
    | succ m ih =>
      intro hm t h
      rw [loop_succ, bind_eq_ok] at h
      obtain ⟨u, h1, h2⟩ := h
      obtain ⟨l1, i1⟩ := ih (by omega) u h1
      rw [hf m u (by omega) l1, bind_eq_ok] at h2
      obtain ⟨v, h3, h4⟩ := h2
      have h5 := Except.ok.inj h4
      subst h5
      have hv := hg m v (by omega) h3
      refine ⟨by rw [put_length (by rw [hv, l1]; exact q m (by omega)), l1], fun i hi => ?_⟩
      rw [block_put (n := n) (by rw [l1, hs]) (by omega) hv]
      split
      · next e => rw [e, h3]
      · exact i1 i (by omega)
  refine ⟨main n (le_refl n) t, fun ⟨hl, hv⟩ => ?_⟩
  have ex : ∀ m, m ≤ n → ∃ u, loop m f s = .ok u := by
    intro m
    induction m with
    | zero => intro _; exact ⟨s, loop_zero ..⟩
    | succ m ih =>
      intro hm
      obtain ⟨u, hu⟩ := ih (by omega)
      rw [loop_succ, hu, bind_ok, hf m u (by omega) (main m (by omega) u hu).1, hv m (by omega)]
      exact ⟨_, rfl⟩
  obtain ⟨u, hu⟩ := ex n (le_refl n)
  obtain ⟨l1, i1⟩ := main n (le_refl n) u hu
  rw [hu]
  congr 1
  apply ext_getD (by omega)
  intro k hk
  have hK : 0 < K := by
    rcases Nat.eq_zero_or_pos K with e | e
    · rw [e, Nat.mul_zero] at hs; omega
    · exact e
  have hi : k / K < n := Nat.div_lt_of_lt_mul (by rw [Nat.mul_comm, ← hs]; omega)
  have e := Except.ok.inj ((i1 _ hi).symm.trans (hv _ hi))
  have hj := Nat.mod_lt k hK
  have e2 := congrArg (fun l : List Rat => l[k % K]?) e
  simp only [block_get hj] at e2
  rw [Nat.div_add_mod] at e2
  rw [List.getD_eq_getElem?_getD, List.getD_eq_getElem?_getD, e2]

/-- The same for two arrays. -/
theorem loop_put2 {n K L : Nat} {f : Nat → List Rat × List Rat → M (List Rat × List Rat)} {s d : List Rat} (hs : s.length = n * K) (hd : d.length = n * L) (g : Nat → M (List Rat × List Rat))
    (hg : ∀ i v, i < n → g i = .ok v → v.1.length = K ∧ v.2.length = L)
    (hf : ∀ i (t u : List Rat), i < n → t.length = s.length → u.length = d.length → f i (t, u) = g i >>= fun v => .ok (put t (K * i) v.1, put u (L * i) v.2)) (t u : List Rat) :
    loop n f (s, d) = .ok (t, u) ↔ t.length = s.length ∧ u.length = d.length ∧ ∀ i, i < n → g i = .ok (block K i t, block L i u) := by
  have q : ∀ {s : List Rat} {K : Nat}, s.length = n * K → ∀ i, i < n → K * i + K ≤ s.length := fun {s K} hs i hi => by
    have : (i + 1) * K ≤ n * K := Nat.mul_le_mul_right K hi
    rw [Nat.succ_mul] at this
    rw [hs, Nat.mul_comm]
    omega
  have main : ∀ m, m ≤ n → ∀ t u, loop m f (s, d) = .ok (t, u) → t.length = s.length ∧ u.length = d.length ∧ ∀ i, i < m → g i = .ok (block K i t, block L i u) := by
    intro m
    induction m with
    | zero => intro _ t u h; rw [loop_zero] at h; cases h; exact ⟨rfl, rfl, by omega⟩
    | succ m ih =>
      intro hm t u h
      rw [loop_succ, bind_eq_ok] at h
      obtain ⟨⟨a, b⟩, h1, h2⟩ := h
      obtain ⟨l1, l2, i1⟩ := ih (by omega) a b h1
      rw [hf m a b (by omega) l1 l2, bind_eq_ok] at h2
      obtain ⟨v, h3, h4⟩ := h2
      obtain ⟨h5, h6⟩ := Prod.mk.inj (Except.ok.inj h4)
      subst h5 h6
      obtain ⟨hv1, hv2⟩ := hg m v (by omega) h3
      refine ⟨by rw [put_length (by rw [hv1, l1]; exact q hs m (by omega)), l1], by rw [put_length (by rw [hv2, l2]; exact q hd m (by omega)), l2], fun i hi => ?_⟩
      rw [block_put (n := n) (by rw [l1, hs]) (by omega) hv1, block_put (n := n) (by rw [l2, hd]) (by omega) hv2]
      by_cases e : i = m
      · rw [if_pos e, if_pos e, e, h3]
      · rw [if_neg e, if_neg e]
        exact i1 i (by omega)
  refine ⟨main n (le_refl n) t u, fun ⟨hl, hl2, hv⟩ => ?_⟩
  have ex : ∀ m, m ≤ n → ∃ a b, loop m f (s, d) = .ok (a, b) := by
    intro m
    induction m with
    | zero => intro _; exact ⟨s, d, loop_zero ..⟩
    | succ m ih =>
      intro hm
      obtain ⟨a, b, hu⟩ := ih (by omega)
      obtain ⟨l1, l2, _⟩ := main m (by omega) a b hu
      rw [loop_succ, hu, bind_ok, hf m a b (by omega) l1 l2, hv m (by omega)]
      exact ⟨_, _, rfl⟩
  obtain ⟨a, b, hu⟩ := ex n (le_refl n)
  obtain ⟨l1, l2, i1⟩ := main n (le_refl n) a b hu
  rw [hu]
  have same : ∀ {K : Nat} {x y : List Rat}, x.length = n * K → y.length = n * K → (∀ i, i < n → block K i x = block K i y) → x = y := by
    intro K x y hx hy h
    apply ext_getD (by omega)
    intro k hk
    have hK : 0 < K := by
      rcases Nat.eq_zero_or_pos K with e | e
      · rw [e, Nat.mul_zero] at hx; omega
      · exact e
    have hi : k / K < n := Nat.div_lt_of_lt_mul (by rw [Nat.mul_comm, ← hx]; omega)
    have e2 := congrArg (fun l : List Rat => l[k % K]?) (h _ hi)
    simp only [block_get (Nat.mod_lt k hK)] at e2
    rw [Nat.div_add_mod] at e2
    rw [List.getD_eq_getElem?_getD, List.getD_eq_getElem?_getD, e2]
  have e : ∀ i, i < n → block K i a = block K i t ∧ block L i b = block L i u := fun i hi => Prod.mk.inj (Except.ok.inj ((i1 i hi).symm.trans (hv i hi)))
  rw [same (by omega) (by omega) (fun i hi => (e i hi).1), same (by omega) (by omega) (fun i hi => (e i hi).2)]

end Opm
