import Verif.Proofs.Dfs
/-! # `dfs` reads only the first `size + 1` entries of `ia` -/

namespace Opm
variable {α σ : Type _}

theorem loop_ok_mono {n : Nat} {f g : Nat → σ → M σ} (h : ∀ i s r, f i s = .ok r → g i s = .ok r) {s r : σ}
    (hr : loop n f s = .ok r) : loop n g s = .ok r := by
  induction n generalizing r with
  | zero => exact hr
  | succ n ih =>
    rw [loop_succ, bind_eq_ok] at hr
    obtain ⟨a, h1, h2⟩ := hr
    rw [loop_succ, ih h1, bind_ok]
    exact h _ _ _ h2

theorem whileFuel_ok_mono {k : Nat} {f g : σ → M (σ × Bool)} (h : ∀ s r, f s = .ok r → g s = .ok r) {s r : σ}
    (hr : whileFuel k f s = .ok r) : whileFuel k g s = .ok r := by
  induction k generalizing s with
  | zero => cases hr
  | succ k ih =>
    rw [whileFuel_succ, bind_eq_ok] at hr
    obtain ⟨a, h1, h2⟩ := hr
    rw [whileFuel_succ, h _ _ h1, bind_ok]
    split at h2
    · rename_i hgo
      rw [if_pos hgo]; exact ih h2
    · rename_i hgo
      rw [if_neg hgo]; exact h2

theorem rd_take_ok {l : List α} {k i : Nat} {x : α} (h : rd (l.take k) i = .ok x) : rd l i = .ok x := by
  rw [rd_eq_ok, List.getElem?_take] at h
  rw [rd_eq_ok]
  split at h
  · exact h
  · cases h

theorem rdI_take_ok {l : List α} {k : Nat} {i : Int} {x : α} (h : rdI (l.take k) i = .ok x) : rdI l i = .ok x := by
  unfold rdI at h ⊢
  split
  · rename_i hi; rw [if_pos hi] at h; cases h
  · rename_i hi; rw [if_neg hi] at h; exact rd_take_ok h

namespace Dfs

theorem init_mono {size k : Nat} {ia : List Nat} {s r : State} (h : init size (ia.take k) s = .ok r) :
    init size ia s = .ok r := by
  unfold init at h ⊢
  refine loop_ok_mono (fun i s r h => ?_) h
  simp only [bind_eq_ok] at h ⊢
  obtain ⟨a1, h1, a2, h2, a3, h3, a4, h4, h5⟩ := h
  exact ⟨a1, h1, a2, rd_take_ok h2, a3, rd_take_ok h3, a4, h4, h5⟩

theorem step_mono {size k nc : Nat} {ia ja : List Nat} {s : State} {r : State × Bool}
    (h : step size (ia.take k) ja nc s = .ok r) : step size ia ja nc s = .ok r := by
  unfold step at h ⊢
  split
  · rename_i hs; rw [if_pos hs] at h; exact h
  · rename_i hs
    rw [if_neg hs] at h
    rw [bind_eq_ok] at h ⊢
    obtain ⟨c, h1, h⟩ := h
    refine ⟨c, h1, ?_⟩
    rw [bind_eq_ok] at h ⊢
    obtain ⟨cnt, h2, h⟩ := h
    refine ⟨cnt, h2, ?_⟩
    split
    · rename_i hc
      rw [if_pos hc] at h
      rw [bind_eq_ok] at h ⊢
      obtain ⟨a, h3, h⟩ := h
      exact ⟨a, rdI_take_ok h3, h⟩
    · rename_i hc
      rw [if_neg hc] at h
      exact h

theorem seed_mono {fuel size k i : Nat} {ia ja : List Nat} {p r : State × Nat}
    (h : seed fuel size (ia.take k) ja i p = .ok r) : seed fuel size ia ja i p = .ok r := by
  unfold seed at h ⊢
  rw [bind_eq_ok] at h ⊢
  obtain ⟨c, h1, h⟩ := h
  refine ⟨c, h1, ?_⟩
  split
  · rename_i hc; rw [if_pos hc] at h; exact h
  · rename_i hc
    rw [if_neg hc] at h
    simp only [bind_eq_ok] at h ⊢
    obtain ⟨a1, h1, a2, h2, a3, h3, h4⟩ := h
    exact ⟨a1, h1, a2, h2, a3, whileFuel_ok_mono (fun _ _ => step_mono) h3, h4⟩

theorem dfs_mono {fuel size k : Nat} {ia ja : List Nat} {color work : List Int} {r : List Int × List Int × Nat}
    (h : dfs fuel size (ia.take k) ja color work = .ok r) : dfs fuel size ia ja color work = .ok r := by
  unfold dfs at h ⊢
  simp only [bind_eq_ok] at h ⊢
  obtain ⟨a1, h1, a2, h2, h3⟩ := h
  exact ⟨a1, init_mono h1, a2, loop_ok_mono (fun _ _ _ => seed_mono) h2, h3⟩

end Dfs
end Opm
