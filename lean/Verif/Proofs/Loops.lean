import Verif.Core.Mem
/-! # Common loop patterns -/

namespace Opm

/-- A loop that reads and rewrites each element in turn is a map. -/
theorem loop_map {α : Type _} (l : List α) (f : Nat → List α → M (List α)) (g : α → α)
    (hf : ∀ (i : Nat) (x : α) (t : List α), t.length = l.length → t[i]? = some x → l[i]? = some x → f i t = .ok (t.set i (g x))) :
    loop l.length f l = .ok (l.map g) := by
  obtain ⟨t, ht, hP, _⟩ := loop_inv (n := l.length) (s := l) (f := f)
    (fun k t => t = (l.take k).map g ++ l.drop k ∧ k ≤ l.length) ⟨by simp, by omega⟩
    (by
      rintro k t hk ⟨rfl, _⟩
      have hlm : ((l.take k).map g).length = k := by simp; omega
      have hlen : ((l.take k).map g ++ l.drop k).length = l.length := by simp; omega
      have hget : ((l.take k).map g ++ l.drop k)[k]? = some l[k] := by
        rw [List.getElem?_append_right (by omega), hlm]
        simp [hk]
      refine ⟨_, hf k l[k] _ hlen hget (List.getElem?_eq_getElem hk), ?_, hk⟩
      rw [List.set_append_right _ _ (by omega), hlm, Nat.sub_self]
      rw [List.drop_eq_getElem_cons hk, List.set_cons_zero, List.take_succ_eq_append_getElem hk, List.map_append, List.append_assoc]
      rfl)
  rw [ht, hP]
  simp

end Opm
