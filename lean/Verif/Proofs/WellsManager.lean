import Verif.Spec.WellsManager
import Verif.Proofs.Wells
import Verif.Proofs.Loops
import Mathlib.Tactic.Linarith
import Mathlib.Data.List.Nodup
/-! # Declarations, perforations, depths and types of the wells of a deck -/

namespace Opm.Manager
open Opm Wells Groups

theorem nameMatches_iff (p n : String) : nameMatches p n = true ↔ Matches p n := by
  unfold nameMatches Matches beforeStar
  split
  · rw [decide_eq_true_iff, List.prefix_iff_eq_take, eq_comm]
  · exact decide_eq_true_iff

theorem nameMatches_eq (p n : String) : nameMatches p n = decide (Matches p n) := by
  rw [Bool.eq_iff_iff, nameMatches_iff, decide_eq_true_iff]

/-! ### WELSPECS -/

theorem declared_append (ls : List WelspecsLine) (l : WelspecsLine) :
    declared (ls ++ [l]) = if l.name ∈ declared ls then declared ls else declared ls ++ [l.name] := by
  unfold declared firstNames
  rw [List.map_append, List.foldl_append]
  rfl

theorem lastSpec_append (ls : List WelspecsLine) (l : WelspecsLine) (n : String) :
    lastSpec (ls ++ [l]) n = if l.name = n then some l else lastSpec ls n := by
  unfold lastSpec
  rw [List.reverse_append, List.reverse_singleton, List.singleton_append, List.find?_cons]
  by_cases h : l.name = n
  · simp [h]
  · simp [h]

structure FoundInv (ls : List WelspecsLine) (f : Found) : Prop where
  names : f.names = declared ls
  len : f.data.length = f.names.length
  nodup : f.names.Nodup
  index : ∀ n (i : Nat), f.index.lookup n = some i ↔ f.names[i]? = some n
  data : ∀ (i : Nat) n, f.names[i]? = some n → ∃ (d : WellData) (l : WelspecsLine), f.data[i]? = some d ∧ d.type = none ∧ ls[d.line]? = some l ∧ lastSpec ls n = some l ∧
    d.depth = refDepth l.datumDepth

theorem welspecsStep_ok {ls : List WelspecsLine} {f : Found} (h : FoundInv ls f) (l : WelspecsLine) :
    ∃ f', welspecsStep ls.length l f = .ok f' ∧ FoundInv (ls ++ [l]) f' := by
  unfold welspecsStep
  cases hl : f.index.lookup l.name with
  | none =>
    have hnew : l.name ∉ f.names := by
      intro hm
      obtain ⟨i, hi⟩ := List.getElem?_of_mem hm
      rw [(h.index l.name i).2 hi] at hl
      exact absurd hl (by simp)
    refine ⟨_, rfl, ?_, ?_, ?_, ?_, ?_⟩
    · rw [declared_append, ← h.names, if_neg hnew]
    · simp [h.len]
    · rw [List.nodup_append]
      refine ⟨h.nodup, by simp, ?_⟩
      intro a ha b hb
      simp only [List.mem_singleton] at hb
      subst hb
      exact fun e => hnew (e ▸ ha)
    · intro n i
      simp only [List.lookup_cons]
      by_cases hn : n = l.name
      · subst hn
        simp only [beq_self_eq_true, Option.some.injEq]
        rw [h.len]
        constructor
        · rintro rfl; simp
        · intro hi
          by_contra hne
          rcases Nat.lt_or_ge i f.names.length with hlt | hge
          · rw [List.getElem?_append_left hlt] at hi
            exact hnew (List.mem_of_getElem? hi)
          · have := (List.getElem?_eq_some_iff.1 hi).1
            simp at this
            omega
      · have : (n == l.name) = false := by simpa using hn
        rw [this]
        simp only
        rw [h.index]
        constructor
        · intro hi
          rw [List.getElem?_append_left (List.getElem?_eq_some_iff.1 hi).1]; exact hi
        · intro hi
          rcases Nat.lt_or_ge i f.names.length with hlt | hge
          · rwa [List.getElem?_append_left hlt] at hi
          · rw [List.getElem?_append_right hge] at hi
            have h0 := (List.getElem?_eq_some_iff.1 hi).1
            simp only [List.length_singleton] at h0
            have : i - f.names.length = 0 := by omega
            rw [this] at hi
            simp only [List.getElem?_cons_zero, Option.some.injEq] at hi
            exact absurd hi.symm hn
    · intro i n hi
      rcases Nat.lt_or_ge i f.names.length with hlt | hge
      · simp only at hi
        rw [List.getElem?_append_left hlt] at hi
        obtain ⟨d, l', hd, ht, hl', hla, hdep⟩ := h.data i n hi
        refine ⟨d, l', ?_, ht, ?_, ?_, hdep⟩
        · simp only
          rw [List.getElem?_append_left (by rw [h.len]; exact hlt)]; exact hd
        · rw [List.getElem?_append_left (List.getElem?_eq_some_iff.1 hl').1]; exact hl'
        · rw [lastSpec_append, if_neg]
          · exact hla
          · rintro rfl
            exact hnew (List.mem_of_getElem? hi)
      · simp only at hi
        rw [List.getElem?_append_right hge] at hi
        have h0 := (List.getElem?_eq_some_iff.1 hi).1
        simp only [List.length_singleton] at h0
        have he : i = f.names.length := by omega
        subst he
        simp only [Nat.sub_self, List.getElem?_cons_zero, Option.some.injEq] at hi
        subst hi
        refine ⟨⟨none, refDepth l.datumDepth, ls.length⟩, l, ?_, rfl, by simp, by rw [lastSpec_append, if_pos rfl], rfl⟩
        simp only
        rw [← h.len]
        simp
  | some wix =>
    have hn := (h.index l.name wix).1 hl
    obtain ⟨d, l', hd, ht, _, _, _⟩ := h.data wix _ hn
    have hlt := (List.getElem?_eq_some_iff.1 hd).1
    simp only
    rw [rd_of_getElem? hd, bind_ok, wr_ok hlt, bind_ok]
    refine ⟨_, rfl, ?_, by simpa using h.len, h.nodup, h.index, ?_⟩
    · rw [declared_append, ← h.names, if_pos (List.mem_of_getElem? hn)]
    · intro i n hi
      simp only at hi ⊢
      by_cases hix : i = wix
      · subst hix
        rw [hn] at hi
        cases hi
        refine ⟨{ d with depth := refDepth l.datumDepth, line := ls.length }, l, ?_, ht, by simp, by rw [lastSpec_append, if_pos rfl], rfl⟩
        rw [List.getElem?_set_self hlt]
      · obtain ⟨d', l'', hd', ht', hl'', hla, hdep⟩ := h.data i n hi
        refine ⟨d', l'', by rw [List.getElem?_set_ne (Ne.symm hix)]; exact hd', ht', ?_, ?_, hdep⟩
        · rw [List.getElem?_append_left (List.getElem?_eq_some_iff.1 hl'').1]; exact hl''
        · rw [lastSpec_append, if_neg]
          · exact hla
          · rintro rfl
            exact hix ((List.getElem?_inj (List.getElem?_eq_some_iff.1 hi).1 h.nodup).1 (hi.trans hn.symm))

theorem readWelspecs_ok (rest : List WelspecsLine) : ∀ (ls : List WelspecsLine) (f : Found), FoundInv ls f →
    ∃ f', readWelspecs ls.length rest f = .ok f' ∧ FoundInv (ls ++ rest) f' := by
  induction rest with
  | nil => intro ls f h; exact ⟨f, rfl, by simpa using h⟩
  | cons l rest ih =>
    intro ls f h
    obtain ⟨f1, e1, h1⟩ := welspecsStep_ok h l
    obtain ⟨f2, e2, h2⟩ := ih (ls ++ [l]) f1 h1
    refine ⟨f2, ?_, by simpa using h2⟩
    unfold readWelspecs
    rw [e1, bind_ok]
    simpa using e2

theorem found_ok (specs : List WelspecsLine) : ∃ f, readWelspecs 0 specs ⟨[], [], []⟩ = .ok f ∧ FoundInv specs f := by
  have := readWelspecs_ok specs [] ⟨[], [], []⟩ ⟨rfl, rfl, List.nodup_nil, by simp, by simp⟩
  simpa using this

/-! ### COMPDAT -/

theorem putNew_lookup (k k' : Int) (v : Nat) (m : List (Int × Nat)) :
    (putNew k v m).lookup k' = if k' = k then some ((m.lookup k).getD v) else m.lookup k' := by
  unfold putNew
  cases h : m.lookup k with
  | none =>
    simp only [List.lookup_cons]
    by_cases hk : k' = k
    · simp [hk]
    · have : (k' == k) = false := by simpa using hk
      rw [this, if_neg hk]
  | some x =>
    simp only
    split
    · rename_i he; subst he; rw [h]; rfl
    · rfl

/-- The first cell with a Cartesian number, among the first `n` cells. -/
def FirstCell (g : Grid) (n : Nat) (k : Int) (c : Nat) : Prop := c < n ∧ g.cart c = some k ∧ ∀ c' < c, g.cart c' ≠ some k

theorem FirstCell.succ {g : Grid} {n : Nat} {k : Int} {c : Nat} (h : FirstCell g n k c) : FirstCell g (n + 1) k c := ⟨by have := h.1; omega, h.2⟩

def CtcInv (g : Grid) (n : Nat) (m : List (Int × Nat)) : Prop := ∀ k c, m.lookup k = some c ↔ FirstCell g n k c

theorem ctcInv_step {g : Grid} {n : Nat} {m : List (Int × Nat)} (h : CtcInv g n m) (k0 : Int) (hk : g.cart n = some k0) : CtcInv g (n + 1) (putNew k0 n m) := by
  intro k c
  rw [putNew_lookup]
  by_cases hkk : k = k0
  · subst hkk
    rw [if_pos rfl]
    cases hm : m.lookup k with
    | some c0 =>
      have h0 := (h k c0).1 hm
      simp only [Option.getD_some, Option.some.injEq]
      constructor
      · rintro rfl; exact h0.succ
      · intro hc
        rcases Nat.lt_trichotomy c0 c with hl | he | hg
        · exact absurd h0.2.1 (hc.2.2 c0 hl)
        · exact he
        · exact absurd hc.2.1 (h0.2.2 c hg)
    | none =>
      have hno : ∀ c' < n, g.cart c' ≠ some k := by
        intro c' hc' he
        classical
        have hex : ∃ x, g.cart x = some k := ⟨c', he⟩
        have hmin := Nat.find_spec hex
        have : FirstCell g n k (Nat.find hex) := ⟨by have := Nat.find_min' hex he; omega, hmin, fun y hy => Nat.find_min hex hy⟩
        rw [(h k _).2 this] at hm
        exact absurd hm (by simp)
      simp only [Option.getD_none, Option.some.injEq]
      constructor
      · rintro rfl; exact ⟨by omega, hk, hno⟩
      · intro hc
        by_contra hne
        exact hno c (by have := hc.1; omega) hc.2.1
  · rw [if_neg hkk, h]
    constructor
    · exact FirstCell.succ
    · intro hc
      refine ⟨?_, hc.2⟩
      by_contra hge
      have : c = n := by have := hc.1; omega
      subst this
      have h1 := hc.2.1
      rw [hk] at h1
      exact hkk (Option.some.inj h1).symm

theorem cartToCompressed_ok (g : Grid) (hg : g.WellFormed) : ∃ m, cartToCompressed g = .ok m ∧ CtcInv g g.ncells m := by
  unfold cartToCompressed
  have h0 : CtcInv g 0 [] := by
    intro k c
    simp [FirstCell]
  cases hgc : g.globalCell with
  | some gc =>
    have hl := hg.cells gc hgc
    refine loop_inv (fun i (m : List (Int × Nat)) => CtcInv g i m) h0 ?_
    intro i m hi hm
    have hlt : i < gc.length := by omega
    refine ⟨_, by rw [rd_ok hlt, bind_ok], ?_⟩
    refine ctcInv_step hm _ ?_
    unfold Grid.cart
    rw [hgc]
    exact List.getElem?_eq_getElem hlt
  | none =>
    refine loop_inv (fun i (m : List (Int × Nat)) => CtcInv g i m) h0 ?_
    intro i m hi hm
    refine ⟨_, rfl, ctcInv_step hm _ ?_⟩
    unfold Grid.cart
    rw [hgc]

/-! Connection factors -/

theorem foldl_max_spec (as : List Rat) (a : Rat) : as.foldl max a ∈ a :: as ∧ ∀ x ∈ a :: as, x ≤ as.foldl max a := by
  induction as generalizing a with
  | nil => simp
  | cons b as ih =>
    obtain ⟨h1, h2⟩ := ih (max a b)
    rw [List.foldl_cons]
    refine ⟨?_, ?_⟩
    · rcases List.mem_cons.1 h1 with h | h
      · rw [h]
        rcases max_choice a b with e | e <;> simp [e]
      · exact List.mem_cons_of_mem _ (List.mem_cons_of_mem _ h)
    · intro x hx
      have hm := h2 (max a b) (List.mem_cons_self ..)
      rcases List.mem_cons.1 hx with rfl | hx
      · exact le_trans (le_max_left _ _) hm
      · rcases List.mem_cons.1 hx with rfl | hx
        · exact le_trans (le_max_right _ _) hm
        · exact h2 x (List.mem_cons_of_mem _ hx)

theorem foldl_min_spec (as : List Rat) (a : Rat) : as.foldl min a ∈ a :: as ∧ ∀ x ∈ a :: as, as.foldl min a ≤ x := by
  induction as generalizing a with
  | nil => simp
  | cons b as ih =>
    obtain ⟨h1, h2⟩ := ih (min a b)
    rw [List.foldl_cons]
    refine ⟨?_, ?_⟩
    · rcases List.mem_cons.1 h1 with h | h
      · rw [h]
        rcases min_choice a b with e | e <;> simp [e]
      · exact List.mem_cons_of_mem _ (List.mem_cons_of_mem _ h)
    · intro x hx
      have hm := h2 (min a b) (List.mem_cons_self ..)
      rcases List.mem_cons.1 hx with rfl | hx
      · exact le_trans hm (min_le_left _ _)
      · rcases List.mem_cons.1 hx with rfl | hx
        · exact le_trans hm (min_le_right _ _)
        · exact h2 x (List.mem_cons_of_mem _ hx)

theorem extent_iff (xs : List Rat) (d : Rat) :
    extent xs = .ok d ↔ ∃ lo hi, lo ∈ xs ∧ hi ∈ xs ∧ (∀ x ∈ xs, lo ≤ x ∧ x ≤ hi) ∧ d = hi - lo := by
  cases xs with
  | nil => simp [extent]
  | cons a as =>
    obtain ⟨h1, h2⟩ := foldl_max_spec as a
    obtain ⟨h3, h4⟩ := foldl_min_spec as a
    simp only [extent]
    constructor
    · intro h
      cases h
      exact ⟨_, _, h3, h1, fun x hx => ⟨h4 x hx, h2 x hx⟩, rfl⟩
    · rintro ⟨lo, hi, hlo, hhi, hb, rfl⟩
      have e1 : as.foldl max a = hi := le_antisymm (hb _ h1).2 (h2 _ hhi)
      have e2 : as.foldl min a = lo := le_antisymm (h4 _ hlo) (hb _ h3).1
      rw [e1, e2]

/-- The coordinates of the faces of a cell. -/
def CoordsAre (g : Grid) (p c : Nat) (xs : List Rat) : Prop :=
  ∀ (k : Nat) (x : Rat), xs[k]? = some x → ∃ f : Nat, g.faces[p + k]? = some (f : Int) ∧ g.faceCentroids[3 * f + c]? = some x

theorem coords_loop {g : Grid} (hd : g.dimensions = 3) (p c n : Nat) (hc : c ≤ 2) (xs : List Rat) :
    loop n (fun lf x => do
      let f ← rd g.faces (p + lf)
      let v ← rdI g.faceCentroids (g.dimensions * f + c)
      .ok (x ++ [v])) [] = .ok xs ↔ xs.length = n ∧ CoordsAre g p c xs := by
  induction n generalizing xs with
  | zero =>
    rw [loop_zero]
    constructor
    · intro h; cases h; exact ⟨rfl, by intro k x hk; simp at hk⟩
    · rintro ⟨h, _⟩
      rw [List.length_eq_zero_iff.1 h]
  | succ n ih =>
    rw [loop_succ, bind_eq_ok]
    constructor
    · rintro ⟨ys, hy, h⟩
      obtain ⟨hl, hco⟩ := (ih ys).1 hy
      rw [bind_eq_ok] at h
      obtain ⟨f, hf, h⟩ := h
      rw [bind_eq_ok] at h
      obtain ⟨v, hv, h⟩ := h
      cases h
      refine ⟨by simp [hl], ?_⟩
      intro k x hk
      rcases Nat.lt_or_ge k ys.length with hlt | hge
      · rw [List.getElem?_append_left hlt] at hk; exact hco k x hk
      · rw [List.getElem?_append_right hge] at hk
        have h0 := (List.getElem?_eq_some_iff.1 hk).1
        simp only [List.length_singleton] at h0
        have he : k = n := by omega
        subst he
        rw [hl] at hk
        simp only [Nat.sub_self, List.getElem?_cons_zero, Option.some.injEq] at hk
        subst hk
        rw [hd] at hv
        have hf' := rd_eq_ok.1 hf
        rcases Int.lt_or_le f 0 with hneg | hpos
        · exfalso
          unfold rdI at hv
          rw [if_pos (by omega)] at hv
          exact absurd hv (by simp)
        · obtain ⟨m, rfl⟩ := Int.eq_ofNat_of_zero_le hpos
          refine ⟨m, hf', ?_⟩
          have e : (3 : Int) * (m : Int) + (c : Int) = ((3 * m + c : Nat) : Int) := by push_cast; ring
          rw [e, rdI_natCast] at hv
          exact rd_eq_ok.1 hv
    · rintro ⟨hl, hco⟩
      obtain ⟨ys, v, rfl⟩ : ∃ ys v, xs = ys ++ [v] := by
        rcases List.eq_nil_or_concat xs with h | ⟨ys, v, h⟩
        · rw [h] at hl; simp at hl
        · exact ⟨ys, v, by simpa using h⟩
      have hyl : ys.length = n := by simpa using hl
      obtain ⟨f, hf, hv⟩ := hco n v (by rw [← hyl]; simp)
      refine ⟨ys, (ih ys).2 ⟨hyl, ?_⟩, ?_⟩
      · intro k x hk
        exact hco k x (by rw [List.getElem?_append_left (List.getElem?_eq_some_iff.1 hk).1]; exact hk)
      · rw [rd_of_getElem? hf, bind_ok, hd]
        have e : (3 : Int) * (f : Int) + (c : Int) = ((3 * f + c : Nat) : Int) := by push_cast; ring
        rw [e, rdI_natCast, rd_of_getElem? hv, bind_ok]

theorem faceCoords_extent {g : Grid} (hd : g.dimensions = 3) (m c : Nat) (hc : c ≤ 2) (d : Rat) :
    (∃ xs, faceCoords g m c = .ok xs ∧ extent xs = .ok d) ↔ Extent g m c d := by
  unfold faceCoords Extent
  constructor
  · rintro ⟨xs, hx, he⟩
    rw [bind_eq_ok] at hx
    obtain ⟨p, hp, hx⟩ := hx
    rw [bind_eq_ok] at hx
    obtain ⟨q, hq, hx⟩ := hx
    obtain ⟨hl, hco⟩ := (coords_loop hd p c (q - p) hc xs).1 hx
    exact ⟨p, q, xs, rd_eq_ok.1 hp, rd_eq_ok.1 hq, hl, hco, (extent_iff xs d).1 he⟩
  · rintro ⟨p, q, xs, hp, hq, hl, hco, he⟩
    refine ⟨xs, ?_, (extent_iff xs d).2 he⟩
    rw [rd_of_getElem? hp, bind_ok, rd_of_getElem? hq, bind_ok]
    exact (coords_loop hd p c (q - p) hc xs).2 ⟨hl, hco⟩

theorem cubeDim_iff {g : Grid} (hd : g.dimensions = 3) (m : Nat) (cube : Rat × Rat × Rat) :
    cubeDim g m = .ok cube ↔ Extent g m 0 cube.1 ∧ Extent g m 1 cube.2.1 ∧ Extent g m 2 cube.2.2 := by
  rw [← faceCoords_extent hd m 0 (by omega), ← faceCoords_extent hd m 1 (by omega), ← faceCoords_extent hd m 2 (by omega)]
  unfold cubeDim
  constructor
  · intro h
    simp only [bind_eq_ok] at h
    obtain ⟨x, hx, y, hy, z, hz, dx, hdx, dy, hdy, dz, hdz, h⟩ := h
    cases h
    exact ⟨⟨x, hx, hdx⟩, ⟨y, hy, hdy⟩, ⟨z, hz, hdz⟩⟩
  · rintro ⟨⟨x, hx, hdx⟩, ⟨y, hy, hdy⟩, ⟨z, hz, hdz⟩⟩
    rw [hx, bind_ok, hy, bind_ok, hz, bind_ok, hdx, bind_ok, hdy, bind_ok, hdz, bind_ok]

theorem wellIndex_iff {g : Grid} (hd : g.dimensions = 3) (pm : Peaceman) (perm : List Rat) (l : CompdatLine) (m : Nat) (wi : Rat) :
    wellIndex pm g perm l m = .ok wi ↔ ConnectionOk pm g perm l m wi := by
  unfold wellIndex ConnectionOk
  by_cases ht : 0 < l.trans
  · rw [if_pos ht, if_pos ht]
    constructor
    · intro h; cases h; rfl
    · intro h; rw [h]
  · rw [if_neg ht, if_neg ht]
    have hr : radius l.diameter = if l.diameter ≤ 0 then 1524 / 10000 else l.diameter / 2 := by
      unfold radius
      by_cases h : l.diameter ≤ 0
      · rw [if_pos (by linarith), if_pos h]; norm_num
      · rw [if_neg (by linarith), if_neg h]; ring
    have e1 : g.dimensions * g.dimensions * (m : Int) = ((9 * m : Nat) : Int) := by rw [hd]; push_cast; ring
    have e2 : g.dimensions * g.dimensions * (m : Int) + 4 = ((9 * m + 4 : Nat) : Int) := by rw [hd]; push_cast; ring
    rw [e2, e1, hr]
    simp only [rdI_natCast]
    constructor
    · intro h
      simp only [bind_eq_ok] at h
      obtain ⟨cube, hc, kx, hkx, ky, hky, h⟩ := h
      obtain ⟨h1, h2, h3⟩ := (cubeDim_iff hd m cube).1 hc
      exact ⟨cube.1, cube.2.1, cube.2.2, kx, ky, h1, h2, h3, rd_eq_ok.1 hkx, rd_eq_ok.1 hky, h⟩
    · rintro ⟨dx, dy, dz, kx, ky, h1, h2, h3, hkx, hky, h⟩
      rw [(cubeDim_iff hd m (dx, dy, dz)).2 ⟨h1, h2, h3⟩, bind_ok, rd_of_getElem? hkx, bind_ok, rd_of_getElem? hky, bind_ok]
      exact h

/-! Perforations -/

theorem split_forall2 {α β : Type} {R : α → β → Prop} {x y : List α} {z : List β} (h : List.Forall₂ R (x ++ y) z) :
    ∃ a b, List.Forall₂ R x a ∧ List.Forall₂ R y b ∧ z = a ++ b := by
  induction x generalizing z with
  | nil => exact ⟨[], z, List.Forall₂.nil, h, rfl⟩
  | cons u x ih =>
    cases h with
    | cons h1 h2 =>
      obtain ⟨a, b, ha, hb, rfl⟩ := ih h2
      exact ⟨_ :: a, b, List.Forall₂.cons h1 ha, hb, rfl⟩

theorem collect_iff {α : Type} (F : Nat → M α) (n : Nat) (old ps : List α) :
    loop n (fun k acc => do
      let p ← F k
      .ok (acc ++ [p])) old = .ok ps ↔ ∃ new, ps = old ++ new ∧ List.Forall₂ (fun k p => F k = .ok p) (List.range n) new := by
  induction n generalizing ps with
  | zero =>
    rw [loop_zero]
    constructor
    · intro h; cases h; exact ⟨[], by simp, by simp⟩
    · rintro ⟨new, rfl, h⟩
      cases h
      simp
  | succ n ih =>
    rw [loop_succ, bind_eq_ok, List.range_succ]
    constructor
    · rintro ⟨qs, hq, h⟩
      obtain ⟨new, rfl, hn⟩ := (ih qs).1 hq
      rw [bind_eq_ok] at h
      obtain ⟨p, hp, h⟩ := h
      cases h
      refine ⟨new ++ [p], by simp, ?_⟩
      exact List.rel_append hn (List.Forall₂.cons hp List.Forall₂.nil)
    · rintro ⟨new, rfl, hn⟩
      obtain ⟨a, b, ha, hb, rfl⟩ : ∃ a b, List.Forall₂ (fun k p => F k = .ok p) (List.range n) a ∧
          List.Forall₂ (fun k p => F k = .ok p) [n] b ∧ new = a ++ b :=
        split_forall2 hn
      cases hb with
      | cons hp ht =>
        cases ht
        exact ⟨old ++ a, (ih _).2 ⟨a, rfl, ha⟩, by rw [hp, bind_ok]; simp⟩

/-- A perforation as a pair. -/
def Perf.pair (p : Perf) : Int × Rat := (p.cell, p.wi)

theorem perforate_iff {g : Grid} (hd : g.dimensions = 3) (pm : Peaceman) (perm : List Rat) {ctc : List (Int × Nat)} (hc : CtcInv g g.ncells ctc)
    (l : CompdatLine) (ix jy kz : Int) (p : Perf) :
    perforate pm g perm ctc l ix jy kz = .ok p ↔ PerforationOk pm g perm (l, ix + g.cartdims.1 * (jy + g.cartdims.2.1 * kz)) p.pair := by
  unfold perforate PerforationOk
  cases hl : ctc.lookup (ix + g.cartdims.1 * (jy + g.cartdims.2.1 * kz)) with
  | none =>
    simp only
    constructor
    · intro h; exact absurd h (by simp)
    · rintro ⟨m, -, h1, h2, h3, -⟩
      rw [(hc _ m).2 ⟨h1, h2, h3⟩] at hl
      exact absurd hl (by simp)
  | some cell =>
    obtain ⟨h1, h2, h3⟩ := (hc _ cell).1 hl
    simp only
    rw [bind_eq_ok]
    constructor
    · rintro ⟨wi, hw, h⟩
      cases h
      exact ⟨cell, rfl, h1, h2, h3, (wellIndex_iff hd pm perm l cell wi).1 hw⟩
    · rintro ⟨m, hm, k1, k2, k3, hw⟩
      have he := (hc _ m).2 ⟨k1, k2, k3⟩
      rw [hl] at he
      cases he
      refine ⟨p.wi, (wellIndex_iff hd pm perm l cell _).2 hw, ?_⟩
      have : p.cell = cell := by simpa [Perf.pair] using hm
      rw [← this]

theorem gridIndex_eq (i d : Int) : gridIndex i d = fromOne i d := by
  unfold gridIndex fromOne
  by_cases h : i ≤ 0
  · rw [if_pos (by omega), if_pos h]
  · rw [if_neg (by omega), if_neg h]

/-- The perforations are those asked for. -/
def PerfsOk (pm : Peaceman) (g : Grid) (perm : List Rat) : List (CompdatLine × Int) → List Perf → Prop :=
  List.Forall₂ (fun a p => PerforationOk pm g perm a p.pair)

theorem compdatPerfs_iff {g : Grid} (hd : g.dimensions = 3) (pm : Peaceman) (perm : List Rat) {ctc : List (Int × Nat)} (hc : CtcInv g g.ncells ctc)
    (spec : WelspecsLine) (l : CompdatLine) (old ps : List Perf) :
    compdatPerfs pm g perm ctc spec l old = .ok ps ↔
      ∃ new, ps = old ++ new ∧ PerfsOk pm g perm ((askedCells g spec l).map (fun c => (l, c))) new := by
  unfold compdatPerfs
  simp only [gridIndex_eq]
  rw [collect_iff]
  unfold PerfsOk askedCells layers
  refine exists_congr fun new => and_congr_right fun _ => ?_
  rw [List.map_map, List.map_map, List.forall₂_map_left_iff]
  simp only [perforate_iff hd pm perm hc, Function.comp_def]

/-- The perforations asked for in well `n` by some records. -/
theorem asked_cons (g : Grid) (specs : List WelspecsLine) (l : CompdatLine) (ls : List CompdatLine) (n : String) :
    asked g specs (l :: ls) n = (if (declared specs).find? (fun m => Matches l.well m) = some n then
      (match lastSpec specs n with
       | some spec => (askedCells g spec l).map (fun c => (l, c))
       | none => []) else []) ++ asked g specs ls n := by
  unfold asked
  rw [List.filter_cons]
  by_cases h : (declared specs).find? (fun m => Matches l.well m) = some n
  · simp only [h, decide_true, if_true, List.flatMap_cons]
    rfl
  · simp only [h, decide_false, if_false]
    rfl

theorem findIdx_find {names : List String} {p : String → Bool} {i : Nat} (h : names.findIdx? p = some i) :
    ∃ n, names[i]? = some n ∧ names.find? p = some n := by
  induction names generalizing i with
  | nil => simp at h
  | cons a as ih =>
    rw [List.findIdx?_cons] at h
    by_cases ha : p a
    · rw [if_pos ha] at h
      cases h
      exact ⟨a, rfl, by simp [ha]⟩
    · rw [if_neg ha] at h
      obtain ⟨j, hj, rfl⟩ := Option.map_eq_some_iff.1 h
      obtain ⟨n, h1, h2⟩ := ih hj
      exact ⟨n, by simpa using h1, by simp [ha, h2]⟩

theorem compdatStep_iff {g : Grid} (hd : g.dimensions = 3) (pm : Peaceman) (perm : List Rat) {ctc : List (Int × Nat)} (hc : CtcInv g g.ncells ctc)
    {specs : List WelspecsLine} {f : Found} (hf : FoundInv specs f) (l : CompdatLine) (perfs perfs' : List (List Perf)) (hl : perfs.length = f.names.length) :
    compdatStep pm g perm ctc specs f l perfs = .ok perfs' ↔
      ∃ i n spec old new, f.names[i]? = some n ∧ (declared specs).find? (fun m => Matches l.well m) = some n ∧ lastSpec specs n = some spec ∧
        perfs[i]? = some old ∧ perfs' = perfs.set i (old ++ new) ∧ PerfsOk pm g perm ((askedCells g spec l).map (fun c => (l, c))) new := by
  unfold compdatStep
  have hfun : nameMatches l.well = fun m => decide (Matches l.well m) := by funext m; exact nameMatches_eq ..
  rw [hfun, ← hf.names]
  cases hi : f.names.findIdx? (fun m => decide (Matches l.well m)) with
  | none =>
    simp only
    constructor
    · intro h; exact absurd h (by simp)
    · rintro ⟨i, n, spec, old, new, -, hn, -⟩
      rw [List.findIdx?_eq_none_iff] at hi
      have := List.find?_some hn
      exact absurd (hi n (List.mem_of_find?_eq_some hn)) (by simp only [this]; decide)
  | some i =>
    obtain ⟨n, h1, h2⟩ := findIdx_find hi
    have hlt := (List.getElem?_eq_some_iff.1 h1).1
    obtain ⟨d, spec, hd', -, hs, hla, -⟩ := hf.data i n h1
    have ho : perfs[i]? = some perfs[i] := List.getElem?_eq_getElem (by omega)
    simp only
    rw [rd_of_getElem? hd', bind_ok, rd_of_getElem? hs, bind_ok, rd_of_getElem? ho, bind_ok, bind_eq_ok]
    constructor
    · rintro ⟨ps, hp, h⟩
      obtain ⟨new, rfl, hn⟩ := (compdatPerfs_iff hd pm perm hc spec l _ _).1 hp
      rw [wr_ok (by omega)] at h
      cases h
      exact ⟨i, n, spec, _, new, h1, h2, hla, ho, rfl, hn⟩
    · rintro ⟨j, n', spec', old, new, k1, k2, k3, k4, rfl, k5⟩
      rw [h2] at k2
      cases k2
      have hij : j = i := (List.getElem?_inj (List.getElem?_eq_some_iff.1 k1).1 hf.nodup).1 (k1.trans h1.symm)
      subst hij
      rw [hla] at k3
      cases k3
      rw [ho] at k4
      cases k4
      exact ⟨_, (compdatPerfs_iff hd pm perm hc spec l _ _).2 ⟨new, rfl, k5⟩, wr_ok (by omega)⟩

theorem compdat_sound {g : Grid} (hd : g.dimensions = 3) (pm : Peaceman) (perm : List Rat) {ctc : List (Int × Nat)} (hc : CtcInv g g.ncells ctc)
    {specs : List WelspecsLine} {f : Found} (hf : FoundInv specs f) (ls : List CompdatLine) : ∀ (perfs perfs' : List (List Perf)),
    perfs.length = f.names.length → ls.foldlM (fun perfs l => compdatStep pm g perm ctc specs f l perfs) perfs = .ok perfs' →
    perfs'.length = f.names.length ∧ (∀ l ∈ ls, ∃ n ∈ declared specs, Matches l.well n) ∧
    ∀ (i : Nat) n old, f.names[i]? = some n → perfs[i]? = some old → ∃ new, perfs'[i]? = some (old ++ new) ∧ PerfsOk pm g perm (asked g specs ls n) new := by
  induction ls with
  | nil =>
    intro perfs perfs' hl h
    rw [List.foldlM_nil] at h
    cases h
    exact ⟨hl, by simp, fun i n old _ ho => ⟨[], by simpa using ho, by simp [asked, PerfsOk]⟩⟩
  | cons l ls ih =>
    intro perfs perfs' hl h
    rw [List.foldlM_cons, bind_eq_ok] at h
    obtain ⟨p1, h1, h⟩ := h
    obtain ⟨j, m, spec, old, new, k1, k2, k3, k4, rfl, k5⟩ := (compdatStep_iff hd pm perm hc hf l perfs p1 hl).1 h1
    obtain ⟨r1, r2, r3⟩ := ih _ perfs' (by simpa using hl) h
    refine ⟨r1, ?_, ?_⟩
    · intro x hx
      rcases List.mem_cons.1 hx with rfl | hx
      · exact ⟨m, List.mem_of_find?_eq_some k2, by simpa using List.find?_some k2⟩
      · exact r2 x hx
    · intro i n old' hn ho
      by_cases hij : i = j
      · subst hij
        rw [k1] at hn
        cases hn
        rw [k4] at ho
        cases ho
        obtain ⟨new2, e2, q2⟩ := r3 i m (old ++ new) k1 (by rw [List.getElem?_set_self (List.getElem?_eq_some_iff.1 k4).1])
        refine ⟨new ++ new2, by rw [e2, List.append_assoc], ?_⟩
        rw [asked_cons, if_pos k2, k3]
        exact List.rel_append k5 q2
      · obtain ⟨new2, e2, q2⟩ := r3 i n old' hn (by rw [List.getElem?_set_ne (Ne.symm hij)]; exact ho)
        refine ⟨new2, e2, ?_⟩
        rw [asked_cons, if_neg, List.nil_append]
        · exact q2
        · rw [k2]
          intro he
          cases he
          exact hij ((List.getElem?_inj (List.getElem?_eq_some_iff.1 hn).1 hf.nodup).1 (hn.trans k1.symm))

theorem forall2_exists {α β : Type} {R : α → β → Prop} (as : List α) (h : ∀ a ∈ as, ∃ b, R a b) : ∃ bs, List.Forall₂ R as bs := by
  induction as with
  | nil => exact ⟨[], List.Forall₂.nil⟩
  | cons a as ih =>
    obtain ⟨b, hb⟩ := h a (List.mem_cons_self ..)
    obtain ⟨bs, hbs⟩ := ih (fun x hx => h x (List.mem_cons_of_mem _ hx))
    exact ⟨b :: bs, List.Forall₂.cons hb hbs⟩

theorem compdat_complete {g : Grid} (hd : g.dimensions = 3) (pm : Peaceman) (perm : List Rat) {ctc : List (Int × Nat)} (hc : CtcInv g g.ncells ctc)
    {specs : List WelspecsLine} {f : Found} (hf : FoundInv specs f) (ls : List CompdatLine) : ∀ (perfs : List (List Perf)),
    perfs.length = f.names.length → (∀ l ∈ ls, ∃ n ∈ declared specs, Matches l.well n) →
    (∀ n ∈ declared specs, ∀ a ∈ asked g specs ls n, ∃ p, PerforationOk pm g perm a p) →
    ∃ perfs', ls.foldlM (fun perfs l => compdatStep pm g perm ctc specs f l perfs) perfs = .ok perfs' := by
  induction ls with
  | nil => intro perfs _ _ _; exact ⟨perfs, rfl⟩
  | cons l ls ih =>
    intro perfs hl h1 h2
    obtain ⟨n, hn, hm⟩ := h1 l (List.mem_cons_self ..)
    obtain ⟨m, hm'⟩ : ∃ m, (declared specs).find? (fun m => Matches l.well m) = some m := by
      rw [← Option.isSome_iff_exists, List.find?_isSome]
      exact ⟨n, hn, by simpa using hm⟩
    have hmem := List.mem_of_find?_eq_some hm'
    rw [← hf.names] at hmem
    obtain ⟨i, hi⟩ := List.getElem?_of_mem hmem
    obtain ⟨d, spec, -, -, -, hla, -⟩ := hf.data i m hi
    have hlt := (List.getElem?_eq_some_iff.1 hi).1
    obtain ⟨new, hnew⟩ : ∃ new, PerfsOk pm g perm ((askedCells g spec l).map (fun c => (l, c))) new := by
      refine forall2_exists _ ?_
      intro a ha
      obtain ⟨p, hp⟩ := h2 m (by rw [← hf.names]; exact hmem) a (by
        rw [asked_cons, if_pos hm', hla]; exact List.mem_append_left _ ha)
      obtain ⟨c, hc1, hc2⟩ := hp
      exact ⟨⟨c, p.2⟩, c, rfl, hc2⟩
    have hstep := (compdatStep_iff hd pm perm hc hf l perfs (perfs.set i (perfs[i] ++ new)) hl).2
      ⟨i, m, spec, perfs[i], new, hi, hm', hla, List.getElem?_eq_getElem (by omega), rfl, hnew⟩
    rw [List.foldlM_cons, hstep, bind_ok]
    refine ih _ (by simpa using hl) (fun x hx => h1 x (List.mem_cons_of_mem _ hx)) ?_
    intro n' hn' a ha
    exact h2 n' hn' a (by rw [asked_cons]; exact List.mem_append_right _ ha)

/-! ### Reference depths -/

theorem minDepth_spec (g : Grid) (ps : List Perf) : ∀ (a z : Rat),
    ps.foldlM (fun m p => do
      let z ← rd g.cellCentroids (3 * p.cell + 2)
      .ok (min m z)) a = .ok z →
    z ≤ a ∧ (∀ p ∈ ps, ∃ x, g.cellCentroids[3 * p.cell + 2]? = some x ∧ z ≤ x) ∧ (z = a ∨ ∃ p ∈ ps, g.cellCentroids[3 * p.cell + 2]? = some z) := by
  induction ps with
  | nil =>
    intro a z h
    rw [List.foldlM_nil] at h
    cases h
    exact ⟨le_refl _, by simp, Or.inl rfl⟩
  | cons p ps ih =>
    intro a z h
    rw [List.foldlM_cons, bind_eq_ok] at h
    obtain ⟨b, hb, h⟩ := h
    rw [bind_eq_ok] at hb
    obtain ⟨x, hx, hb⟩ := hb
    cases hb
    obtain ⟨h1, h2, h3⟩ := ih _ z h
    have hx' := rd_eq_ok.1 hx
    refine ⟨le_trans h1 (min_le_left _ _), ?_, ?_⟩
    · intro q hq
      rcases List.mem_cons.1 hq with rfl | hq
      · exact ⟨x, hx', le_trans h1 (min_le_right _ _)⟩
      · exact h2 q hq
    · rcases h3 with h3 | ⟨q, hq, h3⟩
      · rcases min_choice a x with e | e
        · left; rw [h3, e]
        · right; exact ⟨p, List.mem_cons_self .., by rw [h3, e]; exact hx'⟩
      · right; exact ⟨q, List.mem_cons_of_mem _ hq, h3⟩

theorem minDepth_ok (g : Grid) (hg : g.WellFormed) (ps : List Perf) (hp : ∀ p ∈ ps, p.cell < g.ncells) : ∀ a : Rat, ∃ z,
    ps.foldlM (fun m p => do
      let z ← rd g.cellCentroids (3 * p.cell + 2)
      .ok (min m z)) a = .ok z := by
  induction ps with
  | nil => intro a; exact ⟨a, rfl⟩
  | cons p ps ih =>
    intro a
    rw [List.foldlM_cons, rd_ok (hg.depths _ (hp p (List.mem_cons_self ..))), bind_ok, bind_ok]
    exact ih (fun q hq => hp q (List.mem_cons_of_mem _ hq)) _

/-- The cells of perforations, as stored. -/
def cellsOf (ps : List Perf) : List Int := ps.map (fun p => (p.cell : Int))

theorem finalDepth_spec (g : Grid) (d : WellData) (l : WelspecsLine) (hd : d.depth = refDepth l.datumDepth) (ps : List Perf) (z : Rat)
    (h : finalDepth g d ps = .ok z) : DepthOk g l (cellsOf ps) z := by
  unfold finalDepth at h
  unfold DepthOk
  rw [hd] at h
  unfold refDepth at h
  by_cases h0 : 0 ≤ l.datumDepth
  · rw [if_pos h0]
    have : ¬ l.datumDepth < 0 := by linarith
    rw [if_neg this, if_neg this] at h
    cases h
    rfl
  · rw [if_neg h0]
    have : l.datumDepth < 0 := by linarith
    rw [if_pos this, if_pos (by norm_num)] at h
    obtain ⟨h1, h2, h3⟩ := minDepth_spec g ps _ z h
    refine ⟨h1, ?_, ?_⟩
    · intro c hc
      obtain ⟨p, hp, rfl⟩ := List.mem_map.1 hc
      obtain ⟨x, hx, hz⟩ := h2 p hp
      exact ⟨p.cell, x, rfl, hx, hz⟩
    · rcases h3 with h3 | ⟨p, hp, h3⟩
      · exact Or.inl h3
      · exact Or.inr ⟨p.cell, List.mem_map_of_mem hp, h3⟩

theorem setDepths_sound (g : Grid) : ∀ (ds : List WellData) (pss : List (List Perf)) (ds' : List WellData), ds.length = pss.length →
    setDepths g ds pss = .ok ds' → ds'.length = ds.length ∧
    ∀ (i : Nat) d ps, ds[i]? = some d → pss[i]? = some ps → ∃ z, finalDepth g d ps = .ok z ∧ ds'[i]? = some { d with depth := z } := by
  intro ds
  induction ds with
  | nil =>
    intro pss ds' hl h
    cases pss with
    | nil => cases h; exact ⟨rfl, by simp⟩
    | cons => simp at hl
  | cons d ds ih =>
    intro pss ds' hl h
    cases pss with
    | nil => simp at hl
    | cons ps pss =>
      simp only [setDepths, bind_eq_ok] at h
      obtain ⟨z, hz, r, hr, h⟩ := h
      cases h
      obtain ⟨h1, h2⟩ := ih pss r (by simpa using hl) hr
      refine ⟨by simp [h1], ?_⟩
      intro i d' ps' hd hp
      cases i with
      | zero =>
        simp only [List.getElem?_cons_zero, Option.some.injEq] at hd hp ⊢
        subst hd hp
        exact ⟨z, hz, rfl⟩
      | succ i =>
        simp only [List.getElem?_cons_succ] at hd hp ⊢
        exact h2 i d' ps' hd hp

theorem setDepths_ok (g : Grid) (hg : g.WellFormed) : ∀ (ds : List WellData) (pss : List (List Perf)), (∀ ps ∈ pss, ∀ p ∈ ps, p.cell < g.ncells) →
    ∃ ds', setDepths g ds pss = .ok ds' := by
  intro ds
  induction ds with
  | nil => intro pss _; exact ⟨[], by cases pss <;> rfl⟩
  | cons d ds ih =>
    intro pss hp
    cases pss with
    | nil => exact ⟨[], rfl⟩
    | cons ps pss =>
      obtain ⟨r, hr⟩ := ih pss (fun q hq => hp q (List.mem_cons_of_mem _ hq))
      obtain ⟨z, hz⟩ : ∃ z, finalDepth g d ps = .ok z := by
        unfold finalDepth
        split
        · exact minDepth_ok g hg ps (hp ps (List.mem_cons_self ..)) _
        · exact ⟨_, rfl⟩
      simp only [setDepths, hz, hr, bind_ok]
      exact ⟨_, rfl⟩

/-! ### Types -/

theorem classify_sound {specs : List WelspecsLine} {f : Found} (hf : FoundInv specs f) (t : WellType) (ns : List String) : ∀ (ds ds' : List WellData),
    classify f.index t ns ds = .ok ds' → ds'.length = ds.length ∧ (∀ n ∈ ns, n ∈ declared specs) ∧
    ∀ (i : Nat) n d, f.names[i]? = some n → ds[i]? = some d → ds'[i]? = some { d with type := if n ∈ ns then some t else d.type } := by
  induction ns with
  | nil =>
    intro ds ds' h
    cases h
    exact ⟨rfl, by simp, fun i n d _ hd => by simpa using hd⟩
  | cons a ns ih =>
    intro ds ds' h
    simp only [classify] at h
    cases ha : f.index.lookup a with
    | none => rw [ha] at h; exact absurd h (by simp)
    | some j =>
      rw [ha] at h
      simp only [bind_eq_ok] at h
      obtain ⟨d0, hd0, ds1, hw, h⟩ := h
      have hj := (hf.index a j).1 ha
      have hd0' := rd_eq_ok.1 hd0
      rw [wr_ok (List.getElem?_eq_some_iff.1 hd0').1] at hw
      cases hw
      obtain ⟨r1, r2, r3⟩ := ih _ ds' h
      refine ⟨by simpa using r1, ?_, ?_⟩
      · intro n hn
        rcases List.mem_cons.1 hn with rfl | hn
        · rw [← hf.names]; exact List.mem_of_getElem? hj
        · exact r2 n hn
      · intro i n d hn hd
        by_cases hij : i = j
        · subst hij
          rw [hj] at hn
          cases hn
          rw [hd0'] at hd
          cases hd
          rw [r3 i a _ hj (List.getElem?_set_self (List.getElem?_eq_some_iff.1 hd0').1)]
          simp
        · have hna : n ≠ a := by
            rintro rfl
            exact hij ((List.getElem?_inj (List.getElem?_eq_some_iff.1 hn).1 hf.nodup).1 (hn.trans hj.symm))
          rw [r3 i n d hn (by rw [List.getElem?_set_ne (Ne.symm hij)]; exact hd)]
          simp [hna]

theorem classify_ok {specs : List WelspecsLine} {f : Found} (hf : FoundInv specs f) (t : WellType) (ns : List String) : ∀ (ds : List WellData),
    ds.length = f.names.length → (∀ n ∈ ns, n ∈ declared specs) → ∃ ds', classify f.index t ns ds = .ok ds' := by
  induction ns with
  | nil => intro ds _ _; exact ⟨ds, rfl⟩
  | cons a ns ih =>
    intro ds hl hn
    have ha := hn a (List.mem_cons_self ..)
    rw [← hf.names] at ha
    obtain ⟨j, hj⟩ := List.getElem?_of_mem ha
    have hlt := (List.getElem?_eq_some_iff.1 hj).1
    simp only [classify, (hf.index a j).2 hj]
    rw [rd_ok (by omega), bind_ok, wr_ok (by omega), bind_ok]
    exact ih _ (by simpa using hl) (fun n h => hn n (List.mem_cons_of_mem _ h))

/-! ### Adding the wells -/

/-- A well before its controls are set. -/
def freshWell (np : Nat) (n : String) (t : WellType) (depth : Rat) (ps : List Perf) : Well :=
  newWell np t depth none (cellsOf ps) (some (ps.map Perf.wi)) (some n)

theorem addOne_ok {np : Nat} {s : W} {ws : List Well} (h : WRep np s ws) (J : Junk) (n : String) (d : WellData) (ps : List Perf) (t : WellType)
    (ht : d.type = some t) : ∃ s', addOne J n d ps s = .ok s' ∧ WRep np s' (ws ++ [freshWell np n t d.depth ps]) := by
  unfold addOne
  rw [ht]
  obtain ⟨s', e, r, -⟩ := h.addWell J t d.depth none (ps.map (fun p => (p.cell : Int))) (some (ps.map Perf.wi)) (some n) (by simp) (by
    intro l hl
    cases hl
    simp)
  refine ⟨s', e, ?_⟩
  have : List.take (ps.map (fun p => (p.cell : Int))).length (ps.map Perf.wi) = ps.map Perf.wi := by
    rw [List.take_of_length_le (by simp)]
  simp only [Option.map_some, Option.map_none, this] at r
  exact r

theorem addAll_sound {np : Nat} (J : Junk) : ∀ (ns : List String) (ds : List WellData) (pss : List (List Perf)) (s s' : W) (ws : List Well),
    ns.length = ds.length → ns.length = pss.length → WRep np s ws → addAll J ns ds pss s = .ok s' →
    ∃ new, WRep np s' (ws ++ new) ∧ new.length = ns.length ∧
      ∀ (i : Nat) n d ps, ns[i]? = some n → ds[i]? = some d → pss[i]? = some ps → ∃ t, d.type = some t ∧ new[i]? = some (freshWell np n t d.depth ps) := by
  intro ns
  induction ns with
  | nil =>
    intro ds pss s s' ws h1 h2 hr h
    cases h
    exact ⟨[], by simpa using hr, rfl, by simp⟩
  | cons n ns ih =>
    intro ds pss s s' ws h1 h2 hr h
    cases ds with
    | nil => simp at h1
    | cons d ds =>
      cases pss with
      | nil => simp at h2
      | cons ps pss =>
        simp only [addAll, bind_eq_ok] at h
        obtain ⟨s1, e1, h⟩ := h
        cases ht : d.type with
        | none => unfold addOne at e1; rw [ht] at e1; exact absurd e1 (by simp)
        | some t =>
          obtain ⟨s2, e2, r2⟩ := addOne_ok hr J n d ps t ht
          rw [e1] at e2
          cases e2
          obtain ⟨new, r, hl, hx⟩ := ih ds pss s1 s' _ (by simpa using h1) (by simpa using h2) r2 h
          refine ⟨freshWell np n t d.depth ps :: new, by simpa using r, by simp [hl], ?_⟩
          intro i n' d' ps' k1 k2 k3
          cases i with
          | zero =>
            simp only [List.getElem?_cons_zero, Option.some.injEq] at k1 k2 k3 ⊢
            subst k1 k2 k3
            exact ⟨t, ht, rfl⟩
          | succ i =>
            simp only [List.getElem?_cons_succ] at k1 k2 k3 ⊢
            exact hx i n' d' ps' k1 k2 k3

theorem addAll_ok {np : Nat} (J : Junk) : ∀ (ns : List String) (ds : List WellData) (pss : List (List Perf)) (s : W) (ws : List Well),
    WRep np s ws → (∀ d ∈ ds, d.type ≠ none) → ∃ s', addAll J ns ds pss s = .ok s' := by
  intro ns
  induction ns with
  | nil => intro ds pss s ws _ _; exact ⟨s, by cases ds <;> rfl⟩
  | cons n ns ih =>
    intro ds pss s ws hr ht
    cases ds with
    | nil => exact ⟨s, rfl⟩
    | cons d ds =>
      cases pss with
      | nil => exact ⟨s, rfl⟩
      | cons ps pss =>
        obtain ⟨t, ht'⟩ := Option.ne_none_iff_exists'.1 (ht d (List.mem_cons_self ..))
        obtain ⟨s1, e1, r1⟩ := addOne_ok hr J n d ps t ht'
        simp only [addAll, e1, bind_ok]
        exact ih ds pss s1 _ r1 (fun x hx => ht x (List.mem_cons_of_mem _ hx))

end Opm.Manager
