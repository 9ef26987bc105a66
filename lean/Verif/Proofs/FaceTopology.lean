import Verif.Spec.FaceTopology
import Mathlib.Tactic.SplitIfs
import Mathlib.Tactic.Ring
import Mathlib.Data.List.Nodup
/-!
# The loops of `findconnections`
-/

namespace Opm.Cpg
open Opm UniquePoints

theorem lineX_iff {a b : Stack} {i j : Nat} : lineX (a.p i) (a.q i) (b.p j) (b.q j) = true ↔ Cross a b i j := by
  unfold lineX Cross
  simp only [Bool.or_eq_true, Bool.and_eq_true, decide_eq_true_eq]
  constructor
  · rintro (h | h)
    · right; exact h
    · left; exact h
  · rintro (h | h)
    · right; exact h
    · left; exact h

theorem pinched_iff {a : Stack} {i : Nat} : (a.layer i).pinched = true ↔ a.Empty i := by
  unfold Layer.pinched Stack.Empty Stack.layer
  simp

theorem mono_le {f : Nat → Int} {n : Nat} (h : ∀ i, i + 1 < n → f i ≤ f (i + 1)) {i j : Nat} (hij : i ≤ j) (hj : j < n) : f i ≤ f j := by
  induction j with
  | zero => rw [show i = 0 by omega]
  | succ j ih =>
    rcases Nat.lt_or_ge i (j + 1) with hl | hg
    · have := ih (by omega) (by omega)
      have := h j hj
      omega
    · rw [show i = j + 1 by omega]

/-! ### Face records in buffers -/

theorem facePtr_append (fs : List Face) (f : Face) : facePtr (fs ++ [f]) = facePtr fs ++ [(faceNodes fs).length + f.nodes.length] := by
  unfold facePtr
  rw [List.length_append, List.length_singleton, List.range_succ (n := fs.length + 1), List.map_append]
  congr 1
  · apply List.map_congr_left
    intro k hk
    rw [List.mem_range] at hk
    rw [List.take_append_of_le_length (by omega)]
  · simp only [List.map_cons, List.map_nil]
    rw [List.take_of_length_le (by simp), faceNodes, List.flatMap_append, List.length_append]
    simp [faceNodes]

theorem length_facePtr (fs : List Face) : (facePtr fs).length = fs.length + 1 := by unfold facePtr; simp

theorem length_faceNbrs (fs : List Face) : (faceNbrs fs).length = 2 * fs.length := by
  induction fs with
  | nil => rfl
  | cons f fs ih => unfold faceNbrs at ih ⊢; rw [List.flatMap_cons, List.length_append, ih, List.length_cons]; simp; omega

theorem faceNbrs_append (fs gs : List Face) : faceNbrs (fs ++ gs) = faceNbrs fs ++ faceNbrs gs := by unfold faceNbrs; rw [List.flatMap_append]
theorem faceNodes_append (fs gs : List Face) : faceNodes (fs ++ gs) = faceNodes fs ++ faceNodes gs := by unfold faceNodes; rw [List.flatMap_append]

theorem facePtr_last (fs : List Face) : (facePtr fs)[fs.length]? = some (faceNodes fs).length := by
  unfold facePtr
  rw [List.getElem?_map, List.getElem?_range (by omega)]
  simp

/-- The faces stored in the buffers of a `Conn` are `fs`, the crossings are `qs`; `capF`, `capC`, `capX`, `capP` are the sizes of the buffers. -/
structure Holds (np capF capC capX capP : Nat) (s : Conn) (fs : List Face) (qs : List (List Int)) : Prop where
  nf : s.nf = fs.length
  f : s.f.Rep capF (faceNodes fs)
  c : s.c.Rep capC (faceNbrs fs)
  x : s.x.Rep capX qs.flatten
  plen : s.ptr.length = capP
  ptr : s.ptr.take (fs.length + 1) = facePtr fs
  nn : s.nn = np + qs.length

theorem addFace_ok {np capF capC capX capP : Nat} {s : Conn} {fs : List Face} {qs : List (List Int)} (h : Holds np capF capC capX capP s fs qs) (f : Face)
    (hf : (faceNodes (fs ++ [f])).length ≤ capF) (hc : 2 * (fs.length + 1) ≤ capC) (hp : fs.length + 1 < capP) :
    ∃ s', s.addFace f.a f.b f.nodes = .ok s' ∧ Holds np capF capC capX capP s' (fs ++ [f]) qs ∧ s'.top = s.top ∧ s'.bot = s.bot ∧ s'.sw = s.sw ∧ s'.k1 = s.k1 ∧
      s'.k2 = s.k2 ∧ s'.j = s.j := by
  rw [faceNodes_append, List.length_append, show faceNodes [f] = f.nodes by simp [faceNodes]] at hf
  obtain ⟨c', e1, r1⟩ := Cur.puts_rep [f.a, f.b] h.c (by rw [length_faceNbrs]; simp; omega)
  obtain ⟨f', e2, r2⟩ := Cur.puts_rep f.nodes h.f hf
  unfold Conn.addFace
  rw [e1, bind_ok, e2, bind_ok, wr_ok (by rw [h.nf, h.plen]; exact hp), bind_ok]
  refine ⟨_, rfl, ⟨?_, ?_, ?_, h.x, ?_, ?_, h.nn⟩, rfl, rfl, rfl, rfl, rfl, rfl⟩
  · simp [h.nf]
  · rw [faceNodes_append]; simpa [faceNodes] using r2
  · rw [faceNbrs_append]; simpa [faceNbrs] using r1
  · simpa using h.plen
  · have hpos : f'.pos = (faceNodes fs).length + f.nodes.length := by rw [r2.1, List.length_append]
    simp only [List.length_append, List.length_singleton, h.nf]
    rw [List.take_succ_eq_append_getElem (by rw [List.length_set, h.plen]; omega), List.take_set_of_le (Nat.le_refl _), h.ptr, facePtr_append, ← hpos]
    simp

/-! ### What the loops produce -/

variable (A B : Stack) (n : Nat)

/-- The crossing recorded for layers `i` and `j`. -/
def crossAt (i j : Nat) : List (List Int) := if ¬ A.Empty i ∧ ¬ B.Empty j ∧ Cross A B (i + 1) (j + 1) then [quad A B (i + 1) (j + 1)] else []

/-- All crossings recorded before layer `j` of `b` in row `i`. -/
def rowCross (i j : Nat) : List (List Int) := (List.range j).flatMap (crossAt A B i)

/-- All crossings of the rows before `i`. -/
def crossUpTo (i : Nat) : List (List Int) := (List.range i).flatMap (fun i => rowCross A B i (n - 1))

/-- All crossings. -/
def crossings : List (List Int) := crossUpTo A B n (n - 1)

/-- Number of the crossing of lines `i` and `j`; `-1` if there is none. -/
def xnum (base : Nat) (i j : Nat) : Int := if Cross A B i j then (base + (crossings A B n).idxOf (quad A B i j) : Nat) else -1

/-- The points of the face between layers `i` and `j`. -/
def pairNodes (base : Nat) (i j : Nat) : List Int :=
  if matching (A.layer i) (B.layer j) then matchNodes (A.layer i)
  else faceTopology (A.layer i) (B.layer j) (xnum A B n base i j) (xnum A B n base i (j + 1)) (xnum A B n base (i + 1) j) (xnum A B n base (i + 1) (j + 1))

/-- A face is made for layers `i` and `j`. -/
def Makes (i j : Nat) : Prop :=
  ¬ A.Empty i ∧ ¬ B.Empty j ∧ faceX (A.layer i) (B.layer j) = true ∧ meaningful (A.layer i) (B.layer j) = true ∧ (cellOf i ≠ -1 ∨ cellOf j ≠ -1)

instance (i j : Nat) : Decidable (Makes A B i j) := by unfold Makes; infer_instance

/-- The face made for layers `i` and `j`. -/
def faceAt (base : Nat) (i j : Nat) : List Face := if Makes A B i j then [⟨cellOf i, cellOf j, pairNodes A B n base i j⟩] else []

def rowFaces (base : Nat) (i j : Nat) : List Face := (List.range j).flatMap (faceAt A B n base i)

def facesUpTo (base : Nat) (i : Nat) : List Face := (List.range i).flatMap (fun i => rowFaces A B n base i (n - 1))

/-- All faces. -/
def connFaces (base : Nat) : List Face := facesUpTo A B n base (n - 1)

variable {A B n}

theorem range_split {i m : Nat} (h : i < m) : ∃ r, List.range m = List.range i ++ i :: r := by
  obtain ⟨k, rfl⟩ : ∃ k, m = i + 1 + k := ⟨m - (i + 1), by omega⟩
  rw [List.range_add, List.range_succ]
  exact ⟨_, by rw [List.append_assoc]; rfl⟩

theorem flat2_split {β : Type _} (f : Nat → Nat → List β) {m i j : Nat} (hi : i < m) (hj : j < m) :
    ∃ r, (List.range m).flatMap (fun i => (List.range m).flatMap (f i)) =
      ((List.range i).flatMap (fun i => (List.range m).flatMap (f i)) ++ (List.range j).flatMap (f i)) ++ f i j ++ r := by
  obtain ⟨r1, e1⟩ := range_split hi
  obtain ⟨r2, e2⟩ := range_split hj
  refine ⟨r2.flatMap (f i) ++ r1.flatMap (fun i => (List.range m).flatMap (f i)), ?_⟩
  have hrow : (List.range m).flatMap (f i) = (List.range j).flatMap (f i) ++ (f i j ++ r2.flatMap (f i)) := by
    rw [e2, List.flatMap_append, List.flatMap_cons]
  have h := congrArg (fun l => l.flatMap (fun i => (List.range m).flatMap (f i))) e1
  simp only [List.flatMap_append, List.flatMap_cons] at h
  rw [h, hrow]
  simp only [List.append_assoc]

theorem crossings_split {i j : Nat} (hi : i < n - 1) (hj : j < n - 1) :
    ∃ r, crossings A B n = (crossUpTo A B n i ++ rowCross A B i j) ++ crossAt A B i j ++ r := flat2_split (crossAt A B) hi hj

theorem connFaces_split {base i j : Nat} (hi : i < n - 1) (hj : j < n - 1) :
    ∃ r, connFaces A B n base = (facesUpTo A B n base i ++ rowFaces A B n base i j) ++ faceAt A B n base i j ++ r := flat2_split (faceAt A B n base) hi hj

theorem rowCross_succ (i j : Nat) : rowCross A B i (j + 1) = rowCross A B i j ++ crossAt A B i j := by
  unfold rowCross; rw [List.range_succ, List.flatMap_append]; simp

theorem rowFaces_succ (base i j : Nat) : rowFaces A B n base i (j + 1) = rowFaces A B n base i j ++ faceAt A B n base i j := by
  unfold rowFaces; rw [List.range_succ, List.flatMap_append]; simp

theorem crossUpTo_succ (i : Nat) : crossUpTo A B n (i + 1) = crossUpTo A B n i ++ rowCross A B i (n - 1) := by
  unfold crossUpTo; rw [List.range_succ, List.flatMap_append]; simp

theorem facesUpTo_succ (base i : Nat) : facesUpTo A B n base (i + 1) = facesUpTo A B n base i ++ rowFaces A B n base i (n - 1) := by
  unfold facesUpTo; rw [List.range_succ, List.flatMap_append]; simp

/-! ### Layers that cannot meet -/

theorem faceX_false_above {i j : Nat} (h1 : A.p (i + 1) ≤ B.p j) (h2 : A.q (i + 1) ≤ B.q j) (hA : A.p i ≤ A.p (i + 1) ∧ A.q i ≤ A.q (i + 1))
    (hB : B.p j ≤ B.p (j + 1) ∧ B.q j ≤ B.q (j + 1)) : faceX (A.layer i) (B.layer j) = false ∧ ¬ Cross A B (i + 1) (j + 1) := by
  unfold faceX lineX Stack.layer Cross
  simp only [Bool.or_eq_false_iff, Bool.and_eq_false_iff, decide_eq_false_iff_not]
  obtain ⟨_, _⟩ := hA
  obtain ⟨_, _⟩ := hB
  omega

theorem faceX_false_below {i j : Nat} (h1 : B.p (j + 1) ≤ A.p i) (h2 : B.q (j + 1) ≤ A.q i) (hA : A.p i ≤ A.p (i + 1) ∧ A.q i ≤ A.q (i + 1))
    (hB : B.p j ≤ B.p (j + 1) ∧ B.q j ≤ B.q (j + 1)) : faceX (A.layer i) (B.layer j) = false ∧ ¬ Cross A B (i + 1) (j + 1) := by
  unfold faceX lineX Stack.layer Cross
  simp only [Bool.or_eq_false_iff, Bool.and_eq_false_iff, decide_eq_false_iff_not]
  obtain ⟨_, _⟩ := hA
  obtain ⟨_, _⟩ := hB
  omega

theorem faceX_of_cross {i j : Nat} (h : Cross A B (i + 1) (j + 1)) : faceX (A.layer i) (B.layer j) = true := by
  have := lineX_iff.2 h
  unfold faceX
  simp only [Stack.layer]
  rw [this, Bool.or_true]

theorem faceX_of_cross_upper {i j : Nat} (h : Cross A B i j) : faceX (A.layer i) (B.layer j) = true := by
  have := lineX_iff.2 h
  unfold faceX
  simp only [Stack.layer]
  rw [this, Bool.or_true, Bool.true_or]

theorem not_cross_of_matching {i j : Nat} (h : matching (A.layer i) (B.layer j) = true) : ¬ Cross A B (i + 1) (j + 1) := by
  unfold matching Stack.layer at h
  simp only [Bool.and_eq_true, decide_eq_true_eq] at h
  unfold Cross
  omega

theorem nothing_of_faceX {base i j : Nat} (h : faceX (A.layer i) (B.layer j) = false ∧ ¬ Cross A B (i + 1) (j + 1)) :
    faceAt A B n base i j = [] ∧ crossAt A B i j = [] := by
  constructor
  · unfold faceAt; rw [if_neg (by unfold Makes; simp [h.1])]
  · unfold crossAt; simp [h.2]

theorem rows_nil {base i j : Nat} (h : ∀ j', j' < j → faceX (A.layer i) (B.layer j') = false ∧ ¬ Cross A B (i + 1) (j' + 1)) :
    rowFaces A B n base i j = [] ∧ rowCross A B i j = [] := by
  induction j with
  | zero => exact ⟨rfl, rfl⟩
  | succ j ih =>
    obtain ⟨h1, h2⟩ := ih (fun j' hj' => h j' (by omega))
    obtain ⟨h3, h4⟩ := nothing_of_faceX (n := n) (base := base) (h j (by omega))
    rw [rowFaces_succ, rowCross_succ, h1, h2, h3, h4]
    exact ⟨rfl, rfl⟩

theorem rows_tail {base i j m : Nat} (hjm : j ≤ m) (h : ∀ j', j ≤ j' → j' < m → faceX (A.layer i) (B.layer j') = false ∧ ¬ Cross A B (i + 1) (j' + 1)) :
    rowFaces A B n base i m = rowFaces A B n base i j ∧ rowCross A B i m = rowCross A B i j := by
  induction m with
  | zero => rw [show j = 0 by omega]; exact ⟨rfl, rfl⟩
  | succ m ih =>
    rcases Nat.lt_or_ge j (m + 1) with hl | hg
    · obtain ⟨h1, h2⟩ := ih (by omega) (fun j' a b => h j' a (by omega))
      obtain ⟨h3, h4⟩ := nothing_of_faceX (n := n) (base := base) (h m (by omega) (by omega))
      rw [rowFaces_succ, rowCross_succ, h1, h2, h3, h4, List.append_nil, List.append_nil]
      exact ⟨rfl, rfl⟩
    · rw [show j = m + 1 by omega]; exact ⟨rfl, rfl⟩

theorem rows_empty {base i j : Nat} (h : A.Empty i) : rowFaces A B n base i j = [] ∧ rowCross A B i j = [] := by
  induction j with
  | zero => exact ⟨rfl, rfl⟩
  | succ j ih =>
    rw [rowFaces_succ, rowCross_succ, ih.1, ih.2]
    unfold faceAt Makes crossAt
    simp [h]

/-! ### Every crossing is recorded once -/

/-- The crossings recorded before layers `i` and `j` do not include that of lines `i + 1` and `j + 1`. -/
theorem quad_fresh (hA : A.Ok n) (hB : B.Ok n) {i j : Nat} (hi : i < n - 1) (hj : j < n - 1) (h1 : ¬ A.Empty i) (h2 : ¬ B.Empty j) :
    quad A B (i + 1) (j + 1) ∉ crossUpTo A B n i ++ rowCross A B i j := by
  intro hm
  rw [List.mem_append] at hm
  rcases hm with hm | hm
  · unfold crossUpTo rowCross at hm
    simp only [List.mem_flatMap, List.mem_range] at hm
    obtain ⟨i', hi', j', hj', hm⟩ := hm
    unfold crossAt at hm
    split at hm
    · rw [List.mem_singleton] at hm
      unfold quad at hm
      simp only [List.cons.injEq] at hm
      have e1 := mono_le hA.monoP (show i' + 1 ≤ i by omega) (by omega)
      have e2 := mono_le hA.monoQ (show i' + 1 ≤ i by omega) (by omega)
      have e3 := hA.monoP i (by omega)
      have e4 := hA.monoQ i (by omega)
      apply h1
      unfold Stack.Empty
      omega
    · cases hm
  · unfold rowCross at hm
    simp only [List.mem_flatMap, List.mem_range] at hm
    obtain ⟨j', hj', hm⟩ := hm
    unfold crossAt at hm
    split at hm
    · rw [List.mem_singleton] at hm
      unfold quad at hm
      simp only [List.cons.injEq] at hm
      have e1 := mono_le hB.monoP (show j' + 1 ≤ j by omega) (by omega)
      have e2 := mono_le hB.monoQ (show j' + 1 ≤ j by omega) (by omega)
      have e3 := hB.monoP j (by omega)
      have e4 := hB.monoQ j (by omega)
      apply h2
      unfold Stack.Empty
      omega
    · cases hm

theorem idxOf_fresh {α : Type _} [BEq α] [LawfulBEq α] {x : α} {l r : List α} (h : x ∉ l) : (l ++ x :: r).idxOf x = l.length := by
  rw [List.idxOf_append_of_notMem h, List.idxOf_cons_self, Nat.add_zero]

theorem xnum_new (hA : A.Ok n) (hB : B.Ok n) {base i j : Nat} (hi : i < n - 1) (hj : j < n - 1) (h1 : ¬ A.Empty i) (h2 : ¬ B.Empty j)
    (hc : Cross A B (i + 1) (j + 1)) : xnum A B n base (i + 1) (j + 1) = ((base + (crossUpTo A B n i ++ rowCross A B i j).length : Nat) : Int) := by
  unfold xnum
  rw [if_pos hc]
  obtain ⟨r, e⟩ := crossings_split (A := A) (B := B) hi hj
  have : crossAt A B i j = [quad A B (i + 1) (j + 1)] := by unfold crossAt; rw [if_pos ⟨h1, h2, hc⟩]
  rw [e, this, List.append_assoc, List.singleton_append, idxOf_fresh (quad_fresh hA hB hi hj h1 h2)]

theorem xnum_no {base i j : Nat} (h : ¬ Cross A B i j) : xnum A B n base i j = -1 := by unfold xnum; rw [if_neg h]

theorem xnum_emptyB {base i j : Nat} (h : B.Empty j) : xnum A B n base i (j + 1) = xnum A B n base i j := by
  have h1 : Cross A B i (j + 1) ↔ Cross A B i j := by unfold Cross; rw [h.1, h.2]
  have h2 : quad A B i (j + 1) = quad A B i j := by unfold quad; rw [h.1, h.2]
  unfold xnum
  simp only [h1, h2]

theorem xnum_emptyA {base i j : Nat} (h : A.Empty i) : xnum A B n base (i + 1) j = xnum A B n base i j := by
  have h1 : Cross A B (i + 1) j ↔ Cross A B i j := by unfold Cross; rw [h.1, h.2]
  have h2 : quad A B (i + 1) j = quad A B i j := by unfold quad; rw [h.1, h.2]
  unfold xnum
  simp only [h1, h2]

end Opm.Cpg
