import Verif.Model.FlowBc
import Verif.Spec.Slice
/-!
# C24: the boundary-condition container is a list of conditions
-/

namespace Opm.FlowBc
open Opm

/-! ### Specification -/

/-- A boundary condition as seen by the user. -/
structure Cond where
  type : BcType
  value : Rat
  faces : List Int
  deriving DecidableEq, Repr

/-- The list a history should leave. -/
def specStep (cs : List Cond) : Op → List Cond
  | .append t f v => cs ++ [⟨t, v, [f]⟩]
  | .appendMulti t fs v => cs ++ [⟨t, v, fs⟩]
  | .clear => []

def spec (ops : List Op) : List Cond := ops.foldl specStep []

/-- What a client reads for condition `i`: its type, its value and the faces
`face[cond_pos[i]], …, face[cond_pos[i+1]-1]`. -/
def get (b : Bcs) (i : Nat) : M Cond := do
  let t ← rd b.type i
  let v ← rd b.value i
  let p ← rd b.condPos i
  let q ← rd b.condPos (i + 1)
  let fs ← slice b.face p q
  .ok ⟨t, v, fs⟩

/-! ### Representation invariant -/

/-- Number of faces of the first `k` conditions. -/
def start (cs : List Cond) (k : Nat) : Nat := ((cs.take k).flatMap Cond.faces).length

structure Rep (b : Bcs) (cs : List Cond) : Prop where
  nbc : b.nbc = cs.length
  cap : cs.length ≤ b.condCpty
  ltype : b.type.length = b.condCpty
  lvalue : b.value.length = b.condCpty
  lpos : b.condPos.length = b.condCpty + 1
  lface : b.face.length = b.faceCpty
  fcap : start cs cs.length ≤ b.faceCpty
  type : b.type.take cs.length = cs.map Cond.type
  value : b.value.take cs.length = cs.map Cond.value
  pos : b.condPos.take (cs.length + 1) = (List.range (cs.length + 1)).map (start cs)
  face : b.face.take (start cs cs.length) = cs.flatMap Cond.faces

theorem start_self (cs : List Cond) : start cs cs.length = (cs.flatMap Cond.faces).length := by
  unfold start; rw [List.take_length]

theorem Rep.posAt {b : Bcs} {cs : List Cond} (h : Rep b cs) (k : Nat) (hk : k ≤ cs.length) : b.condPos[k]? = some (start cs k) := by
  have : (b.condPos.take (cs.length + 1))[k]? = some (start cs k) := by
    rw [h.pos, List.getElem?_map, List.getElem?_range (by omega)]; rfl
  rw [List.getElem?_take, if_pos (by omega)] at this
  exact this

theorem allocSize_ge (n c : Nat) : n ≤ allocSize n c ∧ c ≤ allocSize n c := by
  unfold allocSize
  split
  · split <;> omega
  · omega

theorem expand_rep (J : Junk) (nbc nf : Nat) {b : Bcs} {cs : List Cond} (h : Rep b cs) :
    Rep (expandTables J nbc nf b) cs ∧ nbc ≤ (expandTables J nbc nf b).condCpty ∧ nf ≤ (expandTables J nbc nf b).faceCpty ∧
      (expandTables J nbc nf b).nbc = b.nbc := by
  have hc : Rep (expandCond J nbc b) cs ∧ nbc ≤ (expandCond J nbc b).condCpty ∧ (expandCond J nbc b).nbc = b.nbc := by
    unfold expandCond
    split
    · exact ⟨h, by assumption, rfl⟩
    · obtain ⟨h1, h2⟩ := allocSize_ge nbc b.condCpty
      have := h.cap
      have e1 := h.ltype
      have e2 := h.lvalue
      have e3 := h.lpos
      refine ⟨⟨h.nbc, by simp only; omega, by simp, by simp, by simp, h.lface, h.fcap, ?_, ?_, ?_, h.face⟩, h1, rfl⟩
      · rw [take_realloc (by omega) (by omega)]; exact h.type
      · rw [take_realloc (by omega) (by omega)]; exact h.value
      · rw [take_realloc (by omega) (by omega)]; exact h.pos
  obtain ⟨hr, hn, hnb⟩ := hc
  unfold expandTables expandFace
  split
  · exact ⟨hr, hn, by assumption, hnb⟩
  · obtain ⟨h1, h2⟩ := allocSize_ge nf (expandCond J nbc b).faceCpty
    have := hr.fcap
    have e := hr.lface
    refine ⟨⟨hr.nbc, hr.cap, hr.ltype, hr.lvalue, hr.lpos, by simp, by simp only; omega, hr.type, hr.value, hr.pos, ?_⟩, hn, h1, hnb⟩
    rw [take_realloc (by omega) (by omega)]; exact hr.face

theorem construct_rep (J : Junk) (n : Nat) : ∃ b, construct J n = .ok b ∧ Rep b [] := by
  unfold construct
  -- before `cond_pos[0]` is set the structure represents the empty list except for that entry
  have key : ∀ b : Bcs, b.nbc = 0 → b.type.length = b.condCpty → b.value.length = b.condCpty → b.condPos.length = b.condCpty + 1 →
      b.face.length = b.faceCpty → ∃ b', (do let pos ← wr b.condPos 0 0; .ok { b with condPos := pos } : M Bcs) = .ok b' ∧ Rep b' [] := by
    intro b h0 h1 h2 h3 h4
    rw [wr_ok (by omega), bind_ok]
    refine ⟨_, rfl, ⟨h0, by simp, h1, h2, by simpa using h3, h4, by simp [start], by simp, by simp, ?_, by simp [start]⟩⟩
    cases hp : b.condPos with
    | nil => rw [hp] at h3; simp at h3
    | cons x l => simp [start]
  simp only
  apply key
  all_goals
    unfold expandTables expandFace expandCond
    by_cases hn : n = 0 <;> simp [hn]

theorem start_append (cs : List Cond) (c : Cond) (k : Nat) (hk : k ≤ cs.length) : start (cs ++ [c]) k = start cs k := by
  unfold start
  rw [List.take_append_of_le_length hk]

theorem start_append_self (cs : List Cond) (c : Cond) : start (cs ++ [c]) (cs.length + 1) = start cs cs.length + c.faces.length := by
  unfold start
  rw [List.take_of_length_le (by simp), List.take_length, List.flatMap_append, List.length_append]
  simp

theorem append_rep (J : Junk) {b : Bcs} {cs : List Cond} (h : Rep b cs) (t : BcType) (fs : List Int) (v : Rat) :
    ∃ b', appendMulti J t fs v b = .ok b' ∧ Rep b' (cs ++ [⟨t, v, fs⟩]) := by
  unfold appendMulti
  simp only
  rw [h.nbc, rd_of_getElem? (h.posAt _ (Nat.le_refl _)), bind_ok]
  obtain ⟨hr, h1, h2, h3⟩ := expand_rep J (cs.length + 1) (start cs cs.length + fs.length) h
  generalize expandTables J (cs.length + 1) (start cs cs.length + fs.length) b = b' at *
  have e1 := hr.ltype
  have e2 := hr.lvalue
  have e3 := hr.lpos
  have e4 := hr.lface
  rw [rd_of_getElem? (hr.posAt _ (Nat.le_refl _)), bind_ok, memcpy_ok (by omega) (Nat.le_refl _), bind_ok, wr_ok (by omega), bind_ok,
    wr_ok (by omega), bind_ok, wr_ok (by omega), bind_ok]
  have hlen : (cs ++ [⟨t, v, fs⟩] : List Cond).length = cs.length + 1 := by simp
  have hst := start_append_self cs ⟨t, v, fs⟩
  refine ⟨_, rfl, ⟨by simp, by rw [hlen]; simp only; omega, by simpa using e1, by simpa using e2, by simpa using e3, ?_, ?_, ?_, ?_, ?_, ?_⟩⟩
  · simp; omega
  · rw [hlen, hst]; exact h2
  · rw [hlen]
    simp only
    rw [take_set_succ (by omega), hr.type]; simp
  · rw [hlen]
    simp only
    rw [take_set_succ (by omega), hr.value]; simp
  · rw [hlen]
    simp only
    rw [take_set_succ (by omega), hr.pos, List.range_succ (n := cs.length + 1), List.map_append]
    congr 1
    · apply List.map_congr_left
      intro k hk
      rw [List.mem_range] at hk
      exact (start_append cs _ k (by omega)).symm
    · rw [List.map_singleton, hst]
  · rw [hlen, hst]
    simp only
    rw [take_memcpy (by omega) (Nat.le_refl _), hr.face, List.take_length, List.flatMap_append]
    simp

theorem clear_rep {b : Bcs} {cs : List Cond} (h : Rep b cs) : Rep (clear b) [] := by
  have h0 := h.posAt 0 (by omega)
  refine ⟨rfl, by simp [clear], h.ltype, h.lvalue, h.lpos, h.lface, by simp [start], by simp, by simp, ?_, by simp [start]⟩
  unfold clear
  simp only
  cases hp : b.condPos with
  | nil => rw [hp] at h0; simp at h0
  | cons x l =>
    rw [hp] at h0
    simp [start] at h0
    simp [start, h0]

theorem run_rep (J : Junk) (ops : List Op) {b : Bcs} {cs : List Cond} (h : Rep b cs) :
    ∃ b', run J ops b = .ok b' ∧ Rep b' (ops.foldl specStep cs) := by
  induction ops generalizing b cs with
  | nil => exact ⟨b, rfl, h⟩
  | cons op ops ih =>
    have hstep : ∃ b', op.exec J b = .ok b' ∧ Rep b' (specStep cs op) := by
      cases op with
      | append t f v => exact append_rep J h t [f] v
      | appendMulti t fs v => exact append_rep J h t fs v
      | clear => exact ⟨_, rfl, clear_rep h⟩
    obtain ⟨b1, e1, h1⟩ := hstep
    obtain ⟨b2, e2, h2⟩ := ih h1
    refine ⟨b2, ?_, h2⟩
    unfold run at e2 ⊢
    rw [List.foldlM_cons, e1]
    exact e2

theorem get_rep {b : Bcs} {cs : List Cond} (h : Rep b cs) (i : Nat) (c : Cond) (hc : cs[i]? = some c) : get b i = .ok c := by
  have hi := (List.getElem?_eq_some_iff.1 hc).1
  have ht : b.type[i]? = some c.type := by
    have : (b.type.take cs.length)[i]? = some c.type := by rw [h.type, List.getElem?_map, hc]; rfl
    rw [List.getElem?_take, if_pos hi] at this
    exact this
  have hv : b.value[i]? = some c.value := by
    have : (b.value.take cs.length)[i]? = some c.value := by rw [h.value, List.getElem?_map, hc]; rfl
    rw [List.getElem?_take, if_pos hi] at this
    exact this
  have hsplit : (cs.take (i + 1)).flatMap Cond.faces = (cs.take i).flatMap Cond.faces ++ c.faces := by
    rw [List.take_add_one, hc, List.flatMap_append]; simp
  have hq : start cs (i + 1) = start cs i + c.faces.length := by
    unfold start; rw [hsplit, List.length_append]
  have hpre : cs.flatMap Cond.faces = (cs.take (i + 1)).flatMap Cond.faces ++ (cs.drop (i + 1)).flatMap Cond.faces := by
    rw [← List.flatMap_append, List.take_append_drop]
  have hle : start cs (i + 1) ≤ start cs cs.length := by
    rw [start_self, hpre, List.length_append]; exact Nat.le_add_right _ _
  unfold get
  rw [rd_of_getElem? ht, bind_ok, rd_of_getElem? hv, bind_ok, rd_of_getElem? (h.posAt i (by omega)), bind_ok,
    rd_of_getElem? (h.posAt (i + 1) (by omega)), bind_ok]
  have hf := h.fcap
  have hl := h.lface
  unfold slice
  rw [if_pos ⟨by omega, by omega⟩, bind_ok]
  have : (b.face.take (start cs (i + 1))).drop (start cs i) = c.faces := by
    have e : b.face.take (start cs (i + 1)) = (cs.take (i + 1)).flatMap Cond.faces := by
      rw [← Nat.min_eq_left hle, ← List.take_take, h.face, hpre]
      exact List.take_left
    rw [e, hsplit]
    exact List.drop_left
  rw [this]

/-- **C24.** Whatever the initial capacity, the contents of fresh memory and the history of calls, no access
leaves the allocated storage, the number of conditions is that of the appended list (since the last clear),
and reading condition `i` gives type, value and faces as appended. -/
theorem flow_conditions_are_a_list (J : Junk) (n : Nat) (ops : List Op) :
    ∃ b0 b, construct J n = .ok b0 ∧ run J ops b0 = .ok b ∧ b.nbc = (spec ops).length ∧
      ∀ (i : Nat) (c : Cond), (spec ops)[i]? = some c → get b i = .ok c := by
  obtain ⟨b0, e0, h0⟩ := construct_rep J n
  obtain ⟨b, e, h⟩ := run_rep J ops h0
  exact ⟨b0, b, e0, e, h.nbc, get_rep h⟩

/-- A history with growth, a condition on several faces, an empty one and a clear. -/
example : spec [.append .pressure 7 3, .clear, .append .fluxTotvol 1 2, .appendMulti .pressure [4, 5, 6] 10, .appendMulti .noflow [] 0] =
    [⟨.fluxTotvol, 2, [1]⟩, ⟨.pressure, 10, [4, 5, 6]⟩, ⟨.noflow, 0, []⟩] := by decide +kernel

end Opm.FlowBc
