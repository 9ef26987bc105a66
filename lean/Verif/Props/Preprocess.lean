import Verif.Proofs.Runs
/-!
# Properties of corner-point grid processing

`process_grdecl` turns a corner-point description into an unstructured grid.  The specification is `Processed` in `Spec/ProcessedGrid.lean`.
-/

namespace Opm.Cpg.Prop
open Opm Opm.Cpg UniquePoints

/-- Whenever processing a proper input succeeds, the output describes the grid that was given. -/
theorem processed (J : Junk) {inp : Input} {s : Int} {tol : Rat} {out : Output} (h : inp.Good s) (ht : 0 ≤ tol) (e : processGrdecl J inp tol = .ok out) :
    ∃ num, Processed inp s tol out num := processed_of_ok J h ht e

/-- Full statement: processing a proper input succeeds.  This is not so (see `crossings_overflow`).  It does if the lines of neighbouring columns do not cross, or both columns are filled with active cells without gaps. -/
theorem processing_succeeds_partial (J : Junk) {inp : Input} {s : Int} {tol : Rat} (h : inp.Good s) (ht : 0 ≤ tol)
    (hn : ∀ dir i j i' j', NextTo dir i j i' j' → i' < inp.nx → j' < inp.ny → (inp.Filled s tol i j ∧ inp.Filled s tol i' j') ∨ inp.NoCross s dir i j i' j') :
    ∃ out, processGrdecl J inp tol = .ok out := runs J h ht hn

/-- Full statement: every node on a pillar lies on that pillar.  Missing: inputs that give heights (see `nodes_off_pillars`).  For depths, the node of each corner of an active cell is on
the pillar of the corner, not more than `tol` above or below it. -/
theorem nodes_on_pillars_partial (J : Junk) {inp : Input} {tol : Rat} {out : Output} (h : inp.Good 1) (ht : 0 ≤ tol) (e : processGrdecl J inp tol = .ok out) {I J K : Nat}
    (hc : inp.Corner I J K) : ∃ k, k < out.grid.nn ∧ inp.OnPillar (pillarAt inp.nx I J) (ptOf out.coords k) ∧ |(ptOf out.coords k).z - inp.z I J K| ≤ tol := by
  obtain ⟨num, hp⟩ := processed _ h ht e
  obtain ⟨k, _, _, h2, h3, h4, h5⟩ := hp.corner I J K hc
  refine ⟨k, h2, ?_, abs_le.2 ⟨by linarith, h3⟩⟩
  simpa using h5

section
variable {inp : Input} {s : Int} {tol : Rat} {out : Output} {num : Nat → Nat → Nat → Int}

theorem cellAt_active (h : Processed inp s tol out num) {n i j k : Nat} (hc : out.IsCellAt inp n i j k) : inp.Active i j k := by
  obtain ⟨h1, hi, hj, hk, e⟩ := hc
  have hm : ((cartesian inp.nx inp.ny i j k : Nat) : Int) ∈ out.cells.take out.numCells := List.mem_of_getElem? (i := n) (by rw [List.getElem?_take_of_lt h1]; exact e)
  obtain ⟨i', j', k', hi', hj', hk', e', ha, _⟩ := (h.cells _).1 hm
  obtain ⟨rfl, rfl, rfl⟩ := cartesian_inj hi hj hi' hj' (by exact_mod_cast e')
  exact ha

theorem cellAt_corner (h : Processed inp s tol out num) {n i j k : Nat} (hc : out.IsCellAt inp n i j k) {a b r : Nat} (ha : a < 2) (hb : b < 2) (hr : r < 2) :
    inp.Corner (2 * i + a) (2 * j + b) (2 * k + r) := by
  have h1 := cellAt_active h hc
  obtain ⟨_, hi, hj, hk, _⟩ := hc
  refine ⟨by omega, by omega, by omega, ?_⟩
  rw [show (2 * i + a) / 2 = i by omega, show (2 * j + b) / 2 = j by omega, show (2 * k + r) / 2 = k by omega]
  exact h1

theorem exact_depth (h : Processed inp s 0 out num) {I J K : Nat} (hc : inp.Corner I J K) : (ptOf out.coords (num I J K).toNat).z = inp.z I J K := by
  obtain ⟨k, e, _, _, h1, h2, _⟩ := h.corner I J K hc
  rw [e, Int.toNat_natCast]
  linarith

theorem num_eq_iff (h : Processed inp s 0 out num) {I J K I' J' K' : Nat} (hc : inp.Corner I J K) (hc' : inp.Corner I' J' K') (hp : pillarAt inp.nx I J = pillarAt inp.nx I' J') :
    num I J K = num I' J' K' ↔ inp.z I J K = inp.z I' J' K' := by
  constructor
  · intro e
    rw [← exact_depth h hc, ← exact_depth h hc', e]
  · exact h.same _ _ _ _ _ _ hc hc' hp

end

/-- The cells of the output, in increasing Cartesian order and each once, are, with tolerance 0, the active cells with a corner at which top and bottom have different depths. -/
theorem cells_exact (J : Junk) {inp : Input} {s : Int} {out : Output} (h : inp.Good s) (e : processGrdecl J inp 0 = .ok out) :
    (out.cells.take out.numCells).Pairwise (· < ·) ∧
    ∀ c : Int, c ∈ out.cells.take out.numCells ↔ ∃ i j k, i < inp.nx ∧ j < inp.ny ∧ k < inp.nz ∧ c = (cartesian inp.nx inp.ny i j k : Nat) ∧ inp.Active i j k ∧ inp.Thick i j k := by
  obtain ⟨num, hp⟩ := processed J h le_rfl e
  refine ⟨hp.increasing, fun c => ?_⟩
  rw [hp.cells]
  have key : ∀ i j k a b, i < inp.nx → j < inp.ny → k < inp.nz → inp.Active i j k → a < 2 → b < 2 →
      (num (2 * i + a) (2 * j + b) (2 * k) = num (2 * i + a) (2 * j + b) (2 * k + 1) ↔ inp.z (2 * i + a) (2 * j + b) (2 * k) = inp.z (2 * i + a) (2 * j + b) (2 * k + 1)) := by
    intro i j k a b hi hj hk ha h1 h2
    refine num_eq_iff hp ⟨by omega, by omega, by omega, ?_⟩ ⟨by omega, by omega, by omega, ?_⟩ rfl
    · rw [show (2 * i + a) / 2 = i by omega, show (2 * j + b) / 2 = j by omega, show 2 * k / 2 = k by omega]; exact ha
    · rw [show (2 * i + a) / 2 = i by omega, show (2 * j + b) / 2 = j by omega, show (2 * k + 1) / 2 = k by omega]; exact ha
  constructor
  · rintro ⟨i, j, k, hi, hj, hk, hc, ha, a, b, h1, h2, hne⟩
    exact ⟨i, j, k, hi, hj, hk, hc, ha, a, b, h1, h2, fun hz => hne ((key i j k a b hi hj hk ha h1 h2).2 hz)⟩
  · rintro ⟨i, j, k, hi, hj, hk, hc, ha, a, b, h1, h2, hne⟩
    exact ⟨i, j, k, hi, hj, hk, hc, ha, a, b, h1, h2, fun hz => hne ((key i j k a b hi hj hk ha h1 h2).1 hz)⟩

/-- With any tolerance, only active cells of some thickness are kept, and active cells with an edge longer than `2 tol` are. -/
theorem cells_kept (J : Junk) {inp : Input} {s : Int} {tol : Rat} {out : Output} (h : inp.Good s) (ht : 0 ≤ tol) (e : processGrdecl J inp tol = .ok out) :
    (out.cells.take out.numCells).Pairwise (· < ·) ∧
    (∀ c ∈ out.cells.take out.numCells, ∃ i j k, i < inp.nx ∧ j < inp.ny ∧ k < inp.nz ∧ c = (cartesian inp.nx inp.ny i j k : Nat) ∧ inp.Active i j k ∧ inp.Thick i j k) ∧
    ∀ i j k a b, i < inp.nx → j < inp.ny → k < inp.nz → a < 2 → b < 2 → inp.Active i j k →
      2 * tol < |inp.z (2 * i + a) (2 * j + b) (2 * k + 1) - inp.z (2 * i + a) (2 * j + b) (2 * k)| → ((cartesian inp.nx inp.ny i j k : Nat) : Int) ∈ out.cells.take out.numCells := by
  obtain ⟨num, hp⟩ := processed J h ht e
  have cor : ∀ i j k a b r, i < inp.nx → j < inp.ny → k < inp.nz → inp.Active i j k → a < 2 → b < 2 → r < 2 → inp.Corner (2 * i + a) (2 * j + b) (2 * k + r) := by
    intro i j k a b r hi hj hk ha h1 h2 h3
    refine ⟨by omega, by omega, by omega, ?_⟩
    rw [show (2 * i + a) / 2 = i by omega, show (2 * j + b) / 2 = j by omega, show (2 * k + r) / 2 = k by omega]
    exact ha
  refine ⟨hp.increasing, fun c hc => ?_, fun i j k a b hi hj hk h1 h2 ha hz => ?_⟩
  · obtain ⟨i, j, k, hi, hj, hk, hc, ha, a, b, h1, h2, hne⟩ := (hp.cells c).1 hc
    exact ⟨i, j, k, hi, hj, hk, hc, ha, a, b, h1, h2, fun hz => hne (hp.same _ _ _ _ _ _ (cor i j k a b 0 hi hj hk ha h1 h2 (by omega)) (cor i j k a b 1 hi hj hk ha h1 h2 (by omega)) rfl hz)⟩
  · refine (hp.cells _).2 ⟨i, j, k, hi, hj, hk, rfl, ha, a, b, h1, h2, fun hn => ?_⟩
    obtain ⟨m, e1, _, _, u1, u2, _⟩ := hp.corner _ _ _ (cor i j k a b 0 hi hj hk ha h1 h2 (by omega))
    obtain ⟨m', e2, _, _, v1, v2, _⟩ := hp.corner _ _ _ (cor i j k a b 1 hi hj hk ha h1 h2 (by omega))
    simp only [Nat.add_zero] at e1 u1 u2
    rw [e1, e2] at hn
    have : m = m' := by exact_mod_cast hn
    subst this
    rcases lt_abs.1 hz with g | g <;> linarith

/-- Every cell of the output has exactly one face of tag 2 at its top, of which it is the second neighbour, and exactly one at its bottom, of which it is the first. -/
theorem one_top_one_bottom (J : Junk) {inp : Input} {s : Int} {tol : Rat} {out : Output} (h : inp.Good s) (ht : 0 ≤ tol) (e : processGrdecl J inp tol = .ok out) {n i j k : Nat}
    (hc : out.IsCellAt inp n i j k) :
    (∃! f, f < out.grid.nf ∧ out.tag f = 2 ∧ (out.face f).b = n) ∧ ∃! f, f < out.grid.nf ∧ out.tag f = 2 ∧ (out.face f).a = n := by
  obtain ⟨num, hp⟩ := processed J h ht e
  obtain ⟨⟨f, h1, h2, h3, _⟩, hu⟩ := hp.top n i j k hc
  obtain ⟨⟨f', h1', h2', h3', _⟩, hu'⟩ := hp.bottom n i j k hc
  exact ⟨⟨f, ⟨h1, h2, h3⟩, fun g ⟨g1, g2, g3⟩ => hu g f g1 h1 g2 h2 g3 h3⟩, ⟨f', ⟨h1', h2', h3'⟩, fun g ⟨g1, g2, g3⟩ => hu' g f' g1 h1' g2 h2' g3 h3'⟩⟩

/-- With tolerance 0, two cells share a face of tag 2, the first above, if and only if they are in one column and the bottom of the first is the top of the second: the four
corners have the same depths.  Cells in between, if any, have no thickness there or are not active. -/
theorem stacked_exact (J : Junk) {inp : Input} {s : Int} {out : Output} (h : inp.Good s) (e : processGrdecl J inp 0 = .ok out) {n i j k n' i' j' k' : Nat}
    (hc : out.IsCellAt inp n i j k) (hc' : out.IsCellAt inp n' i' j' k') :
    (∃ f, f < out.grid.nf ∧ out.tag f = 2 ∧ (out.face f).a = n ∧ (out.face f).b = n') ↔
      i = i' ∧ j = j' ∧ k < k' ∧ ∀ a b, a < 2 → b < 2 → inp.z (2 * i + a) (2 * j + b) (2 * k + 1) = inp.z (2 * i + a) (2 * j + b) (2 * k') := by
  obtain ⟨num, hp⟩ := processed J h le_rfl e
  rw [hp.stacked n i j k n' i' j' k' hc hc']
  constructor
  · rintro ⟨rfl, rfl, hk, hz⟩
    exact ⟨rfl, rfl, hk, fun a b ha hb => (num_eq_iff hp (cellAt_corner hp hc ha hb (r := 1) (by omega)) (cellAt_corner hp hc' ha hb (r := 0) (by omega)) rfl).1 (hz a b ha hb)⟩
  · rintro ⟨rfl, rfl, hk, hz⟩
    exact ⟨rfl, rfl, hk, fun a b ha hb => (num_eq_iff hp (cellAt_corner hp hc ha hb (r := 1) (by omega)) (cellAt_corner hp hc' ha hb (r := 0) (by omega)) rfl).2 (hz a b ha hb)⟩

/-- With tolerance 0, two cells share a face in direction `dir` if and only if their columns are neighbours in that direction and, at the depths given, the sides facing each
other have a part in common.  They share at most one. -/
theorem sides_exact (J : Junk) {inp : Input} {s : Int} {out : Output} (h : inp.Good s) (e : processGrdecl J inp 0 = .ok out) {dir n i j k n' i' j' k' : Nat} (hd : dir < 2)
    (hc : out.IsCellAt inp n i j k) (hc' : out.IsCellAt inp n' i' j' k') :
    ((∃ f, f < out.grid.nf ∧ out.tag f = dir ∧ (out.face f).a = n ∧ (out.face f).b = n') ↔
      NextTo dir i j i' j' ∧ SidesMeet (fun I J K => s * inp.z I J K) dir i j k i' j' k') ∧
    ∀ f f', f < out.grid.nf → f' < out.grid.nf → out.tag f = dir → out.tag f' = dir → (out.face f).a = n → (out.face f).b = n' → (out.face f').a = n → (out.face f').b = n' → f = f' := by
  obtain ⟨num, hp⟩ := processed J h le_rfl e
  constructor
  · rw [hp.sides dir n i j k n' i' j' k' hd hc hc']
    obtain ⟨a, b, c, d, h1, h2, h3, h4, e1⟩ := sideCols_form (dir := dir) (r := 1) (by omega) i j
    obtain ⟨a', b', c', d', h1', h2', h3', h4', e2⟩ := sideCols_form (dir := dir) (r := 0) (by omega) i' j'
    have x : ∀ {a b r}, a < 2 → b < 2 → r < 2 → (ptOf out.coords (num (2 * i + a) (2 * j + b) (2 * k + r)).toNat).z = inp.z (2 * i + a) (2 * j + b) (2 * k + r) :=
      fun ha hb hr => exact_depth hp (cellAt_corner hp hc ha hb hr)
    have y : ∀ {a b r}, a < 2 → b < 2 → r < 2 → (ptOf out.coords (num (2 * i' + a) (2 * j' + b) (2 * k' + r)).toNat).z = inp.z (2 * i' + a) (2 * j' + b) (2 * k' + r) :=
      fun ha hb hr => exact_depth hp (cellAt_corner hp hc' ha hb hr)
    have x0 : ∀ {a b}, a < 2 → b < 2 → (ptOf out.coords (num (2 * i + a) (2 * j + b) (2 * k)).toNat).z = inp.z (2 * i + a) (2 * j + b) (2 * k) := fun ha hb => x ha hb (r := 0) (by omega)
    have y0 : ∀ {a b}, a < 2 → b < 2 → (ptOf out.coords (num (2 * i' + a) (2 * j' + b) (2 * k')).toNat).z = inp.z (2 * i' + a) (2 * j' + b) (2 * k') := fun ha hb => y ha hb (r := 0) (by omega)
    unfold SidesMeet
    rw [e1, e2]
    simp only
    rw [x0 h1 h2, x0 h3 h4, x h1 h2 (r := 1) (by omega), x h3 h4 (r := 1) (by omega), y0 h1' h2', y0 h3' h4', y h1' h2' (r := 1) (by omega), y h3' h4' (r := 1) (by omega)]
  · intro f f' hf hf' t t' a1 b1 a2 b2
    exact hp.once f f' hf hf' (by rw [t, t']) (by rw [a1, a2]) (by rw [b1, b2]) (by rw [a1]; omega) (by rw [b1]; omega)

/-- `get_zcorn_sign` reports no error exactly if the depths, or the depths with the opposite sign, do not decrease downwards between adjacent active corners; the sign is the
right one (1 if both are). -/
theorem depth_sign {inp : Input} (h : inp.Ok) : ∃ s e, zcornSign inp.nx inp.ny inp.nz inp.actnum inp.zcorn = .ok (s, e) ∧
    (e = false ↔ inp.Downward 1 ∨ inp.Downward (-1)) ∧ (e = false → (s = 1 ∨ s = -1) ∧ inp.Downward s) ∧ (inp.Downward 1 → s = 1) := by
  obtain ⟨s, e, he, h1, h2, h3⟩ := zcornSign_ok h
  refine ⟨s, e, he, ?_⟩
  by_cases d1 : inp.Downward 1
  · obtain ⟨rfl, rfl⟩ := h1 d1
    exact ⟨by simp [d1], fun _ => ⟨by simp, d1⟩, fun _ => rfl⟩
  · by_cases d2 : inp.Downward (-1)
    · obtain ⟨rfl, rfl⟩ := h2 d1 d2
      exact ⟨by simp [d2], fun _ => ⟨by simp, d2⟩, fun hd => absurd hd d1⟩
    · obtain ⟨rfl, rfl⟩ := h3 d1 d2
      exact ⟨by simp [d1, d2], fun hd => (by cases hd), fun hd => absurd hd d1⟩

/-- The rearranged depths are those given, times the sign, with the vertical index running fastest; each entry of the result is one of the given ones. -/
theorem depths_rearranged {inp : Input} (h : inp.Ok) (sign : Int) {buf : List Rat} (hl : buf.length = 2 * inp.nx * (2 * inp.ny) * (2 * inp.nz)) :
    ∃ r, permuteZcorn inp.nx inp.ny inp.nz inp.zcorn sign buf = .ok r ∧ r.length = inp.zcorn.length ∧
      (∀ I J K, I < 2 * inp.nx → J < 2 * inp.ny → K < 2 * inp.nz → r[2 * inp.nz * (I + 2 * inp.nx * J) + K]? = some (sign * inp.z I J K)) ∧
      ∀ m, m < r.length → ∃ I J K, I < 2 * inp.nx ∧ J < 2 * inp.ny ∧ K < 2 * inp.nz ∧ m = 2 * inp.nz * (I + 2 * inp.nx * J) + K := by
  obtain ⟨r, e, h1, h2⟩ := permuteZcorn_ok h sign hl
  refine ⟨r, e, by rw [h1, h.zcorn], h2, fun m hm => ?_⟩
  have hx := h.nx
  have hy := h.ny
  have hz := h.nz
  have hlt : m / (2 * inp.nz) < 2 * inp.nx * (2 * inp.ny) := by
    rw [Nat.div_lt_iff_lt_mul (by omega)]; omega
  refine ⟨m / (2 * inp.nz) % (2 * inp.nx), m / (2 * inp.nz) / (2 * inp.nx), m % (2 * inp.nz), Nat.mod_lt _ (by omega), ?_, Nat.mod_lt _ (by omega), ?_⟩
  · rw [Nat.div_lt_iff_lt_mul (by omega), Nat.mul_comm (2 * inp.ny)]; exact hlt
  · rw [Nat.mod_add_div, Nat.div_add_mod]

/-- The rearranged activity flags say which cells are active; without flags, all are. -/
theorem flags_rearranged {inp : Input} (h : inp.Ok) {buf : List Int} (hl : buf.length = inp.nx * inp.ny * inp.nz) :
    ∃ r, permuteActnum inp.nx inp.ny inp.nz inp.actnum buf = .ok r ∧ r.length = inp.nx * inp.ny * inp.nz ∧
      ∀ i j k, i < inp.nx → j < inp.ny → k < inp.nz → ∃ v, r[inp.nz * (i + inp.nx * j) + k]? = some v ∧ (v ≠ 0 ↔ inp.Active i j k) ∧
        ∀ a, inp.actnum = some a → a[cartesian inp.nx inp.ny i j k]? = some v := permuteActnum_ok h hl

/-! ## Examples -/

/-- Two columns of two cells, the second displaced downwards by half the height of a cell. -/
def exInput : Input := ⟨2, 1, 2, [0, 0, 0, 0, 0, 10, 1, 0, 0, 1, 0, 10, 2, 0, 0, 2, 0, 10, 0, 1, 0, 0, 1, 10, 1, 1, 0, 1, 1, 10, 2, 1, 0, 2, 1, 10],
  [0, 0, 1, 1, 0, 0, 1, 1, 2, 2, 3, 3, 2, 2, 3, 3, 2, 2, 3, 3, 2, 2, 3, 3, 4, 4, 5, 5, 4, 4, 5, 5], none⟩

theorem exInput_good : exInput.Good 1 := by
  refine ⟨⟨by decide, by decide, by decide, by decide, by decide, by intro a h; cases h⟩, by decide, by decide, ?_, ⟨0, 0, 0, by decide, by decide, by decide, by decide, 0, 0, by decide, by decide, by decide +kernel⟩, by decide +kernel⟩
  have h : ∀ I, I < 4 → ∀ J, J < 2 → ∀ K', K' < 4 → ∀ K, K < K' + 1 → (((1 : Int) : Rat) * exInput.z I J K ≤ ((1 : Int) : Rat) * exInput.z I J K') := by decide +kernel
  intro I J hI hJ K K' hK hK' _ _
  exact h I hI J hJ K' hK' K (by omega)

theorem exInput_runs (J : Junk) : ∃ out, processGrdecl J exInput 0 = .ok out := by
  refine processing_succeeds_partial J exInput_good le_rfl ?_
  have hc : ∀ K, K < 4 → ∀ L, L < 4 →
    ¬ (((1 : Int) : Rat) * exInput.z (sideCols 0 1 0 0).1.1 (sideCols 0 1 0 0).1.2 K < ((1 : Int) : Rat) * exInput.z (sideCols 0 0 1 0).1.1 (sideCols 0 0 1 0).1.2 L ∧
      ((1 : Int) : Rat) * exInput.z (sideCols 0 0 1 0).2.1 (sideCols 0 0 1 0).2.2 L < ((1 : Int) : Rat) * exInput.z (sideCols 0 1 0 0).2.1 (sideCols 0 1 0 0).2.2 K) ∧
    ¬ (((1 : Int) : Rat) * exInput.z (sideCols 0 0 1 0).1.1 (sideCols 0 0 1 0).1.2 L < ((1 : Int) : Rat) * exInput.z (sideCols 0 1 0 0).1.1 (sideCols 0 1 0 0).1.2 K ∧
      ((1 : Int) : Rat) * exInput.z (sideCols 0 1 0 0).2.1 (sideCols 0 1 0 0).2.2 K < ((1 : Int) : Rat) * exInput.z (sideCols 0 0 1 0).2.1 (sideCols 0 0 1 0).2.2 L) := by decide +kernel
  intro dir i j i' j' hn hi' hj'
  have hx : exInput.nx = 2 := rfl
  have hy : exInput.ny = 1 := rfl
  rcases hn with ⟨rfl, rfl, rfl⟩ | ⟨rfl, rfl, rfl⟩
  · obtain ⟨rfl, rfl⟩ : i = 0 ∧ j' = 0 := by omega
    exact Or.inr (fun K L hK hL _ _ => hc K hK L hL)
  · omega

/-- The junk values in the buffers used for evaluating examples. -/
def exJunk : Junk := ⟨fun n => 7 + n, fun n => 3 + n, fun n => 1 / 2 + n⟩

/-- Four cells; the lower left one has a face in common with both of the right ones, the upper left one with the upper right one only. -/
example : (match processGrdecl exJunk exInput 0 with
    | .ok out => decide (out.numCells = 4 ∧ out.cells.take 4 = [0, 1, 2, 3] ∧ (List.range out.grid.nf).filterMap (fun f => if out.tag f = 0 ∧ (out.face f).a ≠ -1 ∧ (out.face f).b ≠ -1 then some ((out.face f).a, (out.face f).b) else none) = [(0, 1), (2, 1), (2, 3)])
    | .error _ => false) = true := by decide +kernel

/-! ## What goes wrong -/

/-- A row of cells, all active; all but the last have no thickness, and the line of each crosses the line of the next. -/
def overflowInput : Input := ⟨19, 1, 1, (List.range 2).flatMap fun j => (List.range 20).flatMap fun i => [(i : Rat), j, 0, i, j, 10],
  (List.range 2).flatMap fun k => (List.range 2).flatMap fun j => (List.range 38).map fun I => if I ≥ 36 then (k : Rat) + 1 else if (I + j) % 2 = 1 then 1 else 2, none⟩

theorem overflowInput_good : overflowInput.Good 1 := by
  refine ⟨⟨by decide, by decide, by decide, by decide +kernel, by decide +kernel, by intro a h; cases h⟩, by decide, by decide, ?_, ⟨18, 0, 0, by decide, by decide, by decide, by decide, 0, 0, by decide, by decide, by decide +kernel⟩, by decide +kernel⟩
  have h : ∀ I, I < 38 → ∀ J, J < 2 → ∀ K', K' < 2 → ∀ K, K < K' + 1 → (((1 : Int) : Rat) * overflowInput.z I J K ≤ ((1 : Int) : Rat) * overflowInput.z I J K') := by decide +kernel
  intro I J hI hJ K K' hK hK' _ _
  exact h I hI J hJ K' hK' K (by omega)

/-- The outcome is an access outside an array. -/
def isUb {α : Type} : M α → Bool
  | .error .ub => true
  | _ => false

theorem isUb_iff {α : Type} (x : M α) : isUb x = true ↔ x = .error .ub := by
  cases x with
  | ok a => simp [isUb]
  | error e => cases e <;> simp [isUb]

set_option maxRecDepth 100000 in
/-- Processing does not always succeed: the room for crossings grows with the number of faces only, and cells without thickness make crossings but no faces; the array of crossings
is written outside its bounds. -/
theorem crossings_overflow : ∃ (J : Junk) (inp : Input), inp.Good 1 ∧ processGrdecl J inp 0 = .error .ub :=
  ⟨exJunk, overflowInput, overflowInput_good, (isUb_iff _).1 (by decide +kernel)⟩

/-- One cell, given by heights, between pillars that lean over. -/
def upwardInput : Input := ⟨1, 1, 1, [0, 0, 0, 10, 0, 10, 1, 0, 0, 11, 0, 10, 0, 1, 0, 10, 1, 10, 1, 1, 0, 11, 1, 10], [2, 2, 2, 2, 1, 1, 1, 1], none⟩

theorem upwardInput_good : upwardInput.Good (-1) := by
  refine ⟨⟨by decide, by decide, by decide, by decide, by decide, by intro a h; cases h⟩, by decide, by decide, ?_, ⟨0, 0, 0, by decide, by decide, by decide, by decide, 0, 0, by decide, by decide, by decide +kernel⟩, by decide +kernel⟩
  have h : ∀ I, I < 2 → ∀ J, J < 2 → ∀ K', K' < 2 → ∀ K, K < K' + 1 → (((-1 : Int) : Rat) * upwardInput.z I J K ≤ ((-1 : Int) : Rat) * upwardInput.z I J K') := by decide +kernel
  intro I J hI hJ K K' hK hK' _ _
  exact h I hI J hJ K' hK' K (by omega)

/-- Nodes do not always lie on the pillars: if heights are given instead of depths, they are found at the opposite height on the pillars, and only then given their own. -/
theorem nodes_off_pillars : ∃ (J : Junk) (inp : Input) (out : Output), inp.Good (-1) ∧ processGrdecl J inp 0 = .ok out ∧ ∃ k, k < out.grid.nn ∧
    ∀ q, q < (inp.nx + 1) * (inp.ny + 1) → ¬ inp.OnPillar q (ptOf out.coords k) := by
  have key : (match processGrdecl exJunk upwardInput 0 with
    | .ok out => decide (0 < out.grid.nn ∧ ptOf out.coords 0 = ⟨-2, 0, 2⟩)
    | .error _ => false) = true := by decide +kernel
  cases e : processGrdecl exJunk upwardInput 0 with
  | error r => rw [e] at key; cases key
  | ok out =>
    rw [e] at key
    obtain ⟨h1, h2⟩ := of_decide_eq_true key
    refine ⟨exJunk, upwardInput, out, upwardInput_good, e, 0, h1, ?_⟩
    rw [h2]
    intro q hq ⟨a, hx, _, hz, _⟩
    have hq' : q < 4 := hq
    interval_cases q <;> · have := hz (by decide +kernel)
                           simp only [Input.upper, Input.lower, ptOf, upwardInput] at hx this
                           simp at hx this
                           linarith

end Opm.Cpg.Prop
