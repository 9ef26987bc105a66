import Verif.Proofs.Tab
import Verif.Proofs.Rows
import Verif.Spec.CartGrid
/-! # Proofs about Cartesian grids: the contents of the arrays -/

namespace Opm.Cart

/-! ### Emitting records -/

/-- The cell pointers have written the rows `l`. -/
def CellCur.Rep (s : CellCur) (nc d : Nat) (l : List (List Nat)) : Prop :=
  s.faces.Rep (nc * d) (l.flatMap id) ∧ s.pos.PosRep (nc + 1) d l.length ∧ ∀ r ∈ l, r.length = d

theorem CellCur.emit_rep {s : CellCur} {nc d : Nat} {l : List (List Nat)} (r : List Nat) (hr : r.length = d) (h : s.Rep nc d l) (hc : l.length + 1 ≤ nc) :
    ∃ s', s.emit d r = .ok s' ∧ s'.Rep nc d (l ++ [r]) := by
  obtain ⟨h1, h2, h3⟩ := h
  have hl : (l.flatMap id).length = l.length * d := length_flatMap_const h3
  have hle : (l.length + 1) * d ≤ nc * d := Nat.mul_le_mul_right d hc
  rw [Nat.succ_mul] at hle
  obtain ⟨c1, e1, r1⟩ := Cur.puts_rep r h1 (by rw [hl, hr]; exact hle)
  obtain ⟨c2, e2, r2⟩ := Cur.bump_rep h2 (by omega)
  refine ⟨⟨c1, c2⟩, ?_, ?_, ?_, ?_⟩
  · unfold CellCur.emit
    rw [e1, bind_ok, e2, bind_ok]
  · simpa using r1
  · simpa using r2
  · intro x hx
    rcases List.mem_append.1 hx with hx | hx
    · exact h3 x hx
    · rw [List.mem_singleton.1 hx, hr]

/-- The face pointers have written the records `l`. -/
def FaceCur.Rep (s : FaceCur) (nf d : Nat) (l : List (List Nat × List Int)) : Prop :=
  s.nodes.Rep (nf * d) (l.flatMap (·.1)) ∧ s.pos.PosRep (nf + 1) d l.length ∧ s.cells.Rep (2 * nf) (l.flatMap (·.2)) ∧
    ∀ r ∈ l, r.1.length = d ∧ r.2.length = 2

theorem FaceCur.emit_rep {s : FaceCur} {nf d : Nat} {l : List (List Nat × List Int)} (r : List Nat × List Int) (hr : r.1.length = d) (hr2 : r.2.length = 2)
    (h : s.Rep nf d l) (hc : l.length + 1 ≤ nf) : ∃ s', s.emit d r.1 r.2 = .ok s' ∧ s'.Rep nf d (l ++ [r]) := by
  obtain ⟨h1, h2, h3, h4⟩ := h
  have hl : (l.flatMap (·.1)).length = l.length * d := length_flatMap_const (fun x hx => (h4 x hx).1)
  have hl2 : (l.flatMap (·.2)).length = l.length * 2 := length_flatMap_const (fun x hx => (h4 x hx).2)
  have hle : (l.length + 1) * d ≤ nf * d := Nat.mul_le_mul_right d hc
  rw [Nat.succ_mul] at hle
  obtain ⟨c1, e1, r1⟩ := Cur.puts_rep r.1 h1 (by rw [hl, hr]; exact hle)
  obtain ⟨c2, e2, r2⟩ := Cur.bump_rep h2 (by omega)
  obtain ⟨c3, e3, r3⟩ := Cur.puts_rep r.2 h3 (by rw [hl2, hr2]; omega)
  refine ⟨⟨c1, c2, c3⟩, ?_, ?_, ?_, ?_, ?_⟩
  · unfold FaceCur.emit
    rw [e1, bind_ok, e2, bind_ok, e3, bind_ok]
  · simpa using r1
  · simpa using r2
  · simpa using r3
  · intro x hx
    rcases List.mem_append.1 hx with hx | hx
    · exact h4 x hx
    · rw [List.mem_singleton.1 hx]; exact ⟨hr, hr2⟩

def CellGeoCur.Rep (s : CellGeoCur) (nc d : Nat) (l : List (List Rat × Rat)) : Prop :=
  s.cent.Rep (nc * d) (l.flatMap (·.1)) ∧ s.vol.Rep nc (l.map (·.2)) ∧ ∀ r ∈ l, r.1.length = d

theorem CellGeoCur.emit_rep {s : CellGeoCur} {nc d : Nat} {l : List (List Rat × Rat)} (r : List Rat × Rat) (hr : r.1.length = d)
    (h : s.Rep nc d l) (hc : l.length + 1 ≤ nc) : ∃ s', s.emit r.1 r.2 = .ok s' ∧ s'.Rep nc d (l ++ [r]) := by
  obtain ⟨h1, h2, h4⟩ := h
  have hl : (l.flatMap (·.1)).length = l.length * d := length_flatMap_const h4
  have hle : (l.length + 1) * d ≤ nc * d := Nat.mul_le_mul_right d hc
  rw [Nat.succ_mul] at hle
  obtain ⟨c1, e1, r1⟩ := Cur.puts_rep r.1 h1 (by rw [hl, hr]; exact hle)
  obtain ⟨c2, e2, r2⟩ := Cur.put_rep r.2 h2 (by rw [List.length_map]; omega)
  refine ⟨⟨c1, c2⟩, ?_, ?_, ?_, ?_⟩
  · unfold CellGeoCur.emit
    rw [e1, bind_ok, e2, bind_ok]
  · simpa using r1
  · simpa using r2
  · intro x hx
    rcases List.mem_append.1 hx with hx | hx
    · exact h4 x hx
    · rw [List.mem_singleton.1 hx]; exact hr

def FaceGeoCur.Rep (s : FaceGeoCur) (nf d : Nat) (l : List (List Rat × List Rat × Rat)) : Prop :=
  s.nrm.Rep (nf * d) (l.flatMap (·.1)) ∧ s.cent.Rep (nf * d) (l.flatMap (·.2.1)) ∧ s.area.Rep nf (l.map (·.2.2)) ∧
    ∀ r ∈ l, r.1.length = d ∧ r.2.1.length = d

theorem FaceGeoCur.emit_rep {s : FaceGeoCur} {nf d : Nat} {l : List (List Rat × List Rat × Rat)} (r : List Rat × List Rat × Rat) (hr : r.1.length = d)
    (hr2 : r.2.1.length = d) (h : s.Rep nf d l) (hc : l.length + 1 ≤ nf) :
    ∃ s', s.emit r.1 r.2.1 r.2.2 = .ok s' ∧ s'.Rep nf d (l ++ [r]) := by
  obtain ⟨h1, h2, h3, h4⟩ := h
  have hl : (l.flatMap (·.1)).length = l.length * d := length_flatMap_const (fun x hx => (h4 x hx).1)
  have hl2 : (l.flatMap (·.2.1)).length = l.length * d := length_flatMap_const (fun x hx => (h4 x hx).2)
  have hle : (l.length + 1) * d ≤ nf * d := Nat.mul_le_mul_right d hc
  rw [Nat.succ_mul] at hle
  obtain ⟨c1, e1, r1⟩ := Cur.puts_rep r.1 h1 (by rw [hl, hr]; exact hle)
  obtain ⟨c2, e2, r2⟩ := Cur.puts_rep r.2.1 h2 (by rw [hl2, hr2]; exact hle)
  obtain ⟨c3, e3, r3⟩ := Cur.put_rep r.2.2 h3 (by rw [List.length_map]; omega)
  refine ⟨⟨c1, c2, c3⟩, ?_, ?_, ?_, ?_, ?_⟩
  · unfold FaceGeoCur.emit
    rw [e1, bind_ok, e2, bind_ok, e3, bind_ok]
  · simpa using r1
  · simpa using r2
  · simpa using r3
  · intro x hx
    rcases List.mem_append.1 hx with hx | hx
    · exact h4 x hx
    · rw [List.mem_singleton.1 hx]; exact ⟨hr, hr2⟩

def coordRep (d nn : Nat) (s : Cur Rat) (l : List (List Rat)) : Prop := s.Rep (nn * d) (l.flatMap id) ∧ ∀ r ∈ l, r.length = d

theorem coord_rep {d nn : Nat} {s : Cur Rat} {l : List (List Rat)} (r : List Rat) (hr : r.length = d) (h : coordRep d nn s l) (hc : l.length + 1 ≤ nn) :
    ∃ s', s.puts r = .ok s' ∧ coordRep d nn s' (l ++ [r]) := by
  obtain ⟨h1, h2⟩ := h
  have hl : (l.flatMap id).length = l.length * d := length_flatMap_const h2
  have hle : (l.length + 1) * d ≤ nn * d := Nat.mul_le_mul_right d hc
  rw [Nat.succ_mul] at hle
  obtain ⟨c1, e1, r1⟩ := Cur.puts_rep r h1 (by rw [hl, hr]; exact hle)
  refine ⟨c1, e1, by simpa using r1, ?_⟩
  intro x hx
  rcases List.mem_append.1 hx with hx | hx
  · exact h2 x hx
  · rw [List.mem_singleton.1 hx, hr]

/-! ### Records in three dimensions -/

def cellRec3 (nx ny nz i j k : Nat) : List Nat :=
  [xface3 nx ny i j k, xface3 nx ny (i + 1) j k, yface3 nx ny nz i j k, yface3 nx ny nz i (j + 1) k, zface3 nx ny nz i j k, zface3 nx ny nz i j (k + 1)]

def xRec3 (nx ny i j k : Nat) : List Nat × List Int :=
  ([node3 nx ny i j k, node3 nx ny i (j + 1) k, node3 nx ny i (j + 1) (k + 1), node3 nx ny i j (k + 1)],
   [before i (fun i => cell3 nx ny i j k), after i nx (fun i => cell3 nx ny i j k)])

def yRec3 (nx ny i j k : Nat) : List Nat × List Int :=
  ([node3 nx ny i j k, node3 nx ny i j (k + 1), node3 nx ny (i + 1) j (k + 1), node3 nx ny (i + 1) j k],
   [before j (fun j => cell3 nx ny i j k), after j ny (fun j => cell3 nx ny i j k)])

def zRec3 (nx ny nz i j k : Nat) : List Nat × List Int :=
  ([node3 nx ny i j k, node3 nx ny (i + 1) j k, node3 nx ny (i + 1) (j + 1) k, node3 nx ny i (j + 1) k],
   [before k (fun k => cell3 nx ny i j k), after k nz (fun k => cell3 nx ny i j k)])

def faceRecs3 (nx ny nz : Nat) : List (List Nat × List Int) :=
  tab3 (nx + 1) ny nz (xRec3 nx ny) ++ tab3 nx (ny + 1) nz (yRec3 nx ny) ++ tab3 nx ny (nz + 1) (zRec3 nx ny nz)

theorem sides_eq (p n : Nat) (hn : 0 < n) (c : Nat → Nat) :
    [before p c, after p n c] = if p = 0 then [-1, (c p : Int)] else if p = n then [(c (p - 1) : Int), -1] else [(c (p - 1) : Int), (c p : Int)] := by
  unfold before after
  by_cases h : p = 0
  · subst h
    simp [(Nat.pos_iff_ne_zero.1 hn).symm]
  · by_cases h' : p = n
    · subst h'; simp [h]
    · simp [h, h']

theorem cellLoop3_ok {nx ny nz : Nat} {s : CellCur} (h : s.Rep (nx * ny * nz) 6 []) :
    ∃ s', cellLoop3 nx ny nz s = .ok s' ∧ s'.Rep (nx * ny * nz) 6 (tab3 nx ny nz (cellRec3 nx ny nz)) := by
  have := loop3_emit (fun s l => CellCur.Rep s (nx * ny * nz) 6 l) (nx * ny * nz) (a := nx) (b := ny) (c := nz)
    (body := fun i j k s => s.emit 6 (cellRec3 nx ny nz i j k)) (cellRec3 nx ny nz)
    (fun i j k _ _ _ s l h hc => CellCur.emit_rep _ rfl h hc) h (by simp)
  rw [List.nil_append] at this
  obtain ⟨s', e, r⟩ := this
  refine ⟨s', ?_, r⟩
  rw [← e]
  unfold cellLoop3 cellRec3 xface3 yface3 zface3
  simp only [Nat.add_comm, Nat.add_left_comm, Nat.add_assoc]

theorem xFaceLoop3_ok {nx ny nz nf : Nat} (hx : 0 < nx) {s : FaceCur} {l : List (List Nat × List Int)} (h : s.Rep nf 4 l)
    (hc : l.length + (nx + 1) * ny * nz ≤ nf) :
    ∃ s', xFaceLoop3 nx ny nz s = .ok s' ∧ s'.Rep nf 4 (l ++ tab3 (nx + 1) ny nz (xRec3 nx ny)) := by
  obtain ⟨s', e, r⟩ := loop3_emit (fun s l => FaceCur.Rep s nf 4 l) nf (a := nx + 1) (b := ny) (c := nz)
    (body := fun i j k s => s.emit 4 (xRec3 nx ny i j k).1 (xRec3 nx ny i j k).2) (xRec3 nx ny)
    (fun i j k _ _ _ s l h hc => FaceCur.emit_rep _ rfl rfl h hc) h hc
  refine ⟨s', ?_, r⟩
  rw [← e]
  unfold xFaceLoop3 xRec3
  simp only [sides_eq _ _ hx, cell3, node3]

theorem yFaceLoop3_ok {nx ny nz nf : Nat} (hy : 0 < ny) {s : FaceCur} {l : List (List Nat × List Int)} (h : s.Rep nf 4 l)
    (hc : l.length + nx * (ny + 1) * nz ≤ nf) :
    ∃ s', yFaceLoop3 nx ny nz s = .ok s' ∧ s'.Rep nf 4 (l ++ tab3 nx (ny + 1) nz (yRec3 nx ny)) := by
  obtain ⟨s', e, r⟩ := loop3_emit (fun s l => FaceCur.Rep s nf 4 l) nf (a := nx) (b := ny + 1) (c := nz)
    (body := fun i j k s => s.emit 4 (yRec3 nx ny i j k).1 (yRec3 nx ny i j k).2) (yRec3 nx ny)
    (fun i j k _ _ _ s l h hc => FaceCur.emit_rep _ rfl rfl h hc) h hc
  refine ⟨s', ?_, r⟩
  rw [← e]
  unfold yFaceLoop3 yRec3
  simp only [sides_eq _ _ hy, cell3, node3]

theorem zFaceLoop3_ok {nx ny nz nf : Nat} (hz : 0 < nz) {s : FaceCur} {l : List (List Nat × List Int)} (h : s.Rep nf 4 l)
    (hc : l.length + nx * ny * (nz + 1) ≤ nf) :
    ∃ s', zFaceLoop3 nx ny nz s = .ok s' ∧ s'.Rep nf 4 (l ++ tab3 nx ny (nz + 1) (zRec3 nx ny nz)) := by
  obtain ⟨s', e, r⟩ := loop3_emit (fun s l => FaceCur.Rep s nf 4 l) nf (a := nx) (b := ny) (c := nz + 1)
    (body := fun i j k s => s.emit 4 (zRec3 nx ny nz i j k).1 (zRec3 nx ny nz i j k).2) (zRec3 nx ny nz)
    (fun i j k _ _ _ s l h hc => FaceCur.emit_rep _ rfl rfl h hc) h hc
  refine ⟨s', ?_, r⟩
  rw [← e]
  unfold zFaceLoop3 zRec3
  simp only [sides_eq _ _ hz, cell3, node3]

/-- A loop that writes the row `row` for each `k`. -/
theorem tag_loop {n d : Nat} {row : List Nat} (hd : row.length = d) {body : Nat → List Nat → M (List Nat)}
    (hb : ∀ k t (pre : List Nat), pre.length = k * d → t.length = n * d → k < n → t.take pre.length = pre →
      ∃ t', body k t = .ok t' ∧ t'.length = n * d ∧ t'.take (pre ++ row).length = pre ++ row) {tag : List Nat} (ht : tag.length = n * d) :
    loop n body tag = .ok ((List.range n).flatMap fun _ => row) := by
  have hlen : ∀ k, ((List.range k).flatMap fun _ => row).length = k * d := by
    intro k
    rw [length_flatMap_const (d := d) (fun _ _ => hd), List.length_range]
  obtain ⟨t, e, h1, h2⟩ := loop_inv (n := n) (s := tag) (f := body)
    (fun k t => t.length = n * d ∧ t.take ((List.range k).flatMap fun _ => row).length = (List.range k).flatMap fun _ => row)
    ⟨ht, by simp⟩ (by
      rintro k t hk ⟨h1, h2⟩
      obtain ⟨t', e, h3, h4⟩ := hb k t _ (hlen k) h1 hk h2
      refine ⟨t', e, h3, ?_⟩
      have : ((List.range (k + 1)).flatMap fun _ => row) = ((List.range k).flatMap fun _ => row) ++ row := by
        rw [List.range_succ, List.flatMap_append]; simp
      rw [this]
      exact h4)
  rw [e]
  rw [hlen, List.take_of_length_le (by omega)] at h2
  rw [← h2]

theorem tagLoop3_ok {nx ny nz : Nat} {tag : List Nat} (ht : tag.length = nx * ny * nz * 6) :
    tagLoop3 nx ny nz tag = .ok ((List.range (nx * ny * nz)).flatMap fun _ => [0, 1, 2, 3, 4, 5]) := by
  unfold tagLoop3
  refine tag_loop rfl ?_ ht
  intro k t pre hp hl hk htake
  have hp : pre.length = k * 6 := hp
  have hkd : (k + 1) * 6 ≤ nx * ny * nz * 6 := Nat.mul_le_mul_right 6 hk
  obtain ⟨t', e, h1, h2⟩ := loop_inv (n := 6) (s := t) (f := fun i tag => wr tag (k * 6 + i) i)
    (fun i t => t.length = nx * ny * nz * 6 ∧ t.take (pre ++ List.range i).length = pre ++ List.range i) ⟨hl, by simpa using htake⟩ (by
      rintro i t hi ⟨h1, h2⟩
      obtain ⟨b, e, h3, h4⟩ := wr_elem (e := i) h2 h1 (by rw [List.length_append, List.length_range, hp]; omega)
      refine ⟨b, ?_, h3, ?_⟩
      · rw [List.length_append, List.length_range, hp] at e
        exact e
      · rw [List.range_succ, ← List.append_assoc]
        exact h4)
  exact ⟨t', e, h1, h2⟩

theorem posRep_start {buf : List Nat} {n d : Nat} (h : buf.length = n + 1) : ∃ b, wr buf 0 0 = .ok b ∧ (⟨b, 0⟩ : Cur Nat).PosRep (n + 1) d 0 := by
  refine ⟨buf.set 0 0, wr_ok (by omega), rfl, by simpa using h, ?_⟩
  cases buf with
  | nil => simp at h
  | cons a l => simp

theorem topology3d {junk : Junk} {nx ny nz : Nat} (hx : 0 < nx) (hy : 0 < ny) (hz : 0 < nz) :
    fillTopology3d (allocateCartGrid3d junk nx ny nz) = .ok { allocateCartGrid3d junk nx ny nz with
      cellFaces := (tab3 nx ny nz (cellRec3 nx ny nz)).flatMap id
      cellFacepos := (List.range (nx * ny * nz + 1)).map (fun i => 6 * i)
      cellFacetag := (List.range (nx * ny * nz)).flatMap fun _ => [0, 1, 2, 3, 4, 5]
      faceNodes := (faceRecs3 nx ny nz).flatMap (·.1)
      faceNodepos := (List.range ((nx + 1) * ny * nz + nx * (ny + 1) * nz + nx * ny * (nz + 1) + 1)).map (fun i => 4 * i)
      faceCells := (faceRecs3 nx ny nz).flatMap (·.2) } := by
  generalize hnf : (nx + 1) * ny * nz + nx * (ny + 1) * nz + nx * ny * (nz + 1) = nf
  obtain ⟨cp, ecp, rcp⟩ := posRep_start (buf := (allocateCartGrid3d junk nx ny nz).cellFacepos) (n := nx * ny * nz) (d := 6)
    (by simp [allocateCartGrid3d, allocateCartGrid, allocateGrid])
  obtain ⟨fp, efp, rfp⟩ := posRep_start (buf := (allocateCartGrid3d junk nx ny nz).faceNodepos) (n := nf) (d := 4)
    (by simp [allocateCartGrid3d, allocateCartGrid, allocateGrid, hnf])
  obtain ⟨c, ec, rc⟩ := cellLoop3_ok (nx := nx) (ny := ny) (nz := nz) (s := ⟨⟨(allocateCartGrid3d junk nx ny nz).cellFaces, 0⟩, ⟨cp, 0⟩⟩)
    ⟨⟨rfl, by simp [allocateCartGrid3d, allocateCartGrid, allocateGrid], rfl⟩, rcp, by simp⟩
  obtain ⟨s1, e1, r1⟩ := xFaceLoop3_ok (nx := nx) (ny := ny) (nz := nz) (nf := nf) hx (l := [])
    (s := ⟨⟨(allocateCartGrid3d junk nx ny nz).faceNodes, 0⟩, ⟨fp, 0⟩, ⟨(allocateCartGrid3d junk nx ny nz).faceCells, 0⟩⟩)
    ⟨⟨rfl, by simp [allocateCartGrid3d, allocateCartGrid, allocateGrid, hnf], rfl⟩, rfp,
      ⟨rfl, by simp [allocateCartGrid3d, allocateCartGrid, allocateGrid, hnf], rfl⟩, by simp⟩ (by simp only [List.length_nil]; omega)
  rw [List.nil_append] at r1
  obtain ⟨s2, e2, r2⟩ := yFaceLoop3_ok (nx := nx) (ny := ny) (nz := nz) hy r1 (by rw [length_tab3]; omega)
  obtain ⟨s3, e3, r3⟩ := zFaceLoop3_ok (nx := nx) (ny := ny) (nz := nz) hz r2 (by rw [List.length_append, length_tab3, length_tab3]; omega)
  have etag := tagLoop3_ok (nx := nx) (ny := ny) (nz := nz) (tag := (allocateCartGrid3d junk nx ny nz).cellFacetag)
    (by simp [allocateCartGrid3d, allocateCartGrid, allocateGrid])
  have hlen3 : (faceRecs3 nx ny nz).length = nf := by
    unfold faceRecs3
    rw [List.length_append, List.length_append, length_tab3, length_tab3, length_tab3, hnf]
  obtain ⟨rc1, rc2, rc3⟩ := rc
  obtain ⟨r31, r32, r33, r34⟩ := r3
  have hc1 := Cur.rep_full rc1 (by rw [length_flatMap_const (f := id) (d := 6) rc3, length_tab3])
  rw [length_tab3] at rc2
  have hc2 := Cur.posRep_full rc2 rfl
  have hf1 := Cur.rep_full r31 (by rw [length_flatMap_const (d := 4) (fun x hx => (r34 x hx).1)]; unfold faceRecs3 at hlen3; rw [hlen3])
  have hf2 := Cur.posRep_full r32 (by unfold faceRecs3 at hlen3; rw [hlen3])
  have hf3 := Cur.rep_full r33 (by rw [length_flatMap_const (d := 2) (fun x hx => (r34 x hx).2)]; unfold faceRecs3 at hlen3; rw [hlen3, Nat.mul_comm])
  unfold faceRecs3 at hlen3
  rw [hlen3] at hf2
  unfold fillTopology3d
  have hd : (allocateCartGrid3d junk nx ny nz).cartdims = (nx, ny, nz) := rfl
  simp only [hd]
  rw [ecp, bind_ok, ec, bind_ok, etag, bind_ok, efp, bind_ok, e1, bind_ok, e2, bind_ok, e3, bind_ok, hc1, hc2, hf1, hf2, hf3]
  rfl

/-! ### Geometry in three dimensions -/

def cellGeoRec3 (X Y Z : Nat → Rat) (i j k : Nat) : List Rat × Rat := ([mid X i, mid Y j, mid Z k], len X i * len Y j * len Z k)
def xGeoRec3 (X Y Z : Nat → Rat) (i j k : Nat) : List Rat × List Rat × Rat := ([len Y j * len Z k, 0, 0], [X i, mid Y j, mid Z k], len Y j * len Z k)
def yGeoRec3 (X Y Z : Nat → Rat) (i j k : Nat) : List Rat × List Rat × Rat := ([0, len X i * len Z k, 0], [mid X i, Y j, mid Z k], len X i * len Z k)
def zGeoRec3 (X Y Z : Nat → Rat) (i j k : Nat) : List Rat × List Rat × Rat := ([0, 0, len X i * len Y j], [mid X i, mid Y j, Z k], len X i * len Y j)

def faceGeoRecs3 (nx ny nz : Nat) (X Y Z : Nat → Rat) : List (List Rat × List Rat × Rat) :=
  tab3 (nx + 1) ny nz (xGeoRec3 X Y Z) ++ tab3 nx (ny + 1) nz (yGeoRec3 X Y Z) ++ tab3 nx ny (nz + 1) (zGeoRec3 X Y Z)

/-- The list `x` holds the values `X 0, …, X n`. -/
def Holds (x : List Rat) (n : Nat) (X : Nat → Rat) : Prop := ∀ i, i ≤ n → x[i]? = some (X i)

theorem Holds.rd {x : List Rat} {n : Nat} {X : Nat → Rat} (h : Holds x n X) {i : Nat} (hi : i ≤ n) : rd x i = .ok (X i) := rd_of_getElem? (h i hi)

theorem cellGeoLoop3_ok {nx ny nz : Nat} {x y z : List Rat} {X Y Z : Nat → Rat} (hx : Holds x nx X) (hy : Holds y ny Y) (hz : Holds z nz Z)
    {s : CellGeoCur} (h : s.Rep (nx * ny * nz) 3 []) :
    ∃ s', cellGeoLoop3 nx ny nz x y z s = .ok s' ∧ s'.Rep (nx * ny * nz) 3 (tab3 nx ny nz (cellGeoRec3 X Y Z)) := by
  have := loop3_emit (fun s l => CellGeoCur.Rep s (nx * ny * nz) 3 l) (nx * ny * nz) (a := nx) (b := ny) (c := nz)
    (body := fun i j k s => do
      let x0 ← rd x i
      let x1 ← rd x (i + 1)
      let y0 ← rd y j
      let y1 ← rd y (j + 1)
      let z0 ← rd z k
      let z1 ← rd z (k + 1)
      s.emit [(x0 + x1) / 2, (y0 + y1) / 2, (z0 + z1) / 2] ((x1 - x0) * (y1 - y0) * (z1 - z0))) (cellGeoRec3 X Y Z)
    (by
      intro i j k hi hj hk s l h hc
      simp only [hx.rd (i := i) (by omega), hx.rd (i := i + 1) (by omega), hy.rd (i := j) (by omega), hy.rd (i := j + 1) (by omega),
        hz.rd (i := k) (by omega), hz.rd (i := k + 1) (by omega), bind_ok]
      exact CellGeoCur.emit_rep (cellGeoRec3 X Y Z i j k) rfl h hc) h (by simp)
  rw [List.nil_append] at this
  exact this

theorem xFaceGeoLoop3_ok {nx ny nz nf : Nat} {x y z : List Rat} {X Y Z : Nat → Rat} (hx : Holds x nx X) (hy : Holds y ny Y) (hz : Holds z nz Z)
    {s : FaceGeoCur} {l : List (List Rat × List Rat × Rat)} (h : s.Rep nf 3 l) (hc : l.length + (nx + 1) * ny * nz ≤ nf) :
    ∃ s', xFaceGeoLoop3 nx ny nz x y z s = .ok s' ∧ s'.Rep nf 3 (l ++ tab3 (nx + 1) ny nz (xGeoRec3 X Y Z)) := by
  refine loop3_emit (fun s l => FaceGeoCur.Rep s nf 3 l) nf (a := nx + 1) (b := ny) (c := nz)
    (body := fun i j k s => do
      let x0 ← rd x i
      let y0 ← rd y j
      let y1 ← rd y (j + 1)
      let z0 ← rd z k
      let z1 ← rd z (k + 1)
      s.emit [(y1 - y0) * (z1 - z0), 0, 0] [x0, (y0 + y1) / 2, (z0 + z1) / 2] ((y1 - y0) * (z1 - z0))) (xGeoRec3 X Y Z) ?_ h hc
  intro i j k hi hj hk s l h hc
  simp only [hx.rd (i := i) (by omega), hy.rd (i := j) (by omega), hy.rd (i := j + 1) (by omega),
    hz.rd (i := k) (by omega), hz.rd (i := k + 1) (by omega), bind_ok]
  exact FaceGeoCur.emit_rep (xGeoRec3 X Y Z i j k) rfl rfl h hc

theorem yFaceGeoLoop3_ok {nx ny nz nf : Nat} {x y z : List Rat} {X Y Z : Nat → Rat} (hx : Holds x nx X) (hy : Holds y ny Y) (hz : Holds z nz Z)
    {s : FaceGeoCur} {l : List (List Rat × List Rat × Rat)} (h : s.Rep nf 3 l) (hc : l.length + nx * (ny + 1) * nz ≤ nf) :
    ∃ s', yFaceGeoLoop3 nx ny nz x y z s = .ok s' ∧ s'.Rep nf 3 (l ++ tab3 nx (ny + 1) nz (yGeoRec3 X Y Z)) := by
  refine loop3_emit (fun s l => FaceGeoCur.Rep s nf 3 l) nf (a := nx) (b := ny + 1) (c := nz)
    (body := fun i j k s => do
      let x0 ← rd x i
      let x1 ← rd x (i + 1)
      let y0 ← rd y j
      let z0 ← rd z k
      let z1 ← rd z (k + 1)
      s.emit [0, (x1 - x0) * (z1 - z0), 0] [(x0 + x1) / 2, y0, (z0 + z1) / 2] ((x1 - x0) * (z1 - z0))) (yGeoRec3 X Y Z) ?_ h hc
  intro i j k hi hj hk s l h hc
  simp only [hx.rd (i := i) (by omega), hx.rd (i := i + 1) (by omega), hy.rd (i := j) (by omega),
    hz.rd (i := k) (by omega), hz.rd (i := k + 1) (by omega), bind_ok]
  exact FaceGeoCur.emit_rep (yGeoRec3 X Y Z i j k) rfl rfl h hc

theorem zFaceGeoLoop3_ok {nx ny nz nf : Nat} {x y z : List Rat} {X Y Z : Nat → Rat} (hx : Holds x nx X) (hy : Holds y ny Y) (hz : Holds z nz Z)
    {s : FaceGeoCur} {l : List (List Rat × List Rat × Rat)} (h : s.Rep nf 3 l) (hc : l.length + nx * ny * (nz + 1) ≤ nf) :
    ∃ s', zFaceGeoLoop3 nx ny nz x y z s = .ok s' ∧ s'.Rep nf 3 (l ++ tab3 nx ny (nz + 1) (zGeoRec3 X Y Z)) := by
  refine loop3_emit (fun s l => FaceGeoCur.Rep s nf 3 l) nf (a := nx) (b := ny) (c := nz + 1)
    (body := fun i j k s => do
      let x0 ← rd x i
      let x1 ← rd x (i + 1)
      let y0 ← rd y j
      let y1 ← rd y (j + 1)
      let z0 ← rd z k
      s.emit [0, 0, (x1 - x0) * (y1 - y0)] [(x0 + x1) / 2, (y0 + y1) / 2, z0] ((x1 - x0) * (y1 - y0))) (zGeoRec3 X Y Z) ?_ h hc
  intro i j k hi hj hk s l h hc
  simp only [hx.rd (i := i) (by omega), hx.rd (i := i + 1) (by omega), hy.rd (i := j) (by omega), hy.rd (i := j + 1) (by omega),
    hz.rd (i := k) (by omega), bind_ok]
  exact FaceGeoCur.emit_rep (zGeoRec3 X Y Z i j k) rfl rfl h hc

theorem nodeLoop3_ok {nx ny nz : Nat} {x y z : List Rat} {X Y Z : Nat → Rat} (hx : Holds x nx X) (hy : Holds y ny Y) (hz : Holds z nz Z)
    {s : Cur Rat} (h : coordRep 3 ((nx + 1) * (ny + 1) * (nz + 1)) s []) :
    ∃ s', nodeLoop3 nx ny nz x y z s = .ok s' ∧
      coordRep 3 ((nx + 1) * (ny + 1) * (nz + 1)) s' (tab3 (nx + 1) (ny + 1) (nz + 1) (fun i j k => [X i, Y j, Z k])) := by
  have := loop3_emit (coordRep 3 ((nx + 1) * (ny + 1) * (nz + 1))) ((nx + 1) * (ny + 1) * (nz + 1)) (a := nx + 1) (b := ny + 1) (c := nz + 1)
    (body := fun i j k s => do
      let x0 ← rd x i
      let y0 ← rd y j
      let z0 ← rd z k
      s.puts [x0, y0, z0]) (fun i j k => [X i, Y j, Z k])
    (by
      intro i j k hi hj hk s l h hc
      simp only [hx.rd (i := i) (by omega), hy.rd (i := j) (by omega), hz.rd (i := k) (by omega), bind_ok]
      exact coord_rep _ rfl h hc) h (by simp)
  rw [List.nil_append] at this
  exact this

theorem geometry3d {G : Grid} {nx ny nz nf : Nat} {x y z : List Rat} {X Y Z : Nat → Rat} (hx : Holds x nx X) (hy : Holds y ny Y) (hz : Holds z nz Z)
    (hd : G.cartdims = (nx, ny, nz)) (hnf : nf = (nx + 1) * ny * nz + nx * (ny + 1) * nz + nx * ny * (nz + 1))
    (h1 : G.cellCentroids.length = nx * ny * nz * 3) (h2 : G.cellVolumes.length = nx * ny * nz) (h3 : G.faceNormals.length = nf * 3)
    (h4 : G.faceCentroids.length = nf * 3) (h5 : G.faceAreas.length = nf) (h6 : G.nodeCoord.length = (nx + 1) * (ny + 1) * (nz + 1) * 3) :
    fillGeometry3d G x y z = .ok { G with
      cellCentroids := (tab3 nx ny nz (cellGeoRec3 X Y Z)).flatMap (·.1)
      cellVolumes := (tab3 nx ny nz (cellGeoRec3 X Y Z)).map (·.2)
      faceNormals := (faceGeoRecs3 nx ny nz X Y Z).flatMap (·.1)
      faceCentroids := (faceGeoRecs3 nx ny nz X Y Z).flatMap (·.2.1)
      faceAreas := (faceGeoRecs3 nx ny nz X Y Z).map (·.2.2)
      nodeCoord := (tab3 (nx + 1) (ny + 1) (nz + 1) (fun i j k => [X i, Y j, Z k])).flatMap id } := by
  obtain ⟨c, ec, rc1, rc2, rc3⟩ := cellGeoLoop3_ok hx hy hz (s := ⟨⟨G.cellCentroids, 0⟩, ⟨G.cellVolumes, 0⟩⟩)
    ⟨⟨rfl, h1, rfl⟩, ⟨rfl, h2, rfl⟩, by simp⟩
  obtain ⟨s1, e1, r1⟩ := xFaceGeoLoop3_ok hx hy hz (nf := nf) (l := []) (s := ⟨⟨G.faceNormals, 0⟩, ⟨G.faceCentroids, 0⟩, ⟨G.faceAreas, 0⟩⟩)
    ⟨⟨rfl, h3, rfl⟩, ⟨rfl, h4, rfl⟩, ⟨rfl, h5, rfl⟩, by simp⟩ (by simp only [List.length_nil]; omega)
  rw [List.nil_append] at r1
  obtain ⟨s2, e2, r2⟩ := yFaceGeoLoop3_ok hx hy hz r1 (by rw [length_tab3]; omega)
  obtain ⟨s3, e3, r31, r32, r33, r34⟩ := zFaceGeoLoop3_ok hx hy hz r2 (by rw [List.length_append, length_tab3, length_tab3]; omega)
  obtain ⟨n, en, rn1, rn2⟩ := nodeLoop3_ok hx hy hz (s := ⟨G.nodeCoord, 0⟩) ⟨⟨rfl, h6, rfl⟩, by simp⟩
  have hlen3 : (faceGeoRecs3 nx ny nz X Y Z).length = nf := by
    unfold faceGeoRecs3
    rw [List.length_append, List.length_append, length_tab3, length_tab3, length_tab3, hnf]
  unfold faceGeoRecs3 at hlen3
  have g1 := Cur.rep_full rc1 (by rw [length_flatMap_const (d := 3) rc3, length_tab3])
  have g2 := Cur.rep_full rc2 (by rw [List.length_map, length_tab3])
  have g3 := Cur.rep_full r31 (by rw [length_flatMap_const (d := 3) (fun x hx => (r34 x hx).1), hlen3])
  have g4 := Cur.rep_full r32 (by rw [length_flatMap_const (d := 3) (fun x hx => (r34 x hx).2), hlen3])
  have g5 := Cur.rep_full r33 (by rw [List.length_map, hlen3])
  have g6 := Cur.rep_full rn1 (by rw [length_flatMap_const (f := id) (d := 3) rn2, length_tab3])
  unfold fillGeometry3d
  simp only [hd]
  rw [ec, bind_ok, e1, bind_ok, e2, bind_ok, e3, bind_ok, en, bind_ok, g1, g2, g3, g4, g5, g6]
  rfl

end Opm.Cart
