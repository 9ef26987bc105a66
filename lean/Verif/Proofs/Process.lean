import Verif.Proofs.Orientation
/-!
# The whole of `process_grdecl`
-/

namespace Opm.Cpg
open Opm UniquePoints

section
variable {nx ny nz np : Nat} {plist : List Int} {col : Nat → Nat → Nat → Int} {act : Nat → Nat → Nat → Prop} {start : Nat → Nat}

theorem side_quads (h : Columns nx ny nz np plist col act start) (hx : 0 < nx) (hy : 0 < ny) {pt : Nat → Pt}
    (hz : ∀ q k l, q < (nx + 1) * (ny + 1) → start q ≤ k → k < l → l < start (q + 1) → (pt k).z < (pt l).z)
    {ps : List (Nat × Nat × Nat)} {fs : List Face} {ts : List Nat} {qs : List (List Int)} (hsf : SideFaces nx ny nz np col ps fs ts qs)
    (hp : ∀ c ∈ ps, IsPair nx ny c.1 c.2.1 c.2.2) : ∀ q ∈ qs, GoodQuad np pt q := by
  induction hsf with
  | nil => intro q hq; cases hq
  | @snoc ps fs ts qs dir i j gs xs _ hc ih =>
    intro q hq
    rcases List.mem_append.1 hq with hq | hq
    · exact ih (fun c hc => hp c (List.mem_append_left _ hc)) q hq
    · have hpair : IsPair nx ny dir i j := hp (dir, i, j) (by simp)
      obtain ⟨K, L, hK, hL, hcr, rfl⟩ := hc.cross q hq
      obtain ⟨⟨k0, e0, a0, b0⟩, ⟨k1, e1, a1, b1⟩, ⟨k2, e2, a2, b2⟩, ⟨k3, e3, a3, b3⟩⟩ := h.crossNum hx hy hpair hK hL hcr
      obtain ⟨q1, q2, _⟩ := pairPillars_lt hpair
      have hle : ∀ q, q < (nx + 1) * (ny + 1) → start (q + 1) ≤ np := by
        intro q hq
        rw [← h.total]
        exact start_mono h.mono' (by omega) (Nat.le_refl _)
      have l1 := hle _ q1
      have l2 := hle _ q2
      refine ⟨k0, k1, k2, k3, by unfold quad; rw [e0, e1, e2, e3], by omega, by omega, by omega, by omega, ?_⟩
      unfold Cross at hcr
      rw [e0, e1, e2, e3] at hcr
      rcases hcr with ⟨c1, c2⟩ | ⟨c1, c2⟩
      · exact Or.inl ⟨hz _ k0 k2 q1 a0 (by omega) b2, hz _ k3 k1 q2 a3 (by omega) b1⟩
      · exact Or.inr ⟨hz _ k2 k0 q1 a2 (by omega) b0, hz _ k1 k3 q2 a1 (by omega) b3⟩

theorem side_simple (h : Columns nx ny nz np plist col act start) (hx : 0 < nx) (hy : 0 < ny) {ps : List (Nat × Nat × Nat)} {fs : List Face} {ts : List Nat}
    {qs : List (List Int)} (hsf : SideFaces nx ny nz np col ps fs ts qs) (hp : ∀ c ∈ ps, IsPair nx ny c.1 c.2.1 c.2.2) :
    ∀ f ∈ fs, f.nodes.Nodup ∧ 3 ≤ f.nodes.length ∧ f.nodes.length ≤ 6 := by
  induction hsf with
  | nil => intro q hq; cases hq
  | @snoc ps fs ts qs dir i j gs xs _ hc ih =>
    intro f hf
    rcases List.mem_append.1 hf with hf | hf
    · exact ih (fun c hc => hp c (List.mem_append_left _ hc)) f hf
    · have hpair : IsPair nx ny dir i j := hp (dir, i, j) (by simp)
      obtain ⟨g, hg, rfl⟩ := List.mem_map.1 hf
      exact simple_faces (h.lowOk hx hy hpair) (h.highOk hx hy hpair) (h.separate hx hy hpair (by omega)) hc g hg

theorem top_ring {ps : List (Nat × Nat)} {gs : List Face} (h : TopFaces nx ny nz col ps gs) : ∀ f ∈ gs, f.nodes.length = 4 := by
  induction h with
  | nil => intro f hf; cases hf
  | @snoc ps fs i j gs _ hs ih =>
    intro f hf
    rcases List.mem_append.1 hf with hf | hf
    · exact ih f hf
    · obtain ⟨_, _, _, rfl⟩ := hs
      obtain ⟨x, _, rfl⟩ := List.mem_map.1 hf
      rfl

theorem mem_pairs {c : Nat × Nat × Nat} (h : c ∈ pairsOf nx ny 0 ++ pairsOf nx ny 1) : IsPair nx ny c.1 c.2.1 c.2.2 := by
  rcases List.mem_append.1 h with h | h
  · exact (mem_pairsOf (by omega) h).2
  · exact (mem_pairsOf (by omega) h).2

end

theorem faceNodes_stored (cells : List Nat) (fs : List Face) : faceNodes (fs.map (Face.renumber cells)) = faceNodes fs := by
  unfold faceNodes
  rw [List.flatMap_map]
  rfl

theorem faceNbrs_reversed (fs : List Face) : faceNbrs (fs.map Face.reversed) = faceNbrs fs := by
  unfold faceNbrs
  rw [List.flatMap_map]
  rfl

theorem stored_pos (cells : List Nat) {flip : Prop} [Decidable flip] (h : flip) (fs : List Face) : stored cells flip fs = (fs.map (Face.renumber cells)).map Face.reversed := by
  unfold stored
  rw [List.map_map]
  apply List.map_congr_left
  intro f _
  rw [if_pos h]
  rfl

theorem stored_neg (cells : List Nat) {flip : Prop} [Decidable flip] (h : ¬ flip) (fs : List Face) : stored cells flip fs = fs.map (Face.renumber cells) := by
  unfold stored
  apply List.map_congr_left
  intro f _
  rw [if_neg h]

theorem facePtr_congr {fs gs : List Face} (hl : fs.length = gs.length) (h : ∀ k, (faceNodes (fs.take k)).length = (faceNodes (gs.take k)).length) : facePtr fs = facePtr gs := by
  unfold facePtr
  rw [hl]
  exact List.map_congr_left (fun k _ => h k)

theorem facePtr_renumber (cells : List Nat) (fs : List Face) : facePtr (fs.map (Face.renumber cells)) = facePtr fs :=
  facePtr_congr (List.length_map _) (fun k => by rw [← List.map_take, faceNodes_stored])

theorem facePtr_reversed (fs : List Face) : facePtr (fs.map Face.reversed) = facePtr fs :=
  facePtr_congr (List.length_map _) (fun k => by rw [← List.map_take, length_reversed])

theorem CrossPoint.scale {p0 p1 p2 p3 p : Pt} (h : CrossPoint p0 p1 p2 p3 p) (d : Nat) (f : Rat) : CrossPoint (p0.scale d f) (p1.scale d f) (p2.scale d f) (p3.scale d f) (p.scale d f) := by
  obtain ⟨a, b, c, h1, h2, h3, h4, h5, h6, h7, h8⟩ := h
  refine ⟨a, b, c, h1, h2, ?_⟩
  unfold Pt.scale
  split
  · refine ⟨h3, h4, h5, h6, ?_, h8⟩
    show f * p.x = _
    rw [h7]; ring
  · split
    · refine ⟨h3, h4, h5, h6, h7, ?_⟩
      show f * p.y = _
      rw [h8]; ring
    · refine ⟨?_, ?_, ?_, ?_, h7, h8⟩
      · show f * p.z = _
        rw [h3]; ring
      · show f * p.z = _
        rw [h4]; ring
      · show f * p.z = _
        rw [h5]; ring
      · show f * p.z = _
        rw [h6]; ring

theorem scale_scale (d : Nat) (p : Pt) : (p.scale d (-1)).scale d (-1) = p := by
  unfold Pt.scale
  cases p
  split
  · simp
  · split <;> simp

/-- Maybe a reflection. -/
theorem maybeScale_ok {d nn : Nat} (hd : d < 3) (b : Bool) (f : Rat) {c : List Rat} (hl : 3 * nn ≤ c.length) :
    ∃ c', (if b then scaleCoord d f nn c else .ok c) = .ok c' ∧ c'.length = c.length ∧ ∀ k, k < nn → ptOf c' k = if b then (ptOf c k).scale d f else ptOf c k := by
  cases b with
  | true =>
    obtain ⟨c', e, h1, h2⟩ := scaleCoord_ok hd f hl
    exact ⟨c', by simpa using e, h1, fun k hk => by simpa using h2 k hk⟩
  | false => exact ⟨c, rfl, rfl, fun k hk => rfl⟩

section
variable {inp : Input} {tol : Rat}

theorem PillarPoints.congr {s : Int} {col : Nat → Nat → Nat → Int} {start : Nat → Nat} {pt pt' : Nat → Pt} {np : Nat} (h : PillarPoints inp s tol col start pt)
    (hle : ∀ q, q < (inp.nx + 1) * (inp.ny + 1) → start (q + 1) ≤ np) (he : ∀ k, k < np → pt k = pt' k) : PillarPoints inp s tol col start pt' := by
  refine ⟨?_, ?_, ?_, ?_⟩
  · intro q k hq h1 h2
    have := hle q hq
    rw [← he k (by omega), ← he (k + 1) (by omega)]
    exact h.apart q k hq h1 h2
  · intro q k hq h1 h2
    have := hle q hq
    rw [← he k (by omega)]
    exact h.line q k hq h1 h2
  · intro q k hq h1 h2
    have := hle q hq
    rw [← he k (by omega)]
    exact h.mem q k hq h1 h2
  · intro I J K hI hJ hK ha
    obtain ⟨k, e, h1, h2, h3⟩ := h.corner I J K hI hJ hK ha
    have := hle (pillarAt inp.nx I J) (idx2_lt (by omega) (by omega))
    refine ⟨k, e, h1, h2, ?_⟩
    rw [← he k (by omega)]
    intro hsort
    obtain ⟨d1, d2, d3⟩ := h3 hsort
    refine ⟨d1, d2, fun m hm1 hm2 => ?_⟩
    rw [← he m (by omega)]
    exact d3 m hm1 hm2

/-- What `process_grdecl` computes. -/
theorem processGrdecl_ok (J : Junk) (h : inp.Ok) (ht : 0 ≤ tol) (hsmall : (8 * (inp.nx * inp.ny * inp.nz) : Nat) ≤ intMax) (hdir : inp.Downward 1 ∨ inp.Downward (-1))
    (hthick : ∃ i j k, i < inp.nx ∧ j < inp.ny ∧ k < inp.nz ∧ inp.Active i j k ∧ inp.Thick i j k) (harea : inp.area ≠ 0) :
    ∃ s np start col plist pt, (s = 1 ∧ inp.Downward 1 ∨ s = -1 ∧ ¬ inp.Downward 1 ∧ inp.Downward (-1)) ∧ Columns inp.nx inp.ny inp.nz np plist col inp.Active start ∧
      PillarPoints inp s tol col start pt ∧
      ((∀ dir i j, IsPair inp.nx inp.ny dir i j → Tame (lowStack col dir i j) (highStack inp.nx inp.ny col dir i j) (2 * inp.nz + 2)) ∨ (∃ out, processGrdecl J inp tol = .ok out) →
        ∃ out fs ts qs gs, processGrdecl J inp tol = .ok out ∧ GridOf inp tol out s np start col fs ts qs gs) := by
  obtain ⟨r, s, start, e1, hs, hst0, hnl, hcols, hpp⟩ := points_ok h ht hsmall J hdir
  have hs' : s = 1 ∨ s = -1 := hs.imp (fun x => x.1) (fun x => x.1)
  refine ⟨s, r.numNodes, start, colOf inp.nx inp.nz r.plist, r.plist, _, hs, hcols, hpp, ?_⟩
  intro htame
  have hx := h.nx
  have hy := h.ny
  have hz := h.nz
  have hle : ∀ q, q < (inp.nx + 1) * (inp.ny + 1) → start (q + 1) ≤ r.numNodes := by
    intro q hq
    rw [← hcols.total]
    exact start_mono hcols.mono' (by omega) (Nat.le_refl _)
  have e2 := isLefthanded_ok h hs' (by rcases hs with ⟨rfl, hh⟩ | ⟨rfl, _, hh⟩ <;> exact hh) hthick harea
  generalize hlh : decide ((s : Rat) * inp.area < 0) = lh at e2
  obtain ⟨c1, e3, hl1, hc1⟩ := maybeScale_ok (d := 1) (by omega) lh (-1) hnl
  obtain ⟨g', g'', fs, ts, qs, e4, e5, hg, hnp, hsf⟩ := sides_ok J hcols hx hy hz (htame.imp id (by
    rintro ⟨out, e⟩
    unfold processGrdecl at e
    simp only [e1, bind_ok, e2] at e
    have : ∃ v, faces J r.plist r.numNodes inp.nx inp.ny inp.nz = .ok v := by
      cases lh with
      | true =>
        rw [if_pos rfl] at e
        obtain ⟨_, _, e⟩ := bind_eq_ok.1 e
        obtain ⟨v, hv, _⟩ := bind_eq_ok.1 e
        exact ⟨v, hv⟩
      | false =>
        rw [if_neg (by decide)] at e
        try rw [bind_ok] at e
        obtain ⟨v, hv, _⟩ := bind_eq_ok.1 e
        exact ⟨v, hv⟩
    obtain ⟨v, hv⟩ := this
    unfold faces at hv
    obtain ⟨t, k1, hv⟩ := bind_eq_ok.1 hv
    obtain ⟨u, k2, _⟩ := bind_eq_ok.1 hv
    exact ⟨t, u, k1, k2⟩))
  obtain ⟨gs, g3, loc, htop, e6, hg3, hnp3, hll, hloc⟩ := horizontalFaces_ok J hcols hg (cell := realloc J.i [] (inp.nx * inp.ny * inp.nz)) (length_realloc ..)
  have efaces : faces J r.plist r.numNodes inp.nx inp.ny inp.nz = .ok (g3, loc, (List.range (inp.nx * inp.ny * inp.nz)).countP (fun c => decide (Solid inp.nx inp.ny (colOf inp.nx inp.nz r.plist) c))) := by
    unfold faces
    simp only
    rw [e4, bind_ok, e5, bind_ok, e6]
  have hnp3' : g3.np = r.numNodes := by rw [hnp3, hnp]
  -- crossings
  have hz1 : ∀ q k l, q < (inp.nx + 1) * (inp.ny + 1) → start q ≤ k → k < l → l < start (q + 1) → (ptOf c1 k).z < (ptOf c1 l).z := by
    have hzz : ∀ k, k < r.numNodes → (ptOf c1 k).z = (ptOf r.nodes k).z := by
      intro k hk
      rw [hc1 k hk]
      split <;> rfl
    intro q k l hq h1 h2 h3
    have hlq := hle q hq
    rw [hzz k (by omega), hzz l (by omega)]
    induction l with
    | zero => omega
    | succ l ih =>
      have hap := hpp.apart q l hq (by omega) h3
      have hap' : (s : Rat) * (s * (ptOf r.nodes l).z) + tol < s * (s * (ptOf r.nodes (l + 1)).z) := hap
      rw [sign_mul hs', sign_mul hs'] at hap'
      rcases Nat.lt_or_ge k l with hkl | hkl
      · have := ih hkl (by omega)
        linarith
      · obtain rfl : k = l := by omega
        linarith
  have hquads := side_quads hcols hx hy hz1 hsf (fun c hc => mem_pairs hc)
  obtain ⟨c2, e7, hl2, hc2, hcross⟩ := intersectionCoordinates_ok J (its := g3.its) (np := g3.np) (nn := g3.nn) (coords := c1) (qs := qs) (by rw [hl1, hnp3']; exact hnl)
    hg3.its hg3.nn (by rw [hnp3']; exact hquads)
  rw [hnp3'] at hc2 hcross
  -- cells
  obtain ⟨glob, loc', e8, hgl, hll', hglob, hloc'⟩ := numberCells_ok (P := Solid inp.nx inp.ny (colOf inp.nx inp.nz r.plist)) hll
    (glob := realloc J.i [] (inp.nx * inp.ny * inp.nz)) (length_realloc ..) (fun c hc => by
      obtain ⟨v, h1, _, h2⟩ := hloc c hc
      exact ⟨v, h1, h2⟩)
  have hgood : ∀ f ∈ fs ++ gs, GoodFace inp.nx inp.ny inp.nz (colOf inp.nx inp.nz r.plist) f := by
    intro f hf
    rcases List.mem_append.1 hf with hf | hf
    · exact sideFaces_good hcols hx hy hsf (fun c hc => mem_pairs hc) f hf
    · exact topFaces_good htop (fun c hc => mem_columnsOf.1 hc) f hf
  obtain ⟨nbr, e9, hnl9, hnbr⟩ := renumber_ok hgood hll' (by
    have := hg3.clen
    have := hg3.fits
    omega) hg3.nbr hloc'
  rw [← hg3.nf] at e9
  -- reflections back
  obtain ⟨c3, e10, hl3, hc3⟩ := maybeScale_ok (d := 1) (nn := g3.nn) (by omega) lh (-1) (c := c2) (by omega)
  obtain ⟨c4, e11, hl4, hc4⟩ : ∃ c4, (if s = -1 then scaleCoord 2 s g3.nn c3 else .ok c3) = .ok c4 ∧ c4.length = c3.length ∧ ∀ k, k < g3.nn → ptOf c4 k = (ptOf c3 k).scale 2 s := by
    rcases hs' with rfl | rfl
    · refine ⟨c3, rfl, rfl, fun k _ => ?_⟩
      unfold Pt.scale
      simp
    · obtain ⟨c', e, g1, g2⟩ := scaleCoord_ok (d := 2) (nn := g3.nn) (by omega) ((-1 : Int) : Rat) (c := c3) (by omega)
      exact ⟨c', by rw [if_pos rfl]; exact e, g1, g2⟩
  have hxor : xor lh (decide (s = -1)) = decide (inp.area < 0) := by
    rw [← hlh]
    rcases hs' with rfl | rfl
    · simp
    · by_cases ha : inp.area < 0
      · have : ¬ 0 < inp.area := not_lt.2 (le_of_lt ha)
        simp [ha, this]
      · have : 0 < inp.area := lt_of_le_of_ne (not_lt.1 ha) (Ne.symm harea)
        simp [ha, this]
  have hne : ∀ f ∈ fs ++ gs, f.nodes ≠ [] := by
    intro f hf e
    rcases List.mem_append.1 hf with hf | hf
    · have := (side_simple hcols hx hy hsf (fun c hc => mem_pairs hc) f hf).2.1
      rw [e] at this
      simp at this
    · have := top_ring htop f hf
      rw [e] at this
      simp at this
  have hst : ∃ nodes', (if xor lh (decide (s = -1)) then reverseFaceNodes g3.nf g3.ptr g3.nodes else .ok g3.nodes) = .ok nodes' ∧
      nodes'.take (faceNodes (fs ++ gs)).length = faceNodes (stored (solidCells inp.nx inp.ny inp.nz (colOf inp.nx inp.nz r.plist)) (inp.area < 0) (fs ++ gs)) := by
    rw [hxor]
    by_cases ha : inp.area < 0
    · rw [decide_eq_true ha]
      obtain ⟨l, e, _, g2⟩ := reverseFaceNodes_ok hg3.ptr hg3.nodes hne
      rw [← hg3.nf] at e
      refine ⟨l, by simpa using e, ?_⟩
      rw [stored_pos _ ha]
      have : faceNodes (((fs ++ gs).map (Face.renumber (solidCells inp.nx inp.ny inp.nz (colOf inp.nx inp.nz r.plist)))).map Face.reversed) = faceNodes ((fs ++ gs).map Face.reversed) := by
        unfold faceNodes
        rw [List.flatMap_map, List.flatMap_map, List.flatMap_map]
        rfl
      rw [this, ← g2, length_reversed]
    · rw [decide_eq_false ha]
      refine ⟨g3.nodes, rfl, ?_⟩
      rw [stored_neg _ ha, faceNodes_stored, hg3.nodes]
  obtain ⟨nodes', e12, hnodes⟩ := hst
  have hptr : facePtr (stored (solidCells inp.nx inp.ny inp.nz (colOf inp.nx inp.nz r.plist)) (inp.area < 0) (fs ++ gs)) = facePtr (fs ++ gs) := by
    by_cases ha : inp.area < 0
    · rw [stored_pos _ ha, facePtr_reversed, facePtr_renumber]
    · rw [stored_neg _ ha, facePtr_renumber]
  have hnbrs : faceNbrs (stored (solidCells inp.nx inp.ny inp.nz (colOf inp.nx inp.nz r.plist)) (inp.area < 0) (fs ++ gs)) =
      faceNbrs ((fs ++ gs).map (Face.renumber (solidCells inp.nx inp.ny inp.nz (colOf inp.nx inp.nz r.plist)))) := by
    by_cases ha : inp.area < 0
    · rw [stored_pos _ ha, faceNbrs_reversed]
    · rw [stored_neg _ ha]
  have hpt : ∀ k, k < r.numNodes → ptOf c4 k = ⟨(ptOf r.nodes k).x, (ptOf r.nodes k).y, s * (ptOf r.nodes k).z⟩ := by
    intro k hk
    have hk' : k < g3.nn := by rw [hg3.nn, hnp3']; omega
    rw [hc4 k hk', hc3 k hk', hc2 k hk, hc1 k hk]
    have : (if lh = true then (if lh = true then (ptOf r.nodes k).scale 1 (-1) else ptOf r.nodes k).scale 1 (-1) else if lh = true then (ptOf r.nodes k).scale 1 (-1) else ptOf r.nodes k) =
        ptOf r.nodes k := by
      cases lh with
      | true => simp only [if_true]; rw [scale_scale]
      | false => rfl
    rw [this]
    rfl
  have hlast : g3.ptr.getD g3.nf 0 = (faceNodes (fs ++ gs)).length := by
    rw [List.getD_eq_getElem?_getD, hg3.ptrAt]
    rfl
  refine ⟨⟨{ g3 with nbr := nbr, nodes := nodes' }, glob, (List.range (inp.nx * inp.ny * inp.nz)).countP (fun c => decide (Solid inp.nx inp.ny (colOf inp.nx inp.nz r.plist) c)), c4⟩, fs, ts, qs, gs, ?_, ?_⟩
  · unfold processGrdecl
    simp only [e1, bind_ok, e2]
    cases lh <;> rcases hs' with rfl | rfl <;>
      simp only [if_true, if_false, Bool.false_eq_true, show ((1 : Int) = -1) = False by decide, decide_true, decide_false, Bool.xor_false, Bool.xor_true, Bool.not_true, Bool.not_false] at e3 e10 e11 e12 ⊢ <;>
      (try simp only [Except.ok.injEq] at e3) <;> (try simp only [Except.ok.injEq] at e10) <;> (try simp only [Except.ok.injEq] at e11) <;>
      (try simp only [Except.ok.injEq] at e12) <;> (try subst e12) <;> (try subst e11) <;> (try subst e10) <;> (try subst e3) <;>
      simp only [efaces, e7, e8, e9, bind_ok] <;> (try simp only [e3, bind_ok]) <;> (try simp only [e7, bind_ok]) <;> (try simp only [e10, bind_ok]) <;> (try simp only [e11, bind_ok]) <;>
      (try simp only [e12, bind_ok])
  · have hcnt : (List.range (inp.nx * inp.ny * inp.nz)).countP (fun c => decide (Solid inp.nx inp.ny (colOf inp.nx inp.nz r.plist) c)) =
        (solidCells inp.nx inp.ny inp.nz (colOf inp.nx inp.nz r.plist)).length := List.countP_eq_length_filter ..
    refine ⟨hs, hst0, ⟨_, hcols⟩, hpp.congr hle (fun k hk => (hpt k hk).symm), hsf, htop, hcnt, hglob, ?_, ?_, ?_, ?_, ?_, ?_, ?_, hnp3', ?_⟩
    · show g3.nf = _
      rw [hg3.nf, List.length_append]
    · show nbr.take (2 * g3.nf) = _
      rw [hnbrs, hg3.nf]
      exact hnbr
    · show g3.ptr.take (g3.nf + 1) = _
      rw [hptr, hg3.nf]
      exact hg3.ptr
    · show nodes'.take (g3.ptr.getD g3.nf 0) = _
      rw [hlast]
      exact hnodes
    · show g3.tag.take g3.nf = _
      rw [hg3.nf]
      exact hg3.tag
    · show g3.nn = _
      rw [hg3.nn, hnp3']
    · show c4.length = 3 * g3.nn
      rw [hl4, hl3, hl2]
    · intro m k0 k1 k2 k3 hm
      obtain ⟨j0, j1, j2, j3, eq, l0, l1, l2, l3, _⟩ := hquads _ (List.mem_of_getElem? hm)
      simp only [List.cons.injEq, Nat.cast_inj, and_true] at eq
      obtain ⟨rfl, rfl, rfl, rfl⟩ := eq
      have hmq : m < qs.length := (List.getElem?_eq_some_iff.1 hm).1
      have hnn : g3.nn = r.numNodes + qs.length := by rw [hg3.nn, hnp3']
      have hc := hcross m k0 k1 k2 k3 hm
      have hpt' : ∀ k, k < g3.nn → ptOf c4 k = (if lh = true then (ptOf c2 k).scale 1 (-1) else ptOf c2 k).scale 2 s := by
        intro k hk
        rw [hc4 k hk, hc3 k hk]
      show CrossPoint (ptOf c4 k0) (ptOf c4 k1) (ptOf c4 k2) (ptOf c4 k3) (ptOf c4 (r.numNodes + m))
      rw [hpt' k0 (by omega), hpt' k1 (by omega), hpt' k2 (by omega), hpt' k3 (by omega), hpt' (r.numNodes + m) (by omega)]
      apply CrossPoint.scale
      rw [← hc2 k0 l0, ← hc2 k1 l1, ← hc2 k2 l2, ← hc2 k3 l3] at hc
      cases lh with
      | true => exact hc.scale 1 (-1)
      | false => exact hc

end

end Opm.Cpg
