import Verif.Proofs.PartitionBasic
import Verif.Proofs.DfsMono
/-! # Splitting disconnected blocks: the block-internal graph -/

namespace Opm.Partition
open Opm Opm.Graph Opm.Bucket

/-- The cells of block `b` in increasing order. -/
def cells (q : List Nat) (b : Nat) : List Nat := rowOf q.zipIdx b

/-- `pc2c`, `c2c` list the row `R c` for every cell `c` (a row whose end is not after its start is
empty, whatever its start is). -/
structure C2C (nc : Nat) (pc2c c2c : List Nat) (R : Nat → List Nat) : Prop where
  row : ∀ c : Nat, c < nc → ∃ a b : Nat, pc2c[c]? = some a ∧ pc2c[c + 1]? = some b ∧ (R c).length = b - a ∧
    ∀ k x : Nat, (R c)[k]? = some x → c2c[a + k]? = some x
  lt : ∀ c : Nat, c < nc → ∀ d ∈ R c, d < nc

/-- Block-internal connections of cell `c` with local index `l`. -/
def F (q : List Nat) (b : Nat) (R : Nat → List Nat) (locf : Nat → Nat) (z : Nat × Nat) : List (Nat × Nat) :=
  ((R z.1).filter (fun d => q[d]? = some b)).map (fun d => (z.2, locf d))

/-- All block-internal connections of block `b`. -/
def items (q : List Nat) (b : Nat) (R : Nat → List Nat) (locf : Nat → Nat) : List (Nat × Nat) :=
  ((cells q b).zipIdx).flatMap (F q b R locf)

theorem push_step' {α : Type} {m : Nat} {all done : List (Nat × α)} {s : List Nat × List α} {r : Nat} {v : α}
    (hall : done ++ [(r, v)] <+: all) (hr : r < m) (h : Pushing m all done s) :
    ∃ s', pushAt (r + 1) v s = .ok s' ∧ Pushing m all (done ++ [(r, v)]) s' ∧
      s'.1.length = s.1.length ∧ s'.2.length = s.2.length := by
  obtain ⟨rest, hrest⟩ := hall
  obtain ⟨s', h1, h2, _, h3, h4⟩ := push_step (v := v) (rest := rest) (by rw [← hrest]; simp) hr h
  exact ⟨s', h1, h2, h3, h4⟩

theorem zipIdx_take_prefix (l : List Nat) (i : Nat) : (l.take i).zipIdx <+: l.zipIdx := by
  refine ⟨(l.drop i).zipIdx (0 + (l.take i).length), ?_⟩
  rw [← List.zipIdx_append, List.take_append_drop]

theorem flatMap_prefix {α β : Type _} {a b : List α} (f : α → List β) (h : a <+: b) : a.flatMap f <+: b.flatMap f := by
  obtain ⟨r, rfl⟩ := h
  exact ⟨r.flatMap f, by rw [List.flatMap_append]⟩

section
variable {q : List Nat} {b : Nat} {R : Nat → List Nat} {locf : Nat → Nat} {pc2c c2c : List Nat}

theorem items_prefix {i k c : Nat} (hc : (cells q b)[i]? = some c) :
    (((cells q b).take i).zipIdx).flatMap (F q b R locf) ++
      (((R c).take k).filter (fun d => q[d]? = some b)).map (fun d => (i, locf d)) <+: items q b R locf := by
  have h1 : (((cells q b).take (i + 1)).zipIdx).flatMap (F q b R locf) <+: items q b R locf :=
    flatMap_prefix _ (zipIdx_take_prefix _ _)
  rw [zipIdx_take_succ hc, List.flatMap_append] at h1
  refine List.IsPrefix.trans ?_ h1
  rw [List.prefix_append_right_inj]
  simp only [List.flatMap_cons, List.flatMap_nil, List.append_nil, F]
  exact ((List.take_prefix k (R c)).filter _).map _

theorem rowOf_eq_nil {α : Type} {its : List (Nat × α)} {r : Nat} (h : ∀ p ∈ its, p.1 ≠ r) : rowOf its r = [] := by
  induction its with
  | nil => rfl
  | cons p its ih =>
    have h1 := h p (List.mem_cons_self ..)
    have h2 := ih (fun p hp => h p (List.mem_cons_of_mem _ hp))
    unfold rowOf at h2 ⊢
    rw [List.filterMap_cons, if_neg h1]; exact h2

theorem rowOf_const {α : Type} {r : Nat} (l : List Nat) (f : Nat → α) :
    rowOf (l.map (fun d => (r, f d))) r = l.map f := by
  induction l with
  | nil => rfl
  | cons d l ih =>
    unfold rowOf at ih ⊢
    simp only [List.map_cons, List.filterMap_cons, if_true, ih]

theorem rowOf_flatMap_zipIdx (cs : List Nat) (n k c : Nat) (hc : cs[k]? = some c) :
    rowOf ((cs.zipIdx n).flatMap (F q b R locf)) (n + k) =
      ((R c).filter (fun d => q[d]? = some b)).map locf := by
  induction cs generalizing n k with
  | nil => simp at hc
  | cons c0 cs ih =>
    rw [List.zipIdx_cons, List.flatMap_cons, rowOf_append]
    cases k with
    | zero =>
      simp at hc
      subst hc
      rw [Nat.add_zero, F, rowOf_const, rowOf_eq_nil, List.append_nil]
      intro p hp
      rw [List.mem_flatMap] at hp
      obtain ⟨z, hz, hp⟩ := hp
      have h1 := List.le_snd_of_mem_zipIdx hz
      simp only [F, List.mem_map] at hp
      obtain ⟨d, _, rfl⟩ := hp
      simp only; omega
    | succ k =>
      rw [show n + (k + 1) = n + 1 + k by omega, ih (n + 1) k (by simpa using hc), rowOf_eq_nil, List.nil_append]
      intro p hp
      simp only [F, List.mem_map] at hp
      obtain ⟨d, _, rfl⟩ := hp
      simp only; omega

theorem rowOf_items {l c : Nat} (hc : (cells q b)[l]? = some c) :
    rowOf (items q b R locf) l = ((R c).filter (fun d => q[d]? = some b)).map locf := by
  have := rowOf_flatMap_zipIdx (q := q) (b := b) (R := R) (locf := locf) (cells q b) 0 l c hc
  rwa [Nat.zero_add] at this

theorem items_key : ∀ p ∈ items q b R locf, p.1 < (cells q b).length := by
  intro p hp
  unfold items at hp
  rw [List.mem_flatMap] at hp
  obtain ⟨z, hz, hp⟩ := hp
  have h1 := List.snd_lt_of_mem_zipIdx hz
  simp only [F, List.mem_map] at hp
  obtain ⟨d, _, rfl⟩ := hp
  simpa using h1

/-- Facts about the arrays that stay the same during the loop over the blocks. -/
structure Fixed (q : List Nat) (R : Nat → List Nat) (pc2c c2c loc : List Nat) : Prop where
  c2c : C2C q.length pc2c c2c R
  loc : ∀ b k c : Nat, (cells q b)[k]? = some c → loc[c]? = some k

/-- The current vector agrees with the original one as far as block `b` is concerned. -/
def SameBlock (q : List Nat) (b : Nat) (p : List Int) : Prop :=
  ∀ d : Nat, d < q.length → ∃ v, p[d]? = some v ∧ (v = (b : Int) ↔ q[d]? = some b)

theorem mem_cells {c : Nat} : c ∈ cells q b ↔ q[c]? = some b := mem_rowOf_zipIdx

theorem cells_lt {c : Nat} (h : c ∈ cells q b) : c < q.length := (List.getElem?_eq_some_iff.1 (mem_cells.1 h)).1

theorem loc_get {loc : List Nat} (hf : Fixed q R pc2c c2c loc) {d : Nat} (h : q[d]? = some b) :
    loc[d]? = some (loc.getD d 0) := by
  obtain ⟨k, hk⟩ := List.mem_iff_getElem?.1 (mem_cells.2 h)
  have := hf.loc b k d hk
  simp [List.getD_eq_getElem?_getD, this]

theorem countBlock_ok {loc : List Nat} {p : List Int} {ia : List Nat} (hf : Fixed q R pc2c c2c loc)
    (hb : b < nb q) (hp : SameBlock q b p) (hia : Counted (cells q b).length ([] : List (Nat × Nat)) ia) :
    ∃ ia', countBlock b p loc (boundaries 0 (rows (nb q) q.zipIdx)) (rows (nb q) q.zipIdx).flatten pc2c c2c ia =
        .ok ia' ∧ Counted (cells q b).length (items q b R (fun d => loc.getD d 0)) ia' ∧ ia'.length = ia.length := by
  have ha := boundaries_rows_get (nb q) q.zipIdx (show b ≤ nb q by omega)
  have he := boundaries_rows_get (nb q) q.zipIdx (show b + 1 ≤ nb q from hb)
  have hst : start q.zipIdx (b + 1) - start q.zipIdx b = (cells q b).length := by
    simp only [start, cells]; omega
  unfold countBlock
  simp only [rd_of_getElem? ha, bind_ok, rd_of_getElem? he]
  unfold forRange
  rw [hst]
  obtain ⟨t, ht, hC, hl⟩ := loop_inv (n := (cells q b).length) (s := ia)
    (f := fun k ia => do
      let c ← rd (rows (nb q) q.zipIdx).flatten (start q.zipIdx b + k)
      let l ← rd loc c
      check (l == start q.zipIdx b + k - start q.zipIdx b)
      let j0 ← rd pc2c c
      let j1 ← rd pc2c (c + 1)
      loop (j1 - j0) (fun j ia => do
        let d ← rd c2c (j0 + j)
        let q ← rd p d
        if q = (b : Int) then bump ia (l + 1) else .ok ia) ia)
    (fun i t => Counted (cells q b).length ((((cells q b).take i).zipIdx).flatMap (F q b R (fun d => loc.getD d 0))) t ∧
      t.length = ia.length)
    ⟨by simpa using hia, rfl⟩
    (by
      rintro i t hi ⟨hC, hl⟩
      have hc := List.getElem?_eq_getElem hi
      obtain ⟨j0, j1, hj0, hj1, hlen, hrow⟩ := hf.c2c.row _ (cells_lt (List.getElem_mem hi))
      obtain ⟨t', ht', hC', hl'⟩ := loop_inv (n := j1 - j0) (s := t)
        (f := fun j ia => do
          let d ← rd c2c (j0 + j)
          let q ← rd p d
          if q = (b : Int) then bump ia (i + 1) else .ok ia)
        (fun k u => Counted (cells q b).length ((((cells q b).take i).zipIdx).flatMap (F q b R (fun d => loc.getD d 0)) ++
          (((R (cells q b)[i]).take k).filter (fun d => q[d]? = some b)).map (fun d => (i, loc.getD d 0))) u ∧
          u.length = ia.length)
        ⟨by simpa using hC, hl⟩
        (by
          rintro k u hk ⟨hC, hl⟩
          have hkl : k < (R (cells q b)[i]).length := by omega
          have hd := List.getElem?_eq_getElem hkl
          obtain ⟨v, hv, hvb⟩ := hp _ (hf.c2c.lt _ (cells_lt (List.getElem_mem hi)) _ (List.getElem_mem hkl))
          rw [rd_of_getElem? (hrow k _ hd), bind_ok, rd_of_getElem? hv, bind_ok, take_succ_get hd,
            List.filter_append, List.map_append]
          by_cases hvq : v = (b : Int)
          · rw [if_pos hvq]
            obtain ⟨u', hu', hC', hl'⟩ := bump_counted hC (loc.getD (R (cells q b)[i])[k] 0) hi
            refine ⟨u', hu', ?_, by omega⟩
            have : [(R (cells q b)[i])[k]].filter (fun d => q[d]? = some b) = [(R (cells q b)[i])[k]] := by
              rw [List.filter_singleton]; simp [hvb.1 hvq]
            rw [this, ← List.append_assoc]
            exact hC'
          · rw [if_neg hvq]
            refine ⟨u, rfl, ?_, hl⟩
            have : [(R (cells q b)[i])[k]].filter (fun d => q[d]? = some b) = [] := by
              rw [List.filter_singleton]
              have : ¬ q[(R (cells q b)[i])[k]]? = some b := fun h => hvq (hvb.2 h)
              simp [this]
            rw [this, List.map_nil, List.append_nil]
            exact hC)
      refine ⟨t', ?_, ?_, hl'⟩
      · rw [rd_of_getElem? (rows_flatten_get hb hc), bind_ok, rd_of_getElem? (hf.loc b i _ hc), bind_ok,
          check_ok (by simp), bind_ok, rd_of_getElem? hj0, bind_ok, rd_of_getElem? hj1, bind_ok]
        exact ht'
      · rw [zipIdx_take_succ hc, List.flatMap_append]
        rw [← hlen, List.take_length] at hC'
        simpa [F] using hC')
  rw [List.take_length] at hC
  exact ⟨t, ht, hC, hl⟩

theorem insertBlock_ok {loc : List Nat} {p : List Int} {s : List Nat × List Nat} (hf : Fixed q R pc2c c2c loc)
    (hb : b < nb q) (hp : SameBlock q b p)
    (hs : Pushing (cells q b).length (items q b R (fun d => loc.getD d 0)) [] s) :
    ∃ s', insertBlock b p loc (boundaries 0 (rows (nb q) q.zipIdx)) (rows (nb q) q.zipIdx).flatten pc2c c2c s = .ok s' ∧
      Pushing (cells q b).length (items q b R (fun d => loc.getD d 0)) (items q b R (fun d => loc.getD d 0)) s' ∧
      s'.1.length = s.1.length ∧ s'.2.length = s.2.length := by
  have ha := boundaries_rows_get (nb q) q.zipIdx (show b ≤ nb q by omega)
  have he := boundaries_rows_get (nb q) q.zipIdx (show b + 1 ≤ nb q from hb)
  have hst : start q.zipIdx (b + 1) - start q.zipIdx b = (cells q b).length := by
    simp only [start, cells]; omega
  unfold insertBlock
  simp only [rd_of_getElem? ha, bind_ok, rd_of_getElem? he]
  unfold forRange
  rw [hst]
  obtain ⟨t, ht, hC, hl⟩ := loop_inv (n := (cells q b).length) (s := s)
    (f := fun k s => do
      let c ← rd (rows (nb q) q.zipIdx).flatten (start q.zipIdx b + k)
      let j0 ← rd pc2c c
      let j1 ← rd pc2c (c + 1)
      loop (j1 - j0) (fun j s => do
        let d ← rd c2c (j0 + j)
        let q ← rd p d
        if q = (b : Int) then do
          let l ← rd loc c
          let ld ← rd loc d
          pushAt (l + 1) ld s
        else .ok s) s)
    (fun i t => Pushing (cells q b).length (items q b R (fun d => loc.getD d 0))
        ((((cells q b).take i).zipIdx).flatMap (F q b R (fun d => loc.getD d 0))) t ∧
      t.1.length = s.1.length ∧ t.2.length = s.2.length)
    ⟨by simpa using hs, rfl, rfl⟩
    (by
      rintro i t hi ⟨hC, hl, hl2⟩
      have hc := List.getElem?_eq_getElem hi
      obtain ⟨j0, j1, hj0, hj1, hlen, hrow⟩ := hf.c2c.row _ (cells_lt (List.getElem_mem hi))
      obtain ⟨t', ht', hC', hl', hl2'⟩ := loop_inv (n := j1 - j0) (s := t)
        (f := fun j s => do
          let d ← rd c2c (j0 + j)
          let q' ← rd p d
          if q' = (b : Int) then do
            let l ← rd loc (cells q b)[i]
            let ld ← rd loc d
            pushAt (l + 1) ld s
          else .ok s)
        (fun k u => Pushing (cells q b).length (items q b R (fun d => loc.getD d 0))
          ((((cells q b).take i).zipIdx).flatMap (F q b R (fun d => loc.getD d 0)) ++
          (((R (cells q b)[i]).take k).filter (fun d => q[d]? = some b)).map (fun d => (i, loc.getD d 0))) u ∧
          u.1.length = s.1.length ∧ u.2.length = s.2.length)
        ⟨by simpa using hC, hl, hl2⟩
        (by
          rintro k u hk ⟨hC, hl, hl2⟩
          have hkl : k < (R (cells q b)[i]).length := by omega
          have hd := List.getElem?_eq_getElem hkl
          obtain ⟨v, hv, hvb⟩ := hp _ (hf.c2c.lt _ (cells_lt (List.getElem_mem hi)) _ (List.getElem_mem hkl))
          rw [rd_of_getElem? (hrow k _ hd), bind_ok, rd_of_getElem? hv, bind_ok]
          by_cases hvq : v = (b : Int)
          · rw [if_pos hvq, rd_of_getElem? (hf.loc b i _ hc), bind_ok, rd_of_getElem? (loc_get hf (hvb.1 hvq)), bind_ok]
            have hpre := items_prefix (R := R) (locf := fun d => loc.getD d 0) (k := k + 1) hc
            have : [(R (cells q b)[i])[k]].filter (fun d => q[d]? = some b) = [(R (cells q b)[i])[k]] := by
              rw [List.filter_singleton]; simp [hvb.1 hvq]
            rw [take_succ_get hd, List.filter_append, List.map_append, this, ← List.append_assoc] at hpre ⊢
            obtain ⟨u', hu', hC', hl', hl2'⟩ := push_step' hpre hi hC
            exact ⟨u', hu', hC', by omega, by omega⟩
          · rw [if_neg hvq]
            refine ⟨u, rfl, ?_, hl, hl2⟩
            have : [(R (cells q b)[i])[k]].filter (fun d => q[d]? = some b) = [] := by
              rw [List.filter_singleton]
              have : ¬ q[(R (cells q b)[i])[k]]? = some b := fun h => hvq (hvb.2 h)
              simp [this]
            rw [take_succ_get hd, List.filter_append, List.map_append, this, List.map_nil, List.append_nil]
            exact hC)
      refine ⟨t', ?_, ?_, hl', hl2'⟩
      · rw [rd_of_getElem? (rows_flatten_get hb hc), bind_ok, rd_of_getElem? hj0, bind_ok, rd_of_getElem? hj1, bind_ok]
        exact ht'
      · rw [zipIdx_take_succ hc, List.flatMap_append]
        rw [← hlen, List.take_length] at hC'
        simpa [F] using hC')
  rw [List.take_length] at hC
  exact ⟨t, ht, hC, hl⟩

theorem createBlockConns_ok {loc : List Nat} {p : List Int} {ia ja : List Nat} (hf : Fixed q R pc2c c2c loc)
    (hb : b < nb q) (hp : SameBlock q b p) (hia : (cells q b).length + 1 ≤ ia.length)
    (hja : (items q b R (fun d => loc.getD d 0)).length ≤ ja.length) :
    ∃ ia' ja' tail, createBlockConns b p loc (boundaries 0 (rows (nb q) q.zipIdx)) (rows (nb q) q.zipIdx).flatten pc2c c2c ia ja =
        .ok (ia', ja') ∧ ia'.length = ia.length ∧ ja'.length = ja.length ∧
      ia'.take ((cells q b).length + 1) = boundaries 0 (rows (cells q b).length (items q b R (fun d => loc.getD d 0))) ∧
      ja' = (rows (cells q b).length (items q b R (fun d => loc.getD d 0))).flatten ++ tail := by
  have ha := boundaries_rows_get (nb q) q.zipIdx (show b ≤ nb q by omega)
  have he := boundaries_rows_get (nb q) q.zipIdx (show b + 1 ≤ nb q from hb)
  have hst : start q.zipIdx (b + 1) - start q.zipIdx b = (cells q b).length := by
    simp only [start, cells]; omega
  obtain ⟨ia1, e1, hC1, hl1⟩ := countBlock_ok hf hb hp (counted_fill (cells q b).length (ia.drop ((cells q b).length + 1)))
  obtain ⟨ia2, e2, hl2, h02, hs2⟩ := accumulate_ok hC1
  have htot : start (items q b R (fun d => loc.getD d 0)) (cells q b).length = (items q b R (fun d => loc.getD d 0)).length :=
    start_total _ _ items_key
  have hlen1 : ia1.length = ia.length := by
    rw [hl1, List.length_append, List.length_replicate, List.length_drop]; omega
  obtain ⟨s, e3, hP, hl3, hl4⟩ := insertBlock_ok (s := (ia2, ja)) hf hb hp (pushing_init (by omega) hs2 (by omega))
  obtain ⟨hd1, hd2⟩ := push_done hP
  simp only at hl3 hl4
  refine ⟨s.1.set 0 0, s.2, _, ?_, by simp; omega, by omega, hd1, hd2⟩
  unfold createBlockConns
  rw [rd_of_getElem? he, bind_ok, rd_of_getElem? ha, bind_ok]
  simp only [hst]
  rw [fill_ok _ _ _ hia, bind_ok, e1, bind_ok, rd_of_getElem? hC1.zero, bind_ok, check_ok (by simp), bind_ok, e2,
    bind_ok, e3, bind_ok, wr_ok (by omega), bind_ok]

end

end Opm.Partition
