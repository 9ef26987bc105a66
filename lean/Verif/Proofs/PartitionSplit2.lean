import Verif.Proofs.PartitionSplit
/-! # Splitting disconnected blocks: the loop over the blocks -/

namespace Opm.Partition
open Opm Opm.Graph Opm.Bucket

section
variable {q : List Nat} {R : Nat → List Nat} {pc2c c2c : List Nat}

/-- Direct connection inside a block. -/
def Link (q : List Nat) (R : Nat → List Nat) (c d : Nat) : Prop :=
  c < q.length ∧ d ∈ R c ∧ q[c]? = q[d]?

/-- Connected inside a block. -/
def Linked (q : List Nat) (R : Nat → List Nat) : Nat → Nat → Prop := Relation.ReflTransGen (Link q R)

theorem Linked.same {c d : Nat} (h : Linked q R c d) : q[c]? = q[d]? := by
  induction h with
  | refl => rfl
  | tail _ h ih => exact ih.trans h.2.2

/-- The row lists needed by `dfs`. -/
structure Good (q : List Nat) (R : Nat → List Nat) : Prop where
  sym : ∀ c d : Nat, Link q R c d → Link q R d c
  self : ∀ c k : Nat, c < q.length → (R c)[k]? = some c → k = 0

theorem Linked.symm (hg : Good q R) {c d : Nat} (h : Linked q R c d) : Linked q R d c := by
  induction h with
  | refl => exact .refl
  | tail _ h ih => exact Relation.ReflTransGen.head (hg.sym _ _ h) ih

theorem filter_map_self {l : List Nat} {P : Nat → Bool} {f : Nat → Nat} {c : Nat} {k : Nat}
    (hl : ∀ k : Nat, l[k]? = some c → k = 0) (hf : ∀ d ∈ l, P d = true → f d = f c → d = c)
    (h : ((l.filter P).map f)[k]? = some (f c)) : k = 0 := by
  cases l with
  | nil => simp at h
  | cons x l =>
    have hx : ∀ j : Nat, l[j]? ≠ some c := fun j hj => by
      have := hl (j + 1) (by simpa using hj); omega
    have key : ∀ j : Nat, ((l.filter P).map f)[j]? ≠ some (f c) := by
      intro j hj
      have hm := List.mem_of_getElem? hj
      rw [List.mem_map] at hm
      obtain ⟨d, hd, he⟩ := hm
      rw [List.mem_filter] at hd
      have := hf d (List.mem_cons_of_mem _ hd.1) hd.2 he
      subst this
      obtain ⟨i, hi⟩ := List.mem_iff_getElem?.1 hd.1
      exact hx i hi
    rw [List.filter_cons] at h
    split at h
    · cases k with
      | zero => rfl
      | succ k =>
        rw [List.map_cons, List.getElem?_cons_succ] at h
        exact absurd h (key k)
    · exact absurd h (key k)

/-- `dfs` on the block graph colours the cells of the block by connectedness. -/
theorem block_dfs {b : Nat} {loc : List Nat} (hf : Fixed q R pc2c c2c loc) (hg : Good q R)
    {ia ja tail : List Nat} {color work : List Int} {fuel : Nat}
    (hia : ia.take ((cells q b).length + 1) =
      boundaries 0 (rows (cells q b).length (items q b R (fun d => loc.getD d 0))))
    (hja : ja = (rows (cells q b).length (items q b R (fun d => loc.getD d 0))).flatten ++ tail)
    (hfuel : 4 * ((cells q b).length * ja.length) + (cells q b).length + 4 ≤ fuel)
    (hc : (cells q b).length ≤ color.length) (hw : 2 * (cells q b).length ≤ work.length) :
    ∃ color' work' nc, Dfs.dfs fuel (cells q b).length ia ja color work = .ok (color', work', nc) ∧
      color'.length = color.length ∧ work'.length = work.length ∧
      (∀ l : Nat, l < (cells q b).length → ∃ k : Nat, k < nc ∧ color'[l]? = some (k : Int)) ∧
      (∀ k : Nat, k < nc → ∃ l : Nat, l < (cells q b).length ∧ color'[l]? = some (k : Int)) ∧
      (∀ l l' c c' : Nat, (cells q b)[l]? = some c → (cells q b)[l']? = some c' →
        (color'[l]? = color'[l']? ↔ Linked q R c c')) := by
  set m := (cells q b).length with hm
  have hloc : ∀ {k c : Nat}, (cells q b)[k]? = some c → loc.getD c 0 = k := by
    intro k c h
    have := hf.loc b k c h
    simp [List.getD_eq_getElem?_getD, this]
  have hpos : ∀ {d : Nat}, q[d]? = some b → (cells q b)[loc.getD d 0]? = some d := by
    intro d hd
    obtain ⟨k, hk⟩ := List.mem_iff_getElem?.1 (mem_cells.2 hd)
    rw [hloc hk]; exact hk
  have hposlt : ∀ {d : Nat}, q[d]? = some b → loc.getD d 0 < m := fun hd => (List.getElem?_eq_some_iff.1 (hpos hd)).1
  have hrowget : ∀ {l c : Nat}, (cells q b)[l]? = some c →
      (rows m (items q b R (fun d => loc.getD d 0)))[l]? =
        some (((R c).filter (fun d => q[d]? = some b)).map (fun d => loc.getD d 0)) := by
    intro l c hc
    rw [rows_get (List.getElem?_eq_some_iff.1 hc).1, rowOf_items hc]
  have wf : WF m (ia.take (m + 1)) ja := by
    have := csr_rows (nc := m) (rows m (items q b R (fun d => loc.getD d 0))) tail (by
      intro r hr w hw
      obtain ⟨l, hl⟩ := List.mem_iff_getElem?.1 hr
      have hlt : l < m := by have := (List.getElem?_eq_some_iff.1 hl).1; rwa [rows_length] at this
      rw [hrowget (List.getElem?_eq_getElem hlt)] at hl
      simp only [Option.some.injEq] at hl
      subst hl
      rw [List.mem_map] at hw
      obtain ⟨d, hd, rfl⟩ := hw
      rw [List.mem_filter] at hd
      exact hposlt (by simpa using hd.2))
    rw [rows_length] at this
    rw [hia, hja]
    exact this
  have hadj : ∀ {l c : Nat}, (cells q b)[l]? = some c → adj (ia.take (m + 1)) ja l =
      ((R c).filter (fun d => q[d]? = some b)).map (fun d => loc.getD d 0) := by
    intro l c hc
    rw [hia, hja]
    exact adj_rows _ _ (hrowget hc)
  have hedge : ∀ {l c l' : Nat}, (cells q b)[l]? = some c →
      (Edge (ia.take (m + 1)) ja l l' ↔ ∃ c', (cells q b)[l']? = some c' ∧ Link q R c c') := by
    intro l c l' hc
    have hqc := mem_cells.1 (List.mem_of_getElem? hc)
    have hlt : l < m := (List.getElem?_eq_some_iff.1 hc).1
    rw [edge_iff wf hlt, hadj hc, List.mem_map]
    constructor
    · rintro ⟨d, hd, rfl⟩
      rw [List.mem_filter] at hd
      have hqd : q[d]? = some b := by simpa using hd.2
      exact ⟨d, hpos hqd, (List.getElem?_eq_some_iff.1 hqc).1, hd.1, hqc.trans hqd.symm⟩
    · rintro ⟨c', hc', _, hmem, hq⟩
      exact ⟨c', List.mem_filter.2 ⟨hmem, by simpa using hq.symm.trans hqc⟩, hloc hc'⟩
  have hself : ∀ v, v < m → ∀ k : Nat, (adj (ia.take (m + 1)) ja v)[k]? = some v → k = 0 := by
    intro v hv k hk
    have hcv := List.getElem?_eq_getElem (l := cells q b) hv
    have hqv := mem_cells.1 (List.mem_of_getElem? hcv)
    rw [hadj hcv] at hk
    refine filter_map_self (f := fun d => loc.getD d 0) (P := fun d => q[d]? = some b) (c := (cells q b)[v]) (fun k hk' => hg.self _ k (List.getElem?_eq_some_iff.1 hqv).1 hk') ?_ (by rw [hk]; simp only [hloc hcv])
    intro d _ hd he
    have h1 := hpos (d := d) (by simpa using hd)
    rw [he, hloc hcv, hcv] at h1
    exact (Option.some.inj h1).symm
  have hsym : ∀ u w, Edge (ia.take (m + 1)) ja u w → Edge (ia.take (m + 1)) ja w u := by
    intro u w he
    have hu := edge_lt wf he
    have hcu := List.getElem?_eq_getElem (l := cells q b) hu
    obtain ⟨c', hc', hl⟩ := (hedge hcu).1 he
    exact (hedge hc').2 ⟨_, hcu, hg.sym _ _ hl⟩
  obtain ⟨color', work', nc, h1, h2, h3, h4, h5, h6⟩ := Dfs.dfs_main (color := color) (work := work) wf hself hsym hfuel hc hw
  refine ⟨color', work', nc, Dfs.dfs_mono h1, h2, h3, h4, h5, ?_⟩
  intro l l' c c' hc hc'
  rw [h6 l l' (List.getElem?_eq_some_iff.1 hc).1 (List.getElem?_eq_some_iff.1 hc').1]
  constructor
  · intro hr
    have key : ∀ w, Reach (ia.take (m + 1)) ja l w → ∃ d, (cells q b)[w]? = some d ∧ Linked q R c d := by
      intro w hw
      induction hw with
      | refl => exact ⟨c, hc, .refl⟩
      | tail _ he ih =>
        obtain ⟨d, hd, hl⟩ := ih
        obtain ⟨d', hd', hl'⟩ := (hedge hd).1 he
        exact ⟨d', hd', hl.tail hl'⟩
    obtain ⟨d, hd, hl⟩ := key l' hr
    rw [hc'] at hd; cases hd; exact hl
  · intro hl
    have key : ∀ d, Linked q R c d → Reach (ia.take (m + 1)) ja l (loc.getD d 0) ∧ q[d]? = some b := by
      intro d hd
      induction hd with
      | refl => rw [hloc hc]; exact ⟨.refl, mem_cells.1 (List.mem_of_getElem? hc)⟩
      | @tail d d' _ he ih =>
        have hqd' : q[d']? = some b := he.2.2.symm.trans ih.2
        exact ⟨ih.1.tail ((hedge (hpos ih.2)).2 ⟨d', hpos hqd', he⟩), hqd'⟩
    have := (key c' hl).1
    rwa [hloc hc'] at this

/-- Sum of the row sizes of a block as `count_block_conns` computes it. -/
def nConn (q pc2c : List Nat) (b : Nat) : Int :=
  ((cells q b).map (fun c => (pc2c.getD (c + 1) 0 : Int) - (pc2c.getD c 0 : Int))).sum

theorem countBlockConns_ok (hc : C2C q.length pc2c c2c R) :
    ∃ n m : Int, countBlockConns (nb q) (boundaries 0 (rows (nb q) q.zipIdx)) (rows (nb q) q.zipIdx).flatten pc2c = .ok (n, m) ∧
      0 ≤ n ∧ 0 ≤ m ∧ ∀ b, b < nb q → ((cells q b).length : Int) ≤ n ∧ nConn q pc2c b ≤ m := by
  obtain ⟨t, ht, hs, h0, h1, hP⟩ := loop_inv (n := nb q) (s := ((0, 0, 0) : Nat × Int × Int))
    (f := fun b (st : Nat × Int × Int) => do
      let e ← rd (boundaries 0 (rows (nb q) q.zipIdx)) (b + 1)
      let nConn ← forRange st.1 e (fun i (n : Int) => do
        let c ← rd (rows (nb q) q.zipIdx).flatten i
        let y ← rd pc2c (c + 1)
        let x ← rd pc2c c
        .ok (n + ((y : Int) - (x : Int)))) 0
      let a ← rd (boundaries 0 (rows (nb q) q.zipIdx)) b
      .ok (max st.1 e, max st.2.1 ((e : Int) - (a : Int)), max st.2.2 nConn))
    (fun b st => st.1 = start q.zipIdx b ∧ 0 ≤ st.2.1 ∧ 0 ≤ st.2.2 ∧
      ∀ b', b' < b → ((cells q b').length : Int) ≤ st.2.1 ∧ nConn q pc2c b' ≤ st.2.2)
    ⟨rfl, Int.le_refl _, Int.le_refl _, by intro b' h; omega⟩
    (by
      rintro b st hb ⟨hs, h0, h1, hP⟩
      have ha := boundaries_rows_get (nb q) q.zipIdx (show b ≤ nb q by omega)
      have he := boundaries_rows_get (nb q) q.zipIdx (show b + 1 ≤ nb q from hb)
      have hst : start q.zipIdx (b + 1) - start q.zipIdx b = (cells q b).length := by
        simp only [start, cells]; omega
      have hmono := start_mono q.zipIdx (Nat.le_succ b)
      obtain ⟨n, hn, hnv⟩ := loop_inv (n := (cells q b).length) (s := (0 : Int))
        (f := fun i (n : Int) => do
          let c ← rd (rows (nb q) q.zipIdx).flatten (start q.zipIdx b + i)
          let y ← rd pc2c (c + 1)
          let x ← rd pc2c c
          .ok (n + ((y : Int) - (x : Int))))
        (fun i n => n = (((cells q b).take i).map (fun c => (pc2c.getD (c + 1) 0 : Int) - (pc2c.getD c 0 : Int))).sum)
        rfl
        (by
          intro i n hi hn
          have hci := List.getElem?_eq_getElem hi
          obtain ⟨j0, j1, hj0, hj1, _, _⟩ := hc.row _ (cells_lt (List.getElem_mem hi))
          refine ⟨_, by rw [rd_of_getElem? (rows_flatten_get hb hci), bind_ok, rd_of_getElem? hj1, bind_ok,
            rd_of_getElem? hj0, bind_ok], ?_⟩
          rw [take_succ_get hci, List.map_append, List.sum_append, hn]
          simp [List.getD_eq_getElem?_getD, hj0, hj1])
      rw [List.take_length] at hnv
      refine ⟨(max st.1 (start q.zipIdx (b + 1)), max st.2.1 ((start q.zipIdx (b + 1) : Int) - (start q.zipIdx b : Int)),
        max st.2.2 n), ?_, ?_, ?_, ?_, ?_⟩
      · rw [rd_of_getElem? he, bind_ok]
        unfold forRange
        rw [hs, hst, hn, bind_ok, rd_of_getElem? ha, bind_ok]
      · simp only [hs]; exact Nat.max_eq_right hmono
      · simp only; omega
      · simp only; omega
      · intro b' hb'
        simp only
        by_cases hbb : b' = b
        · subst hbb
          have : nConn q pc2c b' = n := hnv.symm
          omega
        · have := hP b' (by omega)
          omega)
  refine ⟨t.2.1, t.2.2, ?_, h0, h1, hP⟩
  unfold countBlockConns
  rw [ht, bind_ok]

/-- The state after blocks `0, …, b-1` have been split. -/
structure Split (q : List Nat) (R : Nat → List Nat) (b : Nat) (p : List Int) (r : Int) : Prop where
  len : p.length = q.length
  ret : 0 ≤ r
  keep : ∀ c x : Nat, q[c]? = some x → b ≤ x → p[c]? = some (x : Int)
  val : ∀ c x : Nat, q[c]? = some x → x < b → ∃ v : Int, p[c]? = some v ∧ (v = x ∨ ((nb q : Int) ≤ v ∧ v < nb q + r))
  conn : ∀ c d x y : Nat, q[c]? = some x → q[d]? = some y → x < b → y < b → (p[c]? = p[d]? ↔ Linked q R c d)
  new : ∀ v : Int, (nb q : Int) ≤ v → v < nb q + r → ∃ c : Nat, p[c]? = some v ∧ ∃ x, q[c]? = some x ∧ x < b
  old : ∀ c x : Nat, q[c]? = some x → ∃ d : Nat, q[d]? = some x ∧ p[d]? = some (x : Int)

theorem Split.sameBlock {b : Nat} {p : List Int} {r : Int} (h : Split q R b p r) (hb : b < nb q) : SameBlock q b p := by
  intro d hd
  have hq := List.getElem?_eq_getElem hd
  rcases Nat.lt_or_ge q[d] b with hx | hx
  · obtain ⟨v, hv, h1⟩ := h.val d _ hq hx
    refine ⟨v, hv, ?_⟩
    rw [hq]
    constructor
    · intro hvb
      simp; omega
    · intro h; simp at h; omega
  · refine ⟨_, h.keep d _ hq hx, ?_⟩
    rw [hq]; simp; omega

theorem split_init (q : List Nat) (R : Nat → List Nat) : Split q R 0 (ints q) 0 where
  len := ints_length q
  ret := Int.le_refl _
  keep := fun c x h _ => ints_get h
  val := by intro c x _ h; omega
  conn := by intro c d x y _ _ h; omega
  new := by intro v h h'; omega
  old := fun c x h => ⟨c, h, ints_get h⟩

theorem renumber_ok {b : Nat} (hb : b < nb q) {st : SplitState} {nc : Nat} (hs : Split q R b st.p st.ret)
    (hcol : ∀ l : Nat, l < (cells q b).length → ∃ k : Nat, k < nc ∧ st.colour[l]? = some (k : Int)) :
    ∃ st', renumber b ((nb q : Int) - 1) nc (boundaries 0 (rows (nb q) q.zipIdx)) (rows (nb q) q.zipIdx).flatten st = .ok st' ∧
      st'.ia = st.ia ∧ st'.ja = st.ja ∧ st'.colour = st.colour ∧ st'.work = st.work ∧
      st'.ret = st.ret + ((nc - 1 : Nat) : Int) ∧ st'.p.length = st.p.length ∧
      (∀ l c k : Nat, (cells q b)[l]? = some c → st.colour[l]? = some (k : Int) →
        st'.p[c]? = some (if k = 0 then (b : Int) else (nb q : Int) - 1 + st.ret + k)) ∧
      (∀ c : Nat, q[c]? ≠ some b → st'.p[c]? = st.p[c]?) := by
  have hkeepb : ∀ {l c : Nat}, (cells q b)[l]? = some c → st.p[c]? = some (b : Int) := fun h =>
    hs.keep _ _ (mem_cells.1 (List.mem_of_getElem? h)) (Nat.le_refl _)
  by_cases hnc : nc > 1
  · have ha := boundaries_rows_get (nb q) q.zipIdx (show b ≤ nb q by omega)
    have he := boundaries_rows_get (nb q) q.zipIdx (show b + 1 ≤ nb q from hb)
    have hst : start q.zipIdx (b + 1) - start q.zipIdx b = (cells q b).length := by
      simp only [start, cells]; omega
    obtain ⟨t, ht, hl, h1, h2, h3⟩ := loop_inv (n := (cells q b).length) (s := st.p)
      (f := fun i p => do
        let k ← rd st.colour (start q.zipIdx b + i - start q.zipIdx b)
        if k > 0 then do
          let c ← rd (rows (nb q) q.zipIdx).flatten (start q.zipIdx b + i)
          wr p c ((nb q : Int) - 1 + st.ret + k)
        else .ok p)
      (fun i t => t.length = st.p.length ∧
        (∀ l c k : Nat, l < i → (cells q b)[l]? = some c → st.colour[l]? = some (k : Int) →
          t[c]? = some (if k = 0 then (b : Int) else (nb q : Int) - 1 + st.ret + k)) ∧
        (∀ l c : Nat, i ≤ l → (cells q b)[l]? = some c → t[c]? = some (b : Int)) ∧
        (∀ c : Nat, q[c]? ≠ some b → t[c]? = st.p[c]?))
      ⟨rfl, by intro l c k h; omega, fun l c _ h => hkeepb h, fun _ _ => rfl⟩
      (by
        rintro i t hi ⟨hl, h1, h2, h3⟩
        obtain ⟨k, hk, hki⟩ := hcol i hi
        have hci := List.getElem?_eq_getElem hi
        rw [show start q.zipIdx b + i - start q.zipIdx b = i by omega, rd_of_getElem? hki, bind_ok]
        by_cases hk0 : k = 0
        · subst hk0
          rw [if_neg (by simp)]
          refine ⟨t, rfl, hl, ?_, fun l c hl hc => h2 l c (by omega) hc, h3⟩
          intro l c k' hli hc hk'
          by_cases hlt : l < i
          · exact h1 l c k' hlt hc hk'
          · obtain rfl : l = i := by omega
            rw [hki] at hk'
            have hk' := Option.some.inj hk'
            obtain rfl : k' = 0 := by omega
            simpa using h2 l c (Nat.le_refl _) hc
        · rw [if_pos (by omega), rd_of_getElem? (rows_flatten_get hb hci), bind_ok]
          have hcl := cells_lt (List.getElem_mem hi)
          have hpl := hs.len
          rw [wr_ok (by omega)]
          refine ⟨_, rfl, by simpa using hl, ?_, ?_, ?_⟩
          · intro l c k' hli hc hk'
            by_cases hlt : l < i
            · rw [List.getElem?_set_ne]
              · exact h1 l c k' hlt hc hk'
              · intro heq
                rw [← heq] at hc
                have := (row_pos_inj hc hci).2; omega
            · obtain rfl : l = i := by omega
              rw [hki] at hk'
              rw [hci] at hc
              have hk' := Option.some.inj hk'
              obtain rfl : k = k' := by omega
              cases hc
              rw [List.getElem?_set_self (by omega), if_neg hk0]
          · intro l c hli hc
            rw [List.getElem?_set_ne]
            · exact h2 l c (by omega) hc
            · intro heq
              rw [← heq] at hc
              have := (row_pos_inj hc hci).2; omega
          · intro c hc
            rw [List.getElem?_set_ne]
            · exact h3 c hc
            · rintro rfl
              exact hc (mem_cells.1 (List.getElem_mem hi)))
    refine ⟨{ st with p := t, ret := st.ret + ((nc : Int) - 1) }, ?_, rfl, rfl, rfl, rfl, ?_, hl, ?_, h3⟩
    · unfold renumber
      rw [if_pos hnc, rd_of_getElem? ha, bind_ok, rd_of_getElem? he, bind_ok]
      unfold forRange
      rw [hst, ht, bind_ok]
    · simp only; omega
    · intro l c k hc hk
      exact h1 l c k (List.getElem?_eq_some_iff.1 hc).1 hc hk
  · refine ⟨st, by unfold renumber; rw [if_neg hnc], rfl, rfl, rfl, rfl, ?_, rfl, ?_, fun _ _ => rfl⟩
    · have : nc - 1 = 0 := by omega
      rw [this]; simp
    · intro l c k hc hk
      obtain ⟨k', hk', hkl⟩ := hcol l (List.getElem?_eq_some_iff.1 hc).1
      rw [hk] at hkl
      have : k = 0 := by
        have : (k : Int) = k' := Option.some.inj hkl
        omega
      rw [if_pos this]; exact hkeepb hc

theorem split_step {b : Nat} (hb : b < nb q) {p p' : List Int} {r : Int} {nc : Nat} {colour : List Int}
    (hs : Split q R b p r) (hlen : p'.length = p.length)
    (hcol : ∀ l : Nat, l < (cells q b).length → ∃ k : Nat, k < nc ∧ colour[l]? = some (k : Int))
    (hsur : ∀ k : Nat, k < nc → ∃ l : Nat, l < (cells q b).length ∧ colour[l]? = some (k : Int))
    (hlink : ∀ l l' c c' : Nat, (cells q b)[l]? = some c → (cells q b)[l']? = some c' →
        (colour[l]? = colour[l']? ↔ Linked q R c c'))
    (hnew : ∀ l c k : Nat, (cells q b)[l]? = some c → colour[l]? = some (k : Int) →
        p'[c]? = some (if k = 0 then (b : Int) else (nb q : Int) - 1 + r + k))
    (hold : ∀ c : Nat, q[c]? ≠ some b → p'[c]? = p[c]?) :
    Split q R (b + 1) p' (r + ((nc - 1 : Nat) : Int)) := by
  have hr := hs.ret
  -- the value of a cell of block `b`
  have hblk : ∀ {c : Nat}, q[c]? = some b → ∃ l k : Nat, (cells q b)[l]? = some c ∧ colour[l]? = some (k : Int) ∧ k < nc ∧
      p'[c]? = some (if k = 0 then (b : Int) else (nb q : Int) - 1 + r + k) := by
    intro c hc
    obtain ⟨l, hl⟩ := List.mem_iff_getElem?.1 (mem_cells.2 hc)
    obtain ⟨k, hk, hkl⟩ := hcol l (List.getElem?_eq_some_iff.1 hl).1
    exact ⟨l, k, hl, hkl, hk, hnew l c k hl hkl⟩
  have hne : ∀ {c x : Nat}, q[c]? = some x → x ≠ b → p'[c]? = p[c]? := by
    intro c x hc hx
    exact hold c (by rw [hc]; simpa using hx)
  refine ⟨hlen.trans hs.len, by omega, ?_, ?_, ?_, ?_, ?_⟩
  · intro c x hc hx
    rw [hne hc (by omega)]
    exact hs.keep c x hc (by omega)
  · intro c x hc hx
    by_cases hxb : x = b
    · subst hxb
      obtain ⟨l, k, hl, hkl, hk, hv⟩ := hblk hc
      refine ⟨_, hv, ?_⟩
      split
      · left; rfl
      · right; omega
    · rw [hne hc hxb]
      obtain ⟨v, hv, h⟩ := hs.val c x hc (by omega)
      exact ⟨v, hv, by omega⟩
  · -- connectedness
    have mixed : ∀ c d x : Nat, q[c]? = some x → q[d]? = some b → x < b → p'[c]? ≠ p'[d]? := by
      intro c d x hc hd hx heq
      rw [hne hc (by omega)] at heq
      obtain ⟨v, hv, h⟩ := hs.val c x hc hx
      obtain ⟨l, k, hl, hkl, hk, hv'⟩ := hblk hd
      rw [hv, hv'] at heq
      have := Option.some.inj heq
      split at this <;> omega
    intro c d x y hc hd hx hy
    by_cases hxb : x = b
    · by_cases hyb : y = b
      · subst hxb; subst hyb
        obtain ⟨l, k, hl, hkl, hk, hv⟩ := hblk hc
        obtain ⟨l', k', hl', hkl', hk', hv'⟩ := hblk hd
        rw [← hlink l l' c d hl hl', hv, hv', hkl, hkl']
        simp only [Option.some.injEq]
        split <;> split <;> omega
      · subst hxb
        constructor
        · intro h; exact absurd h.symm (mixed d c y hd hc (by omega))
        · intro h
          have := h.same
          rw [hc, hd] at this
          simp at this; omega
    · by_cases hyb : y = b
      · subst hyb
        constructor
        · intro h; exact absurd h (mixed c d x hc hd (by omega))
        · intro h
          have := h.same
          rw [hc, hd] at this
          simp at this; omega
      · rw [hne hc hxb, hne hd hyb]
        exact hs.conn c d x y hc hd (by omega) (by omega)
  · intro v h1 h2
    by_cases hv : v < nb q + r
    · obtain ⟨c, hc, x, hx, hxb⟩ := hs.new v h1 hv
      exact ⟨c, by rw [hne hx (by omega)]; exact hc, x, hx, by omega⟩
    · obtain ⟨k, hk⟩ : ∃ k : Nat, (k : Int) = v - ((nb q : Int) - 1) - r := ⟨(v - ((nb q : Int) - 1) - r).toNat, by omega⟩
      obtain ⟨l, hl, hkl⟩ := hsur k (by omega)
      have hci := List.getElem?_eq_getElem hl
      refine ⟨_, ?_, b, mem_cells.1 (List.getElem_mem hl), by omega⟩
      rw [hnew l _ k hci hkl, if_neg (by omega)]
      congr 1; omega
  · intro c x hc
    by_cases hxb : x = b
    · subst hxb
      obtain ⟨l, k, hl, hkl, hk, hv⟩ := hblk hc
      obtain ⟨l0, hl0, hk0⟩ := hsur 0 (by omega)
      have hci := List.getElem?_eq_getElem hl0
      exact ⟨_, mem_cells.1 (List.getElem_mem hl0), by simpa using hnew l0 _ 0 hci hk0⟩
    · obtain ⟨d, hd, hpd⟩ := hs.old c x hc
      exact ⟨d, hd, by rw [hne hd hxb]; exact hpd⟩

/-- The whole function on any connectivity that lists symmetric rows. -/
theorem splitWith_ok (hc : C2C q.length pc2c c2c R) (hg : Good q R)
    (hcap : ∀ (b : Nat) (loc : List Nat), b < nb q → items q b R (fun d => loc.getD d 0) = [] ∨
      ((items q b R (fun d => loc.getD d 0)).length : Int) ≤ nConn q pc2c b) :
    ∃ fuel0, ∀ fuel, fuel0 ≤ fuel → ∃ p' r, splitWith fuel q.length pc2c c2c (ints q) = .ok (p', r) ∧
      Split q R (nb q) p' r := by
  have hN : ((nb q : Int) - 1 + 1).toNat = nb q := by omega
  obtain ⟨loc, e2, _, hloc⟩ := localidx_ok q (List.replicate q.length 0) (by simp)
  have hf : Fixed q R pc2c c2c loc := ⟨hc, hloc⟩
  obtain ⟨n, m, e3, hn0, hm0, hsz⟩ := countBlockConns_ok hc
  refine ⟨4 * (n.toNat * m.toNat) + n.toNat + 4, ?_⟩
  intro fuel hfuel
  obtain ⟨t, ht, hS, _⟩ := loop_inv (n := nb q)
    (s := ({ p := ints q, ia := List.replicate (n.toNat + 1) 0, ja := List.replicate m.toNat 0,
             colour := List.replicate n.toNat 0, work := List.replicate (2 * n.toNat) 0, ret := 0 } : SplitState))
    (f := splitBlock fuel ((nb q : Int) - 1) loc (boundaries 0 (rows (nb q) q.zipIdx)) (rows (nb q) q.zipIdx).flatten pc2c c2c)
    (fun b st => Split q R b st.p st.ret ∧ st.ia.length = n.toNat + 1 ∧ st.ja.length = m.toNat ∧
      st.colour.length = n.toNat ∧ st.work.length = 2 * n.toNat)
    ⟨split_init q R, by simp, by simp, by simp, by simp⟩
    (by
      rintro b st hb ⟨hS, hia, hja, hcl, hwl⟩
      obtain ⟨hz1, hz2⟩ := hsz b hb
      have hml : (cells q b).length ≤ n.toNat := by omega
      have hil : (items q b R (fun d => loc.getD d 0)).length ≤ m.toNat := by
        rcases hcap b loc hb with h | h
        · rw [h]; simp
        · omega
      obtain ⟨ia', ja', tail, f1, g1, g2, g3, g4⟩ := createBlockConns_ok (p := st.p) (ia := st.ia) (ja := st.ja) hf hb
        (hS.sameBlock hb) (by omega) (by omega)
      have hfb : 4 * ((cells q b).length * ja'.length) + (cells q b).length + 4 ≤ fuel := by
        rw [g2, hja]
        have := Nat.mul_le_mul_right m.toNat hml
        omega
      obtain ⟨color', work', nc, f2, h2, h3, h4, h5, h6⟩ := block_dfs (color := st.colour) (work := st.work) hf hg g3 g4 hfb
        (by omega) (by omega)
      obtain ⟨st', f3, k1, k2, k3, k4, k5, k6, k7, k8⟩ := renumber_ok (R := R) (nc := nc)
        (st := { st with ia := ia', ja := ja', colour := color', work := work' }) hb hS h4
      have ha := boundaries_rows_get (nb q) q.zipIdx (show b ≤ nb q by omega)
      have he := boundaries_rows_get (nb q) q.zipIdx (show b + 1 ≤ nb q from hb)
      have hst : start q.zipIdx (b + 1) - start q.zipIdx b = (cells q b).length := by
        simp only [start, cells]; omega
      refine ⟨st', ?_, ?_, ?_, ?_, ?_, ?_⟩
      · unfold splitBlock
        rw [f1, bind_ok, rd_of_getElem? he, bind_ok, rd_of_getElem? ha, bind_ok, hst, f2, bind_ok, f3]
      · rw [k5]
        exact split_step hb hS k6 h4 h5 h6 k7 k8
      · rw [k1]; simp only; omega
      · rw [k2]; simp only; omega
      · rw [k3]; simp only; omega
      · rw [k4]; simp only; omega)
  refine ⟨t.p, t.ret, ?_, hS⟩
  unfold splitWith
  rw [maxBlock_ok, bind_ok]
  simp only [hN]
  rw [invert_ok q _ _ (by simp) (by simp), bind_ok, e2, bind_ok, e3, bind_ok, ht, bind_ok]

end

end Opm.Partition
