import Verif.Proofs.Connections
/-!
# Room for crossings

If `findconnections` does not leave the buffer for crossings, there was room for all of them: with a larger buffer it does the same.
-/

namespace Opm.Cpg
open Opm

theorem wr_append {α : Type _} {b b' : List α} {k : Nat} {x : α} (e : List α) (h : wr b k x = .ok b') : wr (b ++ e) k x = .ok (b' ++ e) := by
  obtain ⟨hk, rfl⟩ := wr_eq_ok.1 h
  rw [wr_ok (by rw [List.length_append]; omega), List.set_append_left _ _ hk]

/-- The pointer is within its buffer. -/
def Inb (c : Cur Int) : Prop := c.pos ≤ c.buf.length

/-- With more room. -/
def _root_.Opm.Cur.more (c : Cur Int) (e : List Int) : Cur Int := ⟨c.buf ++ e, c.pos⟩

theorem put_more {c c' : Cur Int} {x : Int} (e : List Int) (h : c.put x = .ok c') : (c.more e).put x = .ok (c'.more e) ∧ Inb c' := by
  unfold Cur.put at h
  obtain ⟨b, h1, h2⟩ := bind_eq_ok.1 h
  cases h2
  obtain ⟨hk, hb⟩ := wr_eq_ok.1 h1
  refine ⟨?_, ?_⟩
  · unfold Cur.put Cur.more
    simp only
    rw [wr_append e h1, bind_ok]
  · unfold Inb
    simp only
    rw [hb, List.length_set]
    omega

theorem puts_more {xs : List Int} (e : List Int) : ∀ {c c' : Cur Int}, Inb c → c.puts xs = .ok c' → (c.more e).puts xs = .ok (c'.more e) ∧ Inb c' := by
  induction xs with
  | nil => intro c c' hc h; cases h; exact ⟨rfl, hc⟩
  | cons x xs ih =>
    intro c c' hc h
    unfold Cur.puts at h
    rw [List.foldlM_cons] at h
    obtain ⟨c1, h1, h2⟩ := bind_eq_ok.1 h
    obtain ⟨g1, g2⟩ := put_more e h1
    obtain ⟨g3, g4⟩ := ih g2 h2
    refine ⟨?_, g4⟩
    unfold Cur.puts at g3 ⊢
    rw [List.foldlM_cons, g1, bind_ok]
    exact g3

/-- More room for crossings. -/
def Conn.more (s : Conn) (e : List Int) : Conn := { s with x := s.x.more e }

/-- The operation does the same if there is more room for crossings. -/
def Framed (F : Conn → M Conn) : Prop := ∀ (e : List Int) (s s' : Conn), Inb s.x → F s = .ok s' → F (s.more e) = .ok (s'.more e) ∧ Inb s'.x

theorem addFace_framed (a b : Int) (ns : List Int) : Framed (fun s => s.addFace a b ns) := by
  intro e s s' hs h
  unfold Conn.addFace at h ⊢
  obtain ⟨c, h1, h⟩ := bind_eq_ok.1 h
  obtain ⟨f, h2, h⟩ := bind_eq_ok.1 h
  obtain ⟨p, h3, h⟩ := bind_eq_ok.1 h
  cases h
  refine ⟨?_, hs⟩
  unfold Conn.more
  simp only
  rw [h1, bind_ok, h2, bind_ok, h3, bind_ok]

theorem maybeFace_framed (i : Nat) (a b : Layer) (ns : List Int) : Framed (fun s => s.maybeFace i a b ns) := by
  intro e s s' hs h
  have ej : (s.more e).j = s.j := rfl
  simp only [Conn.maybeFace, ej] at h ⊢
  split at h
  · rename_i h1
    rw [if_pos h1]
    split at h
    · rename_i h2
      rw [if_pos h2]
      exact addFace_framed _ _ _ e s s' hs h
    · rename_i h2
      rw [if_neg h2]
      cases h
      exact ⟨rfl, hs⟩
  · rename_i h1
    rw [if_neg h1]
    cases h
    exact ⟨rfl, hs⟩

theorem newX_framed (a b : Layer) : Framed (fun s => s.newX a b) := by
  intro e s s' hs h
  simp only [Conn.newX] at h ⊢
  split at h
  · rename_i h1
    rw [if_pos h1]
    obtain ⟨t, h2, h⟩ := bind_eq_ok.1 h
    obtain ⟨x, h3, h⟩ := bind_eq_ok.1 h
    cases h
    obtain ⟨g1, g2⟩ := puts_more e hs h3
    refine ⟨?_, g2⟩
    unfold Conn.more
    simp only
    rw [h2, bind_ok, g1, bind_ok]
  · rename_i h1
    rw [if_neg h1]
    obtain ⟨t, h2, h⟩ := bind_eq_ok.1 h
    cases h
    refine ⟨?_, hs⟩
    unfold Conn.more
    simp only
    rw [h2, bind_ok]

theorem nonMatching_framed (i : Nat) (a b : Layer) : Framed (fun s => s.nonMatching i a b) := by
  intro e s s' hs h
  simp only [Conn.nonMatching] at h ⊢
  obtain ⟨t, h1, h⟩ := bind_eq_ok.1 h
  obtain ⟨g1, g2⟩ := newX_framed a b e s t hs h1
  simp only at g1
  rw [g1, bind_ok]
  obtain ⟨x0, k0, h⟩ := bind_eq_ok.1 h
  obtain ⟨x1, k1, h⟩ := bind_eq_ok.1 h
  obtain ⟨x2, k2, h⟩ := bind_eq_ok.1 h
  obtain ⟨x3, k3, h⟩ := bind_eq_ok.1 h
  have eb : (t.more e).bot = t.bot := rfl
  have et : (t.more e).top = t.top := rfl
  have ej : (t.more e).j = t.j := rfl
  rw [eb, et, ej, k0, bind_ok, k1, bind_ok, k2, bind_ok, k3, bind_ok]
  exact maybeFace_framed i a b _ e t s' g2 h

theorem pair_framed (i : Nat) (a b : Layer) : Framed (fun s => s.pair i a b) := by
  intro e s s' hs h
  simp only [Conn.pair] at h ⊢
  split at h
  · rename_i h1
    rw [if_pos h1]
    split at h
    · rename_i h2
      rw [if_pos h2]
      exact maybeFace_framed i a b _ e s s' hs h
    · rename_i h2
      rw [if_neg h2]
      exact nonMatching_framed i a b e s s' hs h
  · rename_i h1
    rw [if_neg h1]
    cases h
    exact ⟨rfl, hs⟩

theorem step_framed (i : Nat) (a b : Layer) : Framed (fun s => s.step i a b) := by
  intro e s s' hs h
  simp only [Conn.step] at h ⊢
  split at h
  · rename_i h1
    rw [if_pos h1]
    obtain ⟨t, h2, h⟩ := bind_eq_ok.1 h
    obtain ⟨u, h3, h⟩ := bind_eq_ok.1 h
    cases h
    refine ⟨?_, hs⟩
    unfold Conn.more
    simp only
    rw [h2, bind_ok, h3, bind_ok]
  · rename_i h1
    rw [if_neg h1]
    obtain ⟨t, h2, h⟩ := bind_eq_ok.1 h
    cases h
    obtain ⟨g1, g2⟩ := pair_framed i a b e s t hs h2
    simp only at g1
    rw [g1, bind_ok]
    exact ⟨rfl, g2⟩

theorem whileFuel_framed {F : Conn → M (Conn × Bool)} (hF : ∀ (e : List Int) (s s' : Conn) (b : Bool), Inb s.x → F s = .ok (s', b) → F (s.more e) = .ok (s'.more e, b) ∧ Inb s'.x) (n : Nat) :
    Framed (fun s => whileFuel n F s) := by
  induction n with
  | zero => intro e s s' _ h; cases h
  | succ n ih =>
    intro e s s' hs h
    simp only [whileFuel] at h ⊢
    obtain ⟨⟨t, b⟩, h1, h⟩ := bind_eq_ok.1 h
    obtain ⟨g1, g2⟩ := hF e s t b hs h1
    rw [g1, bind_ok]
    simp only at h ⊢
    cases b with
    | true =>
      rw [if_pos rfl] at h ⊢
      exact ih e t s' g2 h
    | false =>
      rw [if_neg (by decide)] at h ⊢
      cases h
      exact ⟨rfl, g2⟩

theorem row_framed (plist : List Int) (pb qb n i : Nat) (a : Layer) : Framed (fun s => s.row plist pb qb n i a) := by
  refine whileFuel_framed ?_ n
  intro e s s' b hs h
  have ej : (s.more e).j = s.j := rfl
  rw [ej]
  split at h
  · rename_i h1
    rw [if_pos h1]
    obtain ⟨l, h2, h⟩ := bind_eq_ok.1 h
    rw [h2, bind_ok]
    split at h
    · rename_i h3
      rw [if_pos h3]
      obtain ⟨t, h4, h⟩ := bind_eq_ok.1 h
      cases h
      obtain ⟨g1, g2⟩ := step_framed i a l e s _ hs h4
      simp only at g1
      rw [g1, bind_ok]
      exact ⟨rfl, g2⟩
    · rename_i h3
      rw [if_neg h3]
      cases h
      exact ⟨rfl, hs⟩
  · rename_i h1
    rw [if_neg h1]
    cases h
    exact ⟨rfl, hs⟩

theorem line_framed (plist : List Int) (pa qa pb qb n i : Nat) : Framed (Conn.line plist pa qa pb qb n i) := by
  intro e s s' hs h
  simp only [Conn.line] at h ⊢
  obtain ⟨a, h1, h⟩ := bind_eq_ok.1 h
  rw [h1, bind_ok]
  split at h
  · rename_i h2
    rw [if_pos h2]
    cases h
    exact ⟨rfl, hs⟩
  · rename_i h2
    rw [if_neg h2]
    obtain ⟨t, h3, h⟩ := bind_eq_ok.1 h
    obtain ⟨u, h4, h⟩ := bind_eq_ok.1 h
    cases h
    obtain ⟨g1, g2⟩ := row_framed plist pb qb n i a e s t hs h3
    simp only at g1
    rw [g1, bind_ok]
    have eb : (t.more e).bot = t.bot := rfl
    rw [eb, h4, bind_ok]
    exact ⟨rfl, g2⟩

theorem loop_framed {F : Nat → Conn → M Conn} (hF : ∀ k, Framed (F k)) (n : Nat) : Framed (fun s => loop n F s) := by
  induction n with
  | zero => intro e s s' hs h; cases h; exact ⟨rfl, hs⟩
  | succ n ih =>
    intro e s s' hs h
    simp only [loop_succ] at h ⊢
    obtain ⟨t, h1, h⟩ := bind_eq_ok.1 h
    obtain ⟨g1, g2⟩ := ih e s t hs h1
    simp only at g1
    rw [g1, bind_ok]
    exact hF n e t s' g2 h

theorem findConnections_framed {plist : List Int} {pa qa pb qb n : Nat} {f c x : Cur Int} {ptr : List Nat} {nf nn : Nat} {w0 w1 : List Int} {s : Conn} (e : List Int) (hx : Inb x)
    (h : findConnections plist pa qa pb qb n f c x ptr nf nn w0 w1 = .ok s) :
    findConnections plist pa qa pb qb n f c (x.more e) ptr nf nn w0 w1 = .ok (s.more e) ∧ Inb s.x :=
  loop_framed (fun k => line_framed plist pa qa pb qb n k) (n - 1) e _ s hx h

/-- If `findconnections` succeeds, the crossings fit into their buffer. -/
theorem findConnections_room {A B : Stack} {n np capF capC capX capP : Nat} {fs0 : List Face} {qs0 : List (List Int)} {plist : List Int} {pa qa pb qb : Nat} (hA : A.Ok n) (hB : B.Ok n)
    (hpa : ColAt plist pa n A.p) (hqa : ColAt plist qa n A.q) (hpb : ColAt plist pb n B.p) (hqb : ColAt plist qb n B.q)
    (h1 : (faceNodes (fs0 ++ connFaces A B n (np + qs0.length))).length ≤ capF) (h2 : 2 * (fs0 ++ connFaces A B n (np + qs0.length)).length ≤ capC)
    (h3 : (fs0 ++ connFaces A B n (np + qs0.length)).length < capP) {f c x : Cur Int} {ptr : List Nat}
    (hf : f.Rep capF (faceNodes fs0)) (hc : c.Rep capC (faceNbrs fs0)) (hx : x.Rep capX qs0.flatten) (hp : ptr.length = capP)
    (hpt : ptr.take (fs0.length + 1) = facePtr fs0) {s : Conn}
    (h : findConnections plist pa qa pb qb n f c x ptr fs0.length (np + qs0.length) (List.replicate n (-1)) (List.replicate n (-1)) = .ok s) :
    (qs0 ++ crossings A B n).flatten.length ≤ capX := by
  have hin : Inb x := by
    have := congrArg List.length hx.2.2
    rw [List.length_take] at this
    unfold Inb
    rw [hx.1]
    omega
  obtain ⟨e1, e2⟩ := findConnections_framed (List.replicate (qs0 ++ crossings A B n).flatten.length 0) hin h
  obtain ⟨s', e3, g, _⟩ := findConnections_ok (np := np) (capF := capF) (capC := capC) (capX := capX + (qs0 ++ crossings A B n).flatten.length) (capP := capP) (fs0 := fs0) (qs0 := qs0)
    hA hB hpa hqa hpb hqb ⟨h1, h2, Nat.le_add_left _ _, h3⟩ (x := x.more (List.replicate (qs0 ++ crossings A B n).flatten.length 0)) hf hc (by
      refine ⟨hx.1, ?_, ?_⟩
      · unfold Cur.more
        simp only [List.length_append, List.length_replicate, hx.2.1]
      · unfold Cur.more
        simp only
        rw [List.take_append_of_le_length, hx.2.2]
        have := congrArg List.length hx.2.2
        rw [List.length_take] at this
        omega) hp hpt rfl rfl
  rw [e1] at e3
  cases e3
  have g1 : s.x.pos = (qs0 ++ crossings A B n).flatten.length := g.x.1
  have g2 : (s.x.buf ++ List.replicate (qs0 ++ crossings A B n).flatten.length (0 : Int)).length = capX + (qs0 ++ crossings A B n).flatten.length := g.x.2.1
  rw [List.length_append, List.length_replicate] at g2
  unfold Inb at e2
  omega

end Opm.Cpg
