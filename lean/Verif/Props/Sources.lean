import Verif.Model.Sources
import Verif.Proofs.Rows
/-!
# C25, C26: source-term containers and compressible boundary conditions
-/

namespace Opm.Sources
open Opm

theorem grow_gt (n : Nat) : n < grow n := by unfold grow; split <;> omega

/-! ### C25, transport sources -/

/-- A source term as seen by the user. -/
structure TTerm where
  cell : Int
  pressure : Rat
  flux : Rat
  sat : List Rat
  vol : List Rat
  deriving DecidableEq, Repr

/-- A call. -/
inductive TOp where
  | append (nphase : Int) (t : TTerm)
  | clear

/-- The list a history should leave, and the return values of the append calls: terms with the wrong number
of phases are rejected with `-1`. -/
def tspec (np : Nat) : List TOp → List TTerm × List Int → List TTerm × List Int
  | [], r => r
  | .clear :: ops, (_, st) => tspec np ops ([], st)
  | .append n t :: ops, (ts, st) => if n = np then tspec np ops (ts ++ [t], st ++ [1]) else tspec np ops (ts, st ++ [-1])

/-- The calls executed on the structure, collecting the return values. -/
def trun (J : Junk) : List TOp → TSrc × List Int → M (TSrc × List Int)
  | [], r => .ok r
  | .clear :: ops, (s, st) => trun J ops (s.clear, st)
  | .append n t :: ops, (s, st) => do
    let r ← s.append J t.cell n t.pressure t.flux t.sat t.vol
    trun J ops (r.2, st ++ [r.1])

/-- What a client reads for source term `i`. -/
def TSrc.get (s : TSrc) (i : Nat) : M TTerm := do
  let c ← rd s.cell i
  let p ← rd s.pressure i
  let v ← rd s.flux i
  let sat ← slice s.saturation (i * s.nphase) ((i + 1) * s.nphase)
  let z ← slice s.surfvolume (i * s.nphase) ((i + 1) * s.nphase)
  .ok ⟨c, p, v, sat, z⟩

/-- The arrays passed to accepted calls have one entry per phase. -/
def TOp.Ok (np : Nat) : TOp → Prop
  | .append n t => n = np → t.sat.length = np ∧ t.vol.length = np
  | .clear => True

structure TRep (np : Nat) (s : TSrc) (ts : List TTerm) : Prop where
  hnp : s.nphase = np
  n : s.nsrc = ts.length
  cap : ts.length ≤ s.cpty
  lc : s.cell.length = s.cpty
  lp : s.pressure.length = s.cpty
  lv : s.flux.length = s.cpty
  ls : s.saturation.length = s.cpty * np
  lz : s.surfvolume.length = s.cpty * np
  rows : ∀ t ∈ ts, t.sat.length = np ∧ t.vol.length = np
  cell : s.cell.take (ts.map TTerm.cell).length = ts.map TTerm.cell
  pressure : s.pressure.take (ts.map TTerm.pressure).length = ts.map TTerm.pressure
  flux : s.flux.take (ts.map TTerm.flux).length = ts.map TTerm.flux
  sat : s.saturation.take ((ts.map TTerm.sat).length * np) = (ts.map TTerm.sat).flatten
  vol : s.surfvolume.take ((ts.map TTerm.vol).length * np) = (ts.map TTerm.vol).flatten

theorem TRep.expand {np : Nat} {s : TSrc} {ts : List TTerm} (h : TRep np s ts) (J : Junk) (k : Nat) (hk : ts.length ≤ k) :
    TRep np (s.expand J k) ts := by
  have hc := h.cap
  unfold TSrc.expand
  rw [h.hnp]
  obtain ⟨a1, a2⟩ := realloc_elem (junk := J.int) (n := k * 1) h.cell h.lc (by simpa using hc) (by simp; omega)
  obtain ⟨b1, b2⟩ := realloc_elem (junk := J.dbl) (n := k * 1) h.pressure h.lp (by simpa using hc) (by simp; omega)
  obtain ⟨c1, c2⟩ := realloc_elem (junk := J.dbl) (n := k * 1) h.flux h.lv (by simpa using hc) (by simp; omega)
  obtain ⟨d1, d2⟩ := realloc_row (junk := J.dbl) (k := k) h.sat h.ls (by simpa using hc) (by simpa using hk)
  obtain ⟨e1, e2⟩ := realloc_row (junk := J.dbl) (k := k) h.vol h.lz (by simpa using hc) (by simpa using hk)
  exact ⟨rfl, h.n, hk, by simp, by simp, by simp, d1, e1, h.rows, a2, b2, c2, d2, e2⟩

theorem TRep.append {np : Nat} {s : TSrc} {ts : List TTerm} (h : TRep np s ts) (J : Junk) (t : TTerm)
    (ht : t.sat.length = np ∧ t.vol.length = np) :
    ∃ s', s.append J t.cell np t.pressure t.flux t.sat t.vol = .ok (1, s') ∧ TRep np s' (ts ++ [t]) := by
  unfold TSrc.append
  rw [if_neg (by rw [h.hnp]; simp)]
  have hr : ∃ s1 : TSrc, (if s.nsrc = s.cpty then s.expand J (grow s.cpty) else s) = s1 ∧ TRep np s1 ts ∧ ts.length < s1.cpty := by
    have hc := h.cap
    have hg := grow_gt s.cpty
    split
    · exact ⟨_, rfl, h.expand J _ (by omega), by show ts.length < grow s.cpty; omega⟩
    · rename_i hne
      rw [h.n] at hne
      exact ⟨_, rfl, h, by omega⟩
  obtain ⟨s1, e1, r1, hlt⟩ := hr
  simp only
  rw [e1, r1.n]
  obtain ⟨c', w1, l1, t1⟩ := wr_elem (e := t.cell) r1.cell r1.lc (by simpa using hlt)
  obtain ⟨p', w2, l2, t2⟩ := wr_elem (e := t.pressure) r1.pressure r1.lp (by simpa using hlt)
  obtain ⟨v', w3, l3, t3⟩ := wr_elem (e := t.flux) r1.flux r1.lv (by simpa using hlt)
  obtain ⟨s', w4, l4, t4⟩ := memcpy_row (r := t.sat) r1.sat r1.ls (by simpa using hlt) ht.1
  obtain ⟨z', w5, l5, t5⟩ := memcpy_row (r := t.vol) r1.vol r1.lz (by simpa using hlt) ht.2
  rw [List.length_map] at w1 w2 w3 w4 w5
  rw [Int.toNat_natCast, w1, bind_ok, w2, bind_ok, w3, bind_ok, w4, bind_ok, w5, bind_ok]
  refine ⟨_, rfl, ⟨r1.hnp, by simp, by rw [List.length_append]; exact hlt, l1, l2, l3, l4, l5, ?_, ?_, ?_, ?_, ?_, ?_⟩⟩
  · intro x hx
    rcases List.mem_append.1 hx with hx | hx
    · exact r1.rows x hx
    · rw [List.mem_singleton] at hx; subst hx; exact ht
  all_goals rw [List.map_append]; first | exact t1 | exact t2 | exact t3 | exact t4 | exact t5

theorem TRep.clear {np : Nat} {s : TSrc} {ts : List TTerm} (h : TRep np s ts) : TRep np s.clear [] :=
  ⟨h.hnp, rfl, Nat.zero_le _, h.lc, h.lp, h.lv, h.ls, h.lz, by simp, by simp, by simp, by simp, by simp, by simp⟩

theorem TRep.run {np : Nat} (J : Junk) (ops : List TOp) (hops : ∀ op ∈ ops, op.Ok np) {s : TSrc} {ts : List TTerm} (h : TRep np s ts) (st : List Int) :
    ∃ s', trun J ops (s, st) = .ok (s', (tspec np ops (ts, st)).2) ∧ TRep np s' (tspec np ops (ts, st)).1 := by
  induction ops generalizing s ts st with
  | nil => exact ⟨s, rfl, h⟩
  | cons op ops ih =>
    have hrest := fun op h => hops op (List.mem_cons_of_mem _ h)
    cases op with
    | clear => exact ih hrest h.clear st
    | append n t =>
      unfold trun tspec
      by_cases hn : n = np
      · rw [if_pos hn]
        have ht := hops _ List.mem_cons_self hn
        subst hn
        obtain ⟨s1, e1, r1⟩ := h.append J t ht
        rw [e1, bind_ok]
        exact ih hrest r1 _
      · rw [if_neg hn]
        have : s.append J t.cell n t.pressure t.flux t.sat t.vol = .ok (-1, s) := by
          unfold TSrc.append
          rw [if_pos (by rw [h.hnp]; exact hn)]
        rw [this, bind_ok]
        exact ih hrest h _

theorem TRep.get {np : Nat} {s : TSrc} {ts : List TTerm} (h : TRep np s ts) (i : Nat) (t : TTerm) (ht : ts[i]? = some t) : s.get i = .ok t := by
  have hm : ∀ {β : Type} (f : TTerm → β), (ts.map f)[i]? = some (f t) := by intro β f; rw [List.getElem?_map, ht]; rfl
  unfold TSrc.get
  rw [rd_elem h.cell (hm _), bind_ok, rd_elem h.pressure (hm _), bind_ok, rd_elem h.flux (hm _), bind_ok, h.hnp,
    slice_row (by intro r hr; obtain ⟨x, hx, rfl⟩ := List.mem_map.1 hr; exact (h.rows x hx).1) h.sat (hm _), bind_ok,
    slice_row (by intro r hr; obtain ⟨x, hx, rfl⟩ := List.mem_map.1 hr; exact (h.rows x hx).2) h.vol (hm _), bind_ok]

/-- **C25, transport sources.** A non-positive number of phases gives no container.  Otherwise, whatever the
capacity hint, the contents of fresh memory and the history of calls, all writes are inside the allocated
storage, calls with a wrong number of phases are rejected (return value -1) without effect, the number of terms is
that of the appended list since the last clear, and reading term `i` gives what was appended. -/
theorem transport_sources_are_a_list (J : Junk) (nsrc np : Int) :
    (np ≤ 0 → TSrc.create J nsrc np = none) ∧
    (0 < np → ∃ s0, TSrc.create J nsrc np = some s0 ∧
      ∀ ops : List TOp, (∀ op ∈ ops, op.Ok np.toNat) →
        ∃ s, trun J ops (s0, []) = .ok (s, (tspec np.toNat ops ([], [])).2) ∧ s.nsrc = (tspec np.toNat ops ([], [])).1.length ∧
          ∀ (i : Nat) (t : TTerm), (tspec np.toNat ops ([], [])).1[i]? = some t → s.get i = .ok t) := by
  constructor
  · intro h; unfold TSrc.create; rw [if_pos h]
  · intro h
    have h0 : TRep np.toNat { nsrc := 0, cpty := 0, nphase := np.toNat, cell := [], pressure := [], flux := [], saturation := [], surfvolume := [] } [] :=
      ⟨rfl, rfl, Nat.zero_le _, rfl, rfl, rfl, by simp, by simp, by simp, by simp, by simp, by simp, by simp, by simp⟩
    have hc : ∃ s0, TSrc.create J nsrc np = some s0 ∧ TRep np.toNat s0 [] := by
      unfold TSrc.create
      rw [if_neg (by omega)]
      simp only
      split
      · exact ⟨_, rfl, h0.expand J _ (by simp)⟩
      · exact ⟨_, rfl, h0⟩
    obtain ⟨s0, e0, r0⟩ := hc
    refine ⟨s0, e0, ?_⟩
    intro ops hops
    obtain ⟨s, e, r⟩ := r0.run J ops hops []
    exact ⟨s, e, r.n, r.get⟩

/-- A history with growth, a rejected call and a clear. -/
example : tspec 2 [.append 2 ⟨1, 0, 1, [1, 0], [0, 0]⟩, .clear, .append 2 ⟨3, 5, -2, [0, 1], [1, 2]⟩, .append 3 ⟨4, 0, 0, [], []⟩,
    .append 2 ⟨7, 1, 1, [1, 1], [2, 2]⟩] ([], []) =
      ([⟨3, 5, -2, [0, 1], [1, 2]⟩, ⟨7, 1, 1, [1, 1], [2, 2]⟩], [1, 1, -1, 1]) := by decide +kernel

/-! ### C25, compressible sources -/

/-- A source term as seen by the user. -/
structure CTerm where
  cell : Int
  flux : Rat
  sat : List Rat
  deriving DecidableEq, Repr

/-- A call. -/
inductive COp where
  | append (np : Int) (t : CTerm)
  | clear

/-- The list a history should leave, and the return values of the append calls. -/
def cspec (np : Nat) : List COp → List CTerm × List Int → List CTerm × List Int
  | [], r => r
  | .clear :: ops, (_, st) => cspec np ops ([], st)
  | .append n t :: ops, (ts, st) => if n = np then cspec np ops (ts ++ [t], st ++ [1]) else cspec np ops (ts, st ++ [-1])

/-- The calls executed on the structure, collecting the return values. -/
def crun (J : Junk) : List COp → CSrc × List Int → M (CSrc × List Int)
  | [], r => .ok r
  | .clear :: ops, (s, st) => crun J ops (s.clear, st)
  | .append n t :: ops, (s, st) => do
    let r ← s.append J t.cell n t.flux t.sat
    crun J ops (r.2, st ++ [r.1])

/-- What a client reads for source term `i`. -/
def CSrc.get (s : CSrc) (i : Nat) : M CTerm := do
  let c ← rd s.cell i
  let v ← rd s.flux i
  let sat ← slice s.saturation (i * s.nphases) ((i + 1) * s.nphases)
  .ok ⟨c, v, sat⟩

/-- The arrays passed to accepted calls have one entry per phase. -/
def COp.Ok (np : Nat) : COp → Prop
  | .append n t => n = np → t.sat.length = np
  | .clear => True

structure CRep (np : Nat) (s : CSrc) (ts : List CTerm) : Prop where
  hnp : s.nphases = np
  n : s.nsrc = ts.length
  cap : ts.length ≤ s.cpty
  lc : s.cell.length = s.cpty
  lv : s.flux.length = s.cpty
  ls : s.saturation.length = s.cpty * np
  rows : ∀ t ∈ ts, t.sat.length = np
  cell : s.cell.take (ts.map CTerm.cell).length = ts.map CTerm.cell
  flux : s.flux.take (ts.map CTerm.flux).length = ts.map CTerm.flux
  sat : s.saturation.take ((ts.map CTerm.sat).length * np) = (ts.map CTerm.sat).flatten

theorem CRep.expand {np : Nat} {s : CSrc} {ts : List CTerm} (h : CRep np s ts) (J : Junk) (k : Nat) (hk : ts.length ≤ k) :
    CRep np (s.expand J k) ts := by
  have hc := h.cap
  unfold CSrc.expand
  rw [h.hnp]
  obtain ⟨a1, a2⟩ := realloc_elem (junk := J.int) (n := k * 1) h.cell h.lc (by simpa using hc) (by simp; omega)
  obtain ⟨c1, c2⟩ := realloc_elem (junk := J.dbl) (n := k * 1) h.flux h.lv (by simpa using hc) (by simp; omega)
  obtain ⟨d1, d2⟩ := realloc_row (junk := J.dbl) (k := k) h.sat h.ls (by simpa using hc) (by simpa using hk)
  exact ⟨rfl, h.n, hk, by simp, by simp, d1, h.rows, a2, c2, d2⟩

theorem CRep.append {np : Nat} {s : CSrc} {ts : List CTerm} (h : CRep np s ts) (J : Junk) (t : CTerm) (ht : t.sat.length = np) :
    ∃ s', s.append J t.cell np t.flux t.sat = .ok (1, s') ∧ CRep np s' (ts ++ [t]) := by
  unfold CSrc.append
  rw [if_neg (by rw [h.hnp]; simp)]
  have hr : ∃ s1 : CSrc, s.reserve J = .ok s1 ∧ CRep np s1 ts ∧ ts.length < s1.cpty := by
    have hc := h.cap
    have hg := grow_gt s.cpty
    unfold CSrc.reserve
    split
    · exact ⟨_, rfl, h.expand J _ (by omega), by show ts.length < grow s.cpty; omega⟩
    · rename_i hne
      rw [h.n] at hne ⊢
      rw [check_ok (by simp; omega), bind_ok]
      exact ⟨_, rfl, h, by omega⟩
  obtain ⟨s1, e1, r1, hlt⟩ := hr
  rw [e1, bind_ok, r1.n]
  obtain ⟨c', w1, l1, t1⟩ := wr_elem (e := t.cell) r1.cell r1.lc (by simpa using hlt)
  obtain ⟨v', w3, l3, t3⟩ := wr_elem (e := t.flux) r1.flux r1.lv (by simpa using hlt)
  obtain ⟨s', w4, l4, t4⟩ := memcpy_row (r := t.sat) r1.sat r1.ls (by simpa using hlt) ht
  rw [List.length_map] at w1 w3 w4
  rw [Int.toNat_natCast, w1, bind_ok, w3, bind_ok, w4, bind_ok]
  refine ⟨_, rfl, ⟨r1.hnp, by simp, by rw [List.length_append]; exact hlt, l1, l3, l4, ?_, ?_, ?_, ?_⟩⟩
  · intro x hx
    rcases List.mem_append.1 hx with hx | hx
    · exact r1.rows x hx
    · rw [List.mem_singleton] at hx; subst hx; exact ht
  all_goals rw [List.map_append]; first | exact t1 | exact t3 | exact t4

theorem CRep.clear {np : Nat} {s : CSrc} {ts : List CTerm} (h : CRep np s ts) : CRep np s.clear [] :=
  ⟨h.hnp, rfl, Nat.zero_le _, h.lc, h.lv, h.ls, by simp, by simp, by simp, by simp⟩

theorem CRep.run {np : Nat} (J : Junk) (ops : List COp) (hops : ∀ op ∈ ops, op.Ok np) {s : CSrc} {ts : List CTerm} (h : CRep np s ts) (st : List Int) :
    ∃ s', crun J ops (s, st) = .ok (s', (cspec np ops (ts, st)).2) ∧ CRep np s' (cspec np ops (ts, st)).1 := by
  induction ops generalizing s ts st with
  | nil => exact ⟨s, rfl, h⟩
  | cons op ops ih =>
    have hrest := fun op h => hops op (List.mem_cons_of_mem _ h)
    cases op with
    | clear => exact ih hrest h.clear st
    | append n t =>
      unfold crun cspec
      by_cases hn : n = np
      · rw [if_pos hn]
        have ht := hops _ List.mem_cons_self hn
        subst hn
        obtain ⟨s1, e1, r1⟩ := h.append J t ht
        rw [e1, bind_ok]
        exact ih hrest r1 _
      · rw [if_neg hn]
        have : s.append J t.cell n t.flux t.sat = .ok (-1, s) := by
          unfold CSrc.append
          rw [if_pos (by rw [h.hnp]; exact hn)]
        rw [this, bind_ok]
        exact ih hrest h _

theorem CRep.get {np : Nat} {s : CSrc} {ts : List CTerm} (h : CRep np s ts) (i : Nat) (t : CTerm) (ht : ts[i]? = some t) : s.get i = .ok t := by
  have hm : ∀ {β : Type} (f : CTerm → β), (ts.map f)[i]? = some (f t) := by intro β f; rw [List.getElem?_map, ht]; rfl
  unfold CSrc.get
  rw [rd_elem h.cell (hm _), bind_ok, rd_elem h.flux (hm _), bind_ok, h.hnp,
    slice_row (by intro r hr; obtain ⟨x, hx, rfl⟩ := List.mem_map.1 hr; exact h.rows x hx) h.sat (hm _), bind_ok]

/-- **C25, compressible sources.** As for transport sources. -/
theorem compressible_sources_are_a_list (J : Junk) (np nsrc : Int) :
    (np ≤ 0 → CSrc.allocate J np nsrc = none) ∧
    (0 < np → ∃ s0, CSrc.allocate J np nsrc = some s0 ∧
      ∀ ops : List COp, (∀ op ∈ ops, op.Ok np.toNat) →
        ∃ s, crun J ops (s0, []) = .ok (s, (cspec np.toNat ops ([], [])).2) ∧ s.nsrc = (cspec np.toNat ops ([], [])).1.length ∧
          ∀ (i : Nat) (t : CTerm), (cspec np.toNat ops ([], [])).1[i]? = some t → s.get i = .ok t) := by
  constructor
  · intro h; unfold CSrc.allocate; rw [if_pos h]
  · intro h
    have h0 : CRep np.toNat { nsrc := 0, cpty := 0, nphases := np.toNat, cell := [], flux := [], saturation := [] } [] :=
      ⟨rfl, rfl, Nat.zero_le _, rfl, rfl, by simp, by simp, by simp, by simp, by simp⟩
    have hc : ∃ s0, CSrc.allocate J np nsrc = some s0 ∧ CRep np.toNat s0 [] := by
      unfold CSrc.allocate
      rw [if_neg (by omega)]
      simp only
      split
      · exact ⟨_, rfl, h0.expand J _ (by simp)⟩
      · exact ⟨_, rfl, h0⟩
    obtain ⟨s0, e0, r0⟩ := hc
    refine ⟨s0, e0, ?_⟩
    intro ops hops
    obtain ⟨s, e, r⟩ := r0.run J ops hops []
    exact ⟨s, e, r.n, r.get⟩

example : cspec 1 [.append 1 ⟨1, 2, [1]⟩, .append 2 ⟨5, 0, [1, 1]⟩, .append 1 ⟨3, -1, [0]⟩] ([], []) =
    ([⟨1, 2, [1]⟩, ⟨3, -1, [0]⟩], [1, -1, 1]) := by decide +kernel

/-! ### C26, compressible boundary conditions -/

/-- A condition as seen by the user. -/
structure BTerm where
  type : Bool
  face : Int
  press : Rat
  flux : Rat
  sat : List Rat
  deriving DecidableEq, Repr

/-- A call. -/
inductive BOp where
  | append (np : Int) (t : BTerm)
  | clear

/-- The list a history should leave, and the return values of the append calls. -/
def bspec (np : Nat) : List BOp → List BTerm × List Int → List BTerm × List Int
  | [], r => r
  | .clear :: ops, (_, st) => bspec np ops ([], st)
  | .append n t :: ops, (ts, st) => if n = np then bspec np ops (ts ++ [t], st ++ [1]) else bspec np ops (ts, st ++ [-1])

/-- The calls executed on the structure, collecting the return values. -/
def brun (fix ndebug : Bool) (J : Junk) : List BOp → CBc × List Int → M (CBc × List Int)
  | [], r => .ok r
  | .clear :: ops, (s, st) => brun fix ndebug J ops (s.clear, st)
  | .append n t :: ops, (s, st) => do
    let r ← s.append fix ndebug J t.type t.face n t.press t.flux t.sat
    brun fix ndebug J ops (r.2, st ++ [r.1])

/-- What a client reads for condition `i`. -/
def CBc.get (s : CBc) (i : Nat) : M BTerm := do
  let t ← rd s.type i
  let f ← rd s.face i
  let p ← rd s.press i
  let v ← rd s.flux i
  let sat ← slice s.saturation (i * s.nphases) ((i + 1) * s.nphases)
  .ok ⟨t, f, p, v, sat⟩

/-- The arrays passed to accepted calls have one entry per phase. -/
def BOp.Ok (np : Nat) : BOp → Prop
  | .append n t => n = np → t.sat.length = np
  | .clear => True

/-- `alloc` is the number of elements actually allocated; in the repaired code it is `cpty`. -/
structure BRep (np alloc : Nat) (s : CBc) (ts : List BTerm) : Prop where
  hnp : s.nphases = np
  n : s.nbc = ts.length
  cap : ts.length ≤ alloc
  lt : s.type.length = alloc
  lf : s.face.length = alloc
  lp : s.press.length = alloc
  lv : s.flux.length = alloc
  ls : s.saturation.length = alloc * np
  rows : ∀ t ∈ ts, t.sat.length = np
  type : s.type.take (ts.map BTerm.type).length = ts.map BTerm.type
  face : s.face.take (ts.map BTerm.face).length = ts.map BTerm.face
  press : s.press.take (ts.map BTerm.press).length = ts.map BTerm.press
  flux : s.flux.take (ts.map BTerm.flux).length = ts.map BTerm.flux
  sat : s.saturation.take ((ts.map BTerm.sat).length * np) = (ts.map BTerm.sat).flatten

theorem BRep.expand {np a : Nat} {s : CBc} {ts : List BTerm} (h : BRep np a s ts) (fix : Bool) (J : Junk) (k : Nat) (hk : ts.length ≤ k) :
    BRep np k (s.expand fix J k) ts := by
  have hc := h.cap
  unfold CBc.expand
  rw [h.hnp]
  obtain ⟨a1, a2⟩ := realloc_elem (junk := J.bool) (n := k * 1) h.type h.lt (by simpa using hc) (by simp; omega)
  obtain ⟨b1, b2⟩ := realloc_elem (junk := J.int) (n := k * 1) h.face h.lf (by simpa using hc) (by simp; omega)
  obtain ⟨c1, c2⟩ := realloc_elem (junk := J.dbl) (n := k * 1) h.press h.lp (by simpa using hc) (by simp; omega)
  obtain ⟨f1, f2⟩ := realloc_elem (junk := J.dbl) (n := k * 1) h.flux h.lv (by simpa using hc) (by simp; omega)
  obtain ⟨d1, d2⟩ := realloc_row (junk := J.dbl) (k := k) h.sat h.ls (by simpa using hc) (by simpa using hk)
  exact ⟨rfl, h.n, hk, by simp, by simp, by simp, by simp, d1, h.rows, a2, b2, c2, f2, d2⟩

/-- The writes of `compr_bc_append` when there is room for one more condition. -/
theorem BRep.store {np a : Nat} {s : CBc} {ts : List BTerm} (r1 : BRep np a s ts) (hlt : ts.length < a) (t : BTerm) (ht : t.sat.length = np) :
    ∃ s', (do
      let type ← wr s.type s.nbc t.type
      let face ← wr s.face s.nbc t.face
      let press ← wr s.press s.nbc t.press
      let flux ← wr s.flux s.nbc t.flux
      let saturation ← memcpy s.saturation (s.nbc * np) t.sat np
      .ok (1, { s with type := type, face := face, press := press, flux := flux, saturation := saturation, nbc := s.nbc + 1 } ) : M (Int × CBc)) =
        .ok (1, s') ∧ BRep np a s' (ts ++ [t]) ∧ s'.cpty = s.cpty := by
  rw [r1.n]
  obtain ⟨c', w1, l1, t1⟩ := wr_elem (e := t.type) r1.type r1.lt (by simpa using hlt)
  obtain ⟨f', w2, l2, t2⟩ := wr_elem (e := t.face) r1.face r1.lf (by simpa using hlt)
  obtain ⟨p', w3, l3, t3⟩ := wr_elem (e := t.press) r1.press r1.lp (by simpa using hlt)
  obtain ⟨v', w5, l5, t5⟩ := wr_elem (e := t.flux) r1.flux r1.lv (by simpa using hlt)
  obtain ⟨s', w4, l4, t4⟩ := memcpy_row (r := t.sat) r1.sat r1.ls (by simpa using hlt) ht
  rw [List.length_map] at w1 w2 w3 w4 w5
  rw [w1, bind_ok, w2, bind_ok, w3, bind_ok, w5, bind_ok, w4, bind_ok]
  refine ⟨_, rfl, ⟨r1.hnp, by simp, by rw [List.length_append]; exact hlt, l1, l2, l3, l5, l4, ?_, ?_, ?_, ?_, ?_, ?_⟩, rfl⟩
  · intro x hx
    rcases List.mem_append.1 hx with hx | hx
    · exact r1.rows x hx
    · rw [List.mem_singleton] at hx; subst hx; exact ht
  all_goals rw [List.map_append]; first | exact t1 | exact t2 | exact t3 | exact t5 | exact t4

theorem BRep.clear {np a : Nat} {s : CBc} {ts : List BTerm} (h : BRep np a s ts) : BRep np a s.clear [] :=
  ⟨h.hnp, rfl, Nat.zero_le _, h.lt, h.lf, h.lp, h.lv, h.ls, by simp, by simp, by simp, by simp, by simp, by simp⟩

theorem BRep.get {np a : Nat} {s : CBc} {ts : List BTerm} (h : BRep np a s ts) (i : Nat) (t : BTerm) (ht : ts[i]? = some t) : s.get i = .ok t := by
  have hm : ∀ {β : Type} (f : BTerm → β), (ts.map f)[i]? = some (f t) := by intro β f; rw [List.getElem?_map, ht]; rfl
  unfold CBc.get
  rw [rd_elem h.type (hm _), bind_ok, rd_elem h.face (hm _), bind_ok, rd_elem h.press (hm _), bind_ok, rd_elem h.flux (hm _), bind_ok, h.hnp,
    slice_row (by intro r hr; obtain ⟨x, hx, rfl⟩ := List.mem_map.1 hr; exact h.rows x hx) h.sat (hm _), bind_ok]

theorem BRep.reject {np a : Nat} {s : CBc} {ts : List BTerm} (h : BRep np a s ts) (fix ndebug : Bool) (J : Junk) (n : Int) (hn : n ≠ np) (t : BTerm) :
    s.append fix ndebug J t.type t.face n t.press t.flux t.sat = .ok (-1, s) := by
  unfold CBc.append
  rw [if_pos (by rw [h.hnp]; exact hn)]

/-- The state after allocation. -/
theorem brep_allocate (fix : Bool) (J : Junk) (np nbc : Int) (h : 0 < np) :
    ∃ s a, CBc.allocate fix J np nbc = some s ∧ BRep np.toNat a s [] ∧ (fix = true → s.cpty = a) ∧ (fix = false → s.cpty = 0) := by
  have h0 : BRep np.toNat 0 { nbc := 0, cpty := 0, nphases := np.toNat, type := [], face := [], press := [], flux := [], saturation := [] } [] :=
    ⟨rfl, rfl, Nat.zero_le _, rfl, rfl, rfl, rfl, by simp, by simp, by simp, by simp, by simp, by simp, by simp⟩
  unfold CBc.allocate
  rw [if_neg (by omega)]
  simp only
  split
  · refine ⟨_, _, rfl, h0.expand fix J nbc.toNat (by simp), ?_, ?_⟩ <;> rintro rfl <;> rfl
  · exact ⟨_, 0, rfl, h0, fun _ => rfl, fun _ => rfl⟩

/-- **C26, repaired code.** With `cpty` updated on growth the container is a list, with or without
assertions, and all writes are within the storage. -/
theorem compr_bc_is_a_list_repaired (ndebug : Bool) (J : Junk) (np nbc : Int) (h : 0 < np) (ops : List BOp) (hops : ∀ op ∈ ops, op.Ok np.toNat) :
    ∃ s0 s, CBc.allocate true J np nbc = some s0 ∧ brun true ndebug J ops (s0, []) = .ok (s, (bspec np.toNat ops ([], [])).2) ∧
      s.nbc = (bspec np.toNat ops ([], [])).1.length ∧
        ∀ (i : Nat) (t : BTerm), (bspec np.toNat ops ([], [])).1[i]? = some t → s.get i = .ok t := by
  obtain ⟨s0, a0, e0, r0, c0, _⟩ := brep_allocate true J np nbc h
  have hc0 := c0 rfl
  have key : ∀ (ops : List BOp), (∀ op ∈ ops, op.Ok np.toNat) → ∀ (s : CBc) (ts : List BTerm) (st : List Int), BRep np.toNat s.cpty s ts →
      ∃ s', brun true ndebug J ops (s, st) = .ok (s', (bspec np.toNat ops (ts, st)).2) ∧ BRep np.toNat s'.cpty s' (bspec np.toNat ops (ts, st)).1 := by
    intro ops
    induction ops with
    | nil => intro _ s ts st r; exact ⟨s, rfl, r⟩
    | cons op ops ih =>
      intro hops s ts st r
      have hrest := fun op h => hops op (List.mem_cons_of_mem _ h)
      cases op with
      | clear => exact ih hrest s.clear [] st r.clear
      | append n t =>
        unfold brun bspec
        by_cases hn : n = np.toNat
        · rw [if_pos hn]
          have ht := hops _ List.mem_cons_self hn
          have hr : ∃ s1 : CBc, s.reserve true ndebug J = .ok s1 ∧ BRep np.toNat s1.cpty s1 ts ∧ ts.length < s1.cpty := by
            have hc := r.cap
            have hg := grow_gt s.cpty
            unfold CBc.reserve
            split
            · exact ⟨_, rfl, r.expand true J (grow s.cpty) (by omega), by show ts.length < grow s.cpty; omega⟩
            · rename_i hne
              rw [r.n] at hne ⊢
              rw [check_ok (by rw [Bool.or_eq_true]; right; simp; omega), bind_ok]
              exact ⟨_, rfl, r, by omega⟩
          obtain ⟨s1, e1, r1, hlt⟩ := hr
          obtain ⟨s2, e2, r2, c2⟩ := r1.store hlt t ht
          have : s.append true ndebug J t.type t.face n t.press t.flux t.sat = .ok (1, s2) := by
            unfold CBc.append
            rw [if_neg (by rw [r.hnp, hn]; simp), e1, bind_ok, hn, Int.toNat_natCast]
            exact e2
          rw [this, bind_ok]
          exact ih hrest s2 _ _ (by rw [c2]; exact r2)
        · rw [if_neg hn, r.reject true ndebug J n hn t, bind_ok]
          exact ih hrest s ts _ r
  obtain ⟨s, e, r⟩ := key ops hops s0 [] [] (by rw [hc0]; exact r0)
  exact ⟨s0, s, e0, e, r.n, r.get⟩

/-- No two accepted appends without a clear in between. -/
def Single (np : Nat) : Bool → List BOp → Prop
  | _, [] => True
  | _, .clear :: ops => Single np false ops
  | full, .append n _ :: ops => if n = np then full = false ∧ Single np true ops else Single np full ops

/-- **C26, the code as it is** (partial): only histories with at most one accepted condition at a time stay
within the allocated tables and store what was appended.  `compr_bc_second_append_fails` shows that
nothing more can be said. -/
theorem compr_bc_is_a_list_partial (ndebug : Bool) (J : Junk) (np nbc : Int) (h : 0 < np) (ops : List BOp) (hops : ∀ op ∈ ops, op.Ok np.toNat)
    (hs : Single np.toNat false ops) :
    ∃ s0 s, CBc.allocate false J np nbc = some s0 ∧ brun false ndebug J ops (s0, []) = .ok (s, (bspec np.toNat ops ([], [])).2) ∧
      s.nbc = (bspec np.toNat ops ([], [])).1.length ∧
        ∀ (i : Nat) (t : BTerm), (bspec np.toNat ops ([], [])).1[i]? = some t → s.get i = .ok t := by
  obtain ⟨s0, a0, e0, r0, _, c0⟩ := brep_allocate false J np nbc h
  have hc0 := c0 rfl
  have key : ∀ (ops : List BOp), (∀ op ∈ ops, op.Ok np.toNat) → ∀ (s : CBc) (a : Nat) (ts : List BTerm) (st : List Int),
      Single np.toNat (!ts.isEmpty) ops → BRep np.toNat a s ts → s.cpty = 0 →
      ∃ s' a', brun false ndebug J ops (s, st) = .ok (s', (bspec np.toNat ops (ts, st)).2) ∧ BRep np.toNat a' s' (bspec np.toNat ops (ts, st)).1 := by
    intro ops
    induction ops with
    | nil => intro _ s a ts st _ r _; exact ⟨s, a, rfl, r⟩
    | cons op ops ih =>
      intro hops s a ts st hsg r hc
      have hrest := fun op h => hops op (List.mem_cons_of_mem _ h)
      cases op with
      | clear => exact ih hrest s.clear a [] st hsg r.clear hc
      | append n t =>
        unfold Single at hsg
        unfold brun bspec
        by_cases hn : n = np.toNat
        · rw [if_pos hn] at hsg ⊢
          have ht := hops _ List.mem_cons_self hn
          have hts : ts = [] := by
            have := hsg.1
            cases ts with
            | nil => rfl
            | cons x l => simp at this
          subst hts
          have e1 : s.reserve false ndebug J = .ok (s.expand false J 1) := by
            unfold CBc.reserve
            rw [if_pos (by rw [r.n, hc]; rfl), hc]
            rfl
          obtain ⟨s2, e2, r2, c2⟩ := (r.expand false J 1 (by simp)).store (by simp) t ht
          have : s.append false ndebug J t.type t.face n t.press t.flux t.sat = .ok (1, s2) := by
            unfold CBc.append
            rw [if_neg (by rw [r.hnp, hn]; simp), e1, bind_ok, hn, Int.toNat_natCast]
            exact e2
          rw [this, bind_ok]
          exact ih hrest s2 _ _ _ (by simpa using hsg.2) r2 (by rw [c2]; exact hc)
        · rw [if_neg hn] at hsg
          rw [if_neg hn, r.reject false ndebug J n hn t, bind_ok]
          exact ih hrest s a ts _ hsg r hc
  obtain ⟨s, a, e, r⟩ := key ops hops s0 a0 [] [] (by simpa using hs) r0 hc0
  exact ⟨s0, s, e0, e, r.n, r.get⟩

/-- **C26 is false of the code.** Whatever the capacity reserved beforehand, the second condition appended
trips the assertion; with assertions compiled out it is written outside the allocated tables. -/
theorem compr_bc_second_append_fails (J : Junk) (np nbc : Int) (h : 0 < np) (t1 t2 : BTerm) (ht1 : t1.sat.length = np.toNat) :
    ∃ s0 s1, CBc.allocate false J np nbc = some s0 ∧
      (∀ ndebug, s0.append false ndebug J t1.type t1.face np t1.press t1.flux t1.sat = .ok (1, s1)) ∧
      s1.append false false J t2.type t2.face np t2.press t2.flux t2.sat = .error .assertFail ∧
      s1.append false true J t2.type t2.face np t2.press t2.flux t2.sat = .error .ub := by
  obtain ⟨s0, a0, e0, r0, _, c0⟩ := brep_allocate false J np nbc h
  have hc0 := c0 rfl
  have e1 : ∀ ndebug, s0.reserve false ndebug J = .ok (s0.expand false J 1) := by
    intro ndebug
    unfold CBc.reserve
    rw [if_pos (by rw [r0.n, hc0]; rfl), hc0]
    rfl
  obtain ⟨s1, e2, r2, c2⟩ := (r0.expand false J 1 (by simp)).store (by simp) t1 ht1
  have hnp : np = (np.toNat : Int) := by omega
  refine ⟨s0, s1, e0, ?_, ?_, ?_⟩
  · intro ndebug
    unfold CBc.append
    rw [if_neg (by rw [r0.hnp]; simpa using hnp), e1, bind_ok]
    exact e2
  all_goals
    have hcp : s1.cpty = 0 := by rw [c2]; exact hc0
    have hn1 : s1.nbc = 1 := r2.n
    unfold CBc.append CBc.reserve
    rw [if_neg (by rw [r2.hnp]; simpa using hnp), if_neg (by rw [hn1, hcp]; simp), hn1, hcp]
  · rfl
  · rw [check_ok (by simp), bind_ok, bind_ok, hn1, wr_ub (by rw [r2.lt]; simp)]
    rfl

example : Single 2 false [.append 2 ⟨true, 4, 1, 0, [1, 0]⟩, .append 1 ⟨true, 4, 1, 0, []⟩, .clear, .append 2 ⟨false, 5, 0, 2, [0, 1]⟩] := by
  simp [Single]

end Opm.Sources
