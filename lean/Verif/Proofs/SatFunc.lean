import Verif.Spec.SatFunc
import Verif.Proofs.Put
/-!
# Saturation functions: blocks of arrays
-/

namespace Opm.SatFunc
open Opm Opm.Interp Opm.Pvt Opm.Blackoil Opm.Rock

theorem split2 {l : List Rat} {k : Nat} (h : k + 2 ≤ l.length) : ∃ a b, (l.drop k).take 2 = [a, b] ∧ rd l (k + 0) = .ok a ∧ rd l (k + 1) = .ok b ∧ put l k [a, b] = l := by
  have e : (l.drop k).take 2 = [l[k], l[k + 1]] := by
    rw [List.drop_eq_getElem_cons (by omega), List.drop_eq_getElem_cons (by omega)]
    rfl
  refine ⟨_, _, e, rd_of_getElem? (List.getElem?_eq_getElem _), rd_of_getElem? (List.getElem?_eq_getElem _), ?_⟩
  rw [← e, put_self h]

theorem split3 {l : List Rat} {k : Nat} (h : k + 3 ≤ l.length) :
    ∃ a b c, (l.drop k).take 3 = [a, b, c] ∧ rd l (k + 0) = .ok a ∧ rd l (k + 1) = .ok b ∧ rd l (k + 2) = .ok c ∧ put l k [a, b, c] = l := by
  have e : (l.drop k).take 3 = [l[k], l[k + 1], l[k + 2]] := by
    rw [List.drop_eq_getElem_cons (by omega), List.drop_eq_getElem_cons (by omega), List.drop_eq_getElem_cons (by omega)]
    rfl
  refine ⟨_, _, _, e, rd_of_getElem? (List.getElem?_eq_getElem _), rd_of_getElem? (List.getElem?_eq_getElem _), rd_of_getElem? (List.getElem?_eq_getElem _), ?_⟩
  rw [← e, put_self h]

/-! ### Values of one point -/

theorem kr_water {f : Funcs} (hu : f.usage = usageOf true false) (k : Kind) (sw so : Rat) :
    f.krAt k [sw, so] = f.krw.eval sw >>= fun a => f.krow.eval (oilArg k sw so) >>= fun b => .ok [a, b] := by
  obtain ⟨u⟩ := f
  cases hu
  rfl

theorem kr_gas {f : Funcs} (hu : f.usage = usageOf false true) (k : Kind) (so sg : Rat) :
    f.krAt k [so, sg] = f.krg.eval sg >>= fun a => f.krog.eval sg >>= fun b => .ok [b, a] := by
  obtain ⟨u⟩ := f
  cases hu
  rfl

theorem kr_three {f : Funcs} (hu : f.usage = usageOf true true) (k : Kind) (sw so sg : Rat) :
    f.krAt k [sw, so, sg] = f.kr3 k sw sg >>= fun v => .ok [v.1, v.2.1, v.2.2] := by
  obtain ⟨u⟩ := f
  cases hu
  rfl

theorem krAt_length {f : Funcs} {w g : Bool} (hu : f.usage = usageOf w g) (hwg : (w || g) = true) {k : Kind} {s v : List Rat} (hs : s.length = f.usage.num) (h : f.krAt k s = .ok v) : v.length = f.usage.num := by
  rw [hu] at hs ⊢
  rcases w <;> rcases g
  · simp at hwg
  · obtain ⟨a, b, rfl⟩ := List.length_eq_two.1 hs
    rw [kr_gas hu, bind_eq_ok] at h
    obtain ⟨x, -, h⟩ := h
    rw [bind_eq_ok] at h
    obtain ⟨y, -, h⟩ := h
    cases h; rfl
  · obtain ⟨a, b, rfl⟩ := List.length_eq_two.1 hs
    rw [kr_water hu, bind_eq_ok] at h
    obtain ⟨x, -, h⟩ := h
    rw [bind_eq_ok] at h
    obtain ⟨y, -, h⟩ := h
    cases h; rfl
  · obtain ⟨a, b, c, rfl⟩ := List.length_eq_three.1 hs
    rw [kr_three hu, bind_eq_ok] at h
    obtain ⟨x, -, h⟩ := h
    cases h; rfl

theorem bind_congr' {α β : Type} {x : M α} {f g : α → M β} (h : ∀ a, f a = g a) : x >>= f = x >>= g := by rw [funext h]

theorem bind_assoc' {α β γ : Type} (x : M α) (f : α → M β) (g : β → M γ) : (x >>= f) >>= g = x >>= fun a => f a >>= g := by cases x <;> rfl

theorem wr_put20 {l : List Rat} {k : Nat} (h : k + 2 ≤ l.length) (a b x : Rat) : wr (put l k [a, b]) (k + 0) x = .ok (put l k [x, b]) := wr_put (m := [a, b]) h (j := 0) (by simp) x
theorem wr_put21 {l : List Rat} {k : Nat} (h : k + 2 ≤ l.length) (a b x : Rat) : wr (put l k [a, b]) (k + 1) x = .ok (put l k [a, x]) := wr_put (m := [a, b]) h (j := 1) (by simp) x
theorem wr_put30 {l : List Rat} {k : Nat} (h : k + 3 ≤ l.length) (a b c x : Rat) : wr (put l k [a, b, c]) (k + 0) x = .ok (put l k [x, b, c]) := wr_put (m := [a, b, c]) h (j := 0) (by simp) x
theorem wr_put31 {l : List Rat} {k : Nat} (h : k + 3 ≤ l.length) (a b c x : Rat) : wr (put l k [a, b, c]) (k + 1) x = .ok (put l k [a, x, c]) := wr_put (m := [a, b, c]) h (j := 1) (by simp) x
theorem wr_put32 {l : List Rat} {k : Nat} (h : k + 3 ≤ l.length) (a b c x : Rat) : wr (put l k [a, b, c]) (k + 2) x = .ok (put l k [a, b, x]) := wr_put (m := [a, b, c]) h (j := 2) (by simp) x

/-- `evalKr` for a block of arrays. -/
theorem evalKr_block {f : Funcs} {w g : Bool} (hu : f.usage = usageOf w g) (hwg : (w || g) = true) (k : Kind) {s kr : List Rat} {i j : Nat} (hs : i + f.usage.num ≤ s.length) (hk : j + f.usage.num ≤ kr.length) :
    f.evalKr k s i kr j = f.krAt k ((s.drop i).take f.usage.num) >>= fun v => .ok (put kr j v) := by
  rcases w <;> rcases g
  · simp at hwg
  · have hn : f.usage.num = 2 := by rw [hu]; rfl
    rw [hn] at hs hk ⊢
    obtain ⟨a, b, e, ra, rb, -⟩ := split2 hs
    obtain ⟨x, y, -, -, -, p⟩ := split2 hk
    have L : f.evalKr k s i kr j = rd s (i + 1) >>= fun sg => f.krg.eval sg >>= fun a => f.krog.eval sg >>= fun b => wr kr (j + 1) a >>= fun kr => wr kr (j + 0) b := by
      obtain ⟨u⟩ := f
      cases hu
      rfl
    rw [L, rb, bind_ok, e, kr_gas hu, bind_assoc']
    refine bind_congr' fun c => ?_
    rw [bind_assoc']
    refine bind_congr' fun d => ?_
    rw [← p, wr_put21 hk, bind_ok, wr_put20 hk, p]
    rfl
  · have hn : f.usage.num = 2 := by rw [hu]; rfl
    rw [hn] at hs hk ⊢
    obtain ⟨a, b, e, ra, rb, -⟩ := split2 hs
    obtain ⟨x, y, -, -, -, p⟩ := split2 hk
    have L : f.evalKr k s i kr j = rd s (i + 0) >>= fun sw => rd s (i + 1) >>= fun so => f.krw.eval sw >>= fun a => f.krow.eval (oilArg k sw so) >>= fun b => wr kr (j + 0) a >>= fun kr => wr kr (j + 1) b := by
      obtain ⟨u⟩ := f
      cases hu
      rfl
    rw [L, ra, bind_ok, rb, bind_ok, e, kr_water hu, bind_assoc']
    refine bind_congr' fun c => ?_
    rw [bind_assoc']
    refine bind_congr' fun d => ?_
    rw [← p, wr_put20 hk, bind_ok, wr_put21 hk, p]
    rfl
  · have hn : f.usage.num = 3 := by rw [hu]; rfl
    rw [hn] at hs hk ⊢
    obtain ⟨a, b, c, e, ra, rb, rc, -⟩ := split3 hs
    obtain ⟨x, y, z, -, -, -, -, p⟩ := split3 hk
    have L : f.evalKr k s i kr j = rd s (i + 0) >>= fun sw => rd s (i + 2) >>= fun sg => f.kr3 k sw sg >>= fun v => wr kr (j + 0) v.1 >>= fun kr => wr kr (j + 2) v.2.2 >>= fun kr => wr kr (j + 1) v.2.1 := by
      obtain ⟨u⟩ := f
      cases hu
      rfl
    rw [L, ra, bind_ok, rc, bind_ok, e, kr_three hu, bind_assoc']
    refine bind_congr' fun v => ?_
    rw [← p, wr_put30 hk, bind_ok, wr_put32 hk, bind_ok, wr_put31 hk, p]
    rfl

/-! ### Derivatives of one point -/

theorem writeEntries_put {np : Nat} : ∀ (l : List (Nat × Nat × Rat)) {m d : List Rat} {base : Nat}, base + m.length ≤ d.length → (∀ e ∈ l, e.1 + e.2.1 * np < m.length) →
    ∃ m', m'.length = m.length ∧ writeEntries np 0 l m = .ok m' ∧ writeEntries np base l (put d base m) = .ok (put d base m') := by
  intro l
  induction l with
  | nil => intro m d base _ _; exact ⟨m, rfl, rfl, rfl⟩
  | cons e l ih =>
    intro m d base h hl
    have h0 := hl e List.mem_cons_self
    obtain ⟨m', a, b, c⟩ := ih (m := m.set (e.1 + e.2.1 * np) e.2.2) (d := d) (base := base) (by simpa using h) (fun x hx => by rw [List.length_set]; exact hl x (List.mem_cons_of_mem _ hx))
    refine ⟨m', by simpa using a, ?_, ?_⟩
    · simp only [writeEntries, List.foldlM_cons] at b ⊢
      rw [Nat.zero_add, wr_ok h0, bind_ok]
      exact b
    · simp only [writeEntries, List.foldlM_cons] at c ⊢
      rw [wr_put h h0, bind_ok]
      exact c

theorem dkr_gas {f : Funcs} (hu : f.usage = usageOf false true) (k : Kind) (so sg : Rat) :
    f.dkr k [so, sg] 0 = f.krg.derivative sg >>= fun a => f.krog.derivative sg >>= fun b => .ok [(1, 1, a), (0, 1, b)] := by
  obtain ⟨u⟩ := f
  cases hu
  rfl
theorem dkr_water {f : Funcs} (hu : f.usage = usageOf true false) (k : Kind) (sw so : Rat) :
    f.dkr k [sw, so] 0 = f.krw.derivative sw >>= fun a => f.krow.derivative (oilArg k sw so) >>= fun b => .ok [(0, 0, a), (1, 0, b)] := by
  obtain ⟨u⟩ := f
  cases hu
  rfl
theorem dkr_three {f : Funcs} (hu : f.usage = usageOf true true) (k : Kind) (sw so sg : Rat) : f.dkr k [sw, so, sg] 0 = f.dkr3 k sw sg := by
  obtain ⟨u⟩ := f
  cases hu
  rfl

/-- Entries are inside the matrix. -/
theorem dkr_inside {f : Funcs} {w g : Bool} (hu : f.usage = usageOf w g) (hwg : (w || g) = true) {k : Kind} {s : List Rat} (hs : s.length = f.usage.num) {l : List (Nat × Nat × Rat)} (h : f.dkr k s 0 = .ok l) :
    ∀ e ∈ l, e.1 + e.2.1 * f.usage.num < f.usage.num * f.usage.num := by
  have hn : f.usage.num = (usageOf w g).num := by rw [hu]
  rw [hn] at hs ⊢
  rcases w <;> rcases g
  · simp at hwg
  · obtain ⟨a, b, rfl⟩ := List.length_eq_two.1 hs
    rw [dkr_gas hu, bind_eq_ok] at h
    obtain ⟨x, -, h⟩ := h
    rw [bind_eq_ok] at h
    obtain ⟨y, -, h⟩ := h
    cases h
    simp [usageOf]
  · obtain ⟨a, b, rfl⟩ := List.length_eq_two.1 hs
    rw [dkr_water hu, bind_eq_ok] at h
    obtain ⟨x, -, h⟩ := h
    rw [bind_eq_ok] at h
    obtain ⟨y, -, h⟩ := h
    cases h
    simp [usageOf]
  · obtain ⟨a, b, c, rfl⟩ := List.length_eq_three.1 hs
    rw [dkr_three hu] at h
    rcases k
    · simp only [Funcs.dkr3, bind_eq_ok] at h
      obtain ⟨_, -, _, -, _, -, h⟩ := h
      cases h
      simp [usageOf, Aqua, Liquid, Vapour]
    · simp only [Funcs.dkr3, bind_eq_ok] at h
      obtain ⟨_, -, _, -, _, -, _, -, _, -, _, -, _, -, _, -, _, -, _, -, _, -, _, -, _, -, h⟩ := h
      cases h
      simp [usageOf, Aqua, Liquid, Vapour]
    · simp only [Funcs.dkr3, bind_eq_ok] at h
      obtain ⟨_, -, _, -, _, -, _, -, _, -, _, -, _, -, _, -, _, -, _, -, _, -, _, -, h⟩ := h
      cases h
      simp [usageOf, Aqua, Liquid, Vapour]

theorem dkr_block {f : Funcs} {w g : Bool} (hu : f.usage = usageOf w g) (hwg : (w || g) = true) (k : Kind) {s : List Rat} {i : Nat} (hs : i + f.usage.num ≤ s.length) :
    f.dkr k s i = f.dkr k ((s.drop i).take f.usage.num) 0 := by
  rcases w <;> rcases g
  · simp at hwg
  · have hn : f.usage.num = 2 := by rw [hu]; rfl
    rw [hn] at hs ⊢
    obtain ⟨a, b, e, ra, rb, -⟩ := split2 hs
    have L : f.dkr k s i = rd s (i + 1) >>= fun sg => f.krg.derivative sg >>= fun a => f.krog.derivative sg >>= fun b => .ok [(1, 1, a), (0, 1, b)] := by
      obtain ⟨u⟩ := f
      cases hu
      rfl
    rw [L, rb, bind_ok, e, dkr_gas hu]
  · have hn : f.usage.num = 2 := by rw [hu]; rfl
    rw [hn] at hs ⊢
    obtain ⟨a, b, e, ra, rb, -⟩ := split2 hs
    have L : f.dkr k s i = rd s (i + 0) >>= fun sw => rd s (i + 1) >>= fun so => f.krw.derivative sw >>= fun a => f.krow.derivative (oilArg k sw so) >>= fun b => .ok [(0, 0, a), (1, 0, b)] := by
      obtain ⟨u⟩ := f
      cases hu
      rfl
    rw [L, ra, bind_ok, rb, bind_ok, e, dkr_water hu]
  · have hn : f.usage.num = 3 := by rw [hu]; rfl
    rw [hn] at hs ⊢
    obtain ⟨a, b, c, e, ra, rb, rc, -⟩ := split3 hs
    have L : f.dkr k s i = rd s (i + 0) >>= fun sw => rd s (i + 2) >>= fun sg => f.dkr3 k sw sg := by
      obtain ⟨u⟩ := f
      cases hu
      rfl
    rw [L, ra, bind_ok, rc, bind_ok, e, dkr_three hu]

/-- The matrix of one point, in terms of values and entries. -/
theorem dkrAt_eq (f : Funcs) (k : Kind) (s : List Rat) :
    f.dkrAt k s = f.krAt k s >>= fun v => f.dkr k s 0 >>= fun l => writeEntries f.usage.num 0 l (List.replicate (f.usage.num * f.usage.num) 0) >>= fun m => .ok (v, m) := by
  have z : zeros 0 (f.usage.num * f.usage.num) (List.replicate (f.usage.num * f.usage.num) 0) = .ok (List.replicate (f.usage.num * f.usage.num) 0) := by
    rw [zeros_put (by simp)]
    simp [put]
  rw [Funcs.dkrAt, Funcs.evalKrDeriv, z]
  rfl

theorem dkrAt_length {f : Funcs} {w g : Bool} (hu : f.usage = usageOf w g) (hwg : (w || g) = true) {k : Kind} {s : List Rat} {v : List Rat × List Rat} (hs : s.length = f.usage.num) (h : f.dkrAt k s = .ok v) :
    f.krAt k s = .ok v.1 ∧ v.1.length = f.usage.num ∧ v.2.length = f.usage.num * f.usage.num := by
  rw [dkrAt_eq f k, bind_eq_ok] at h
  obtain ⟨a, h1, h⟩ := h
  rw [bind_eq_ok] at h
  obtain ⟨l, h2, h⟩ := h
  rw [bind_eq_ok] at h
  obtain ⟨m, h3, h⟩ := h
  cases h
  obtain ⟨m', a1, a2, -⟩ := writeEntries_put (np := f.usage.num) l (m := List.replicate (f.usage.num * f.usage.num) 0) (d := List.replicate (f.usage.num * f.usage.num) 0) (base := 0) (by simp)
    (fun e he => by rw [List.length_replicate]; exact dkr_inside hu hwg hs h2 e he)
  rw [a2] at h3
  cases h3
  exact ⟨h1, krAt_length hu hwg hs h1, by simpa using a1⟩

/-- `evalKrDeriv` for blocks of arrays. -/
theorem evalKrDeriv_block {f : Funcs} {w g : Bool} (hu : f.usage = usageOf w g) (hwg : (w || g) = true) (k : Kind) {s kr d : List Rat} {i j t : Nat} (hs : i + f.usage.num ≤ s.length)
    (hk : j + f.usage.num ≤ kr.length) (hd : t + f.usage.num * f.usage.num ≤ d.length) :
    f.evalKrDeriv k s i kr j d t = f.dkrAt k ((s.drop i).take f.usage.num) >>= fun v => .ok (put kr j v.1, put d t v.2) := by
  have hl : ((s.drop i).take f.usage.num).length = f.usage.num := by simp; omega
  rw [dkrAt_eq f k, Funcs.evalKrDeriv]
  rw [zeros_put hd, bind_ok, evalKr_block hu hwg k hs hk, bind_assoc', bind_assoc']
  refine bind_congr' fun v => ?_
  rw [bind_ok, dkr_block hu hwg k hs, bind_assoc']
  cases h2 : f.dkr k ((s.drop i).take f.usage.num) 0 with
  | error e => rfl
  | ok l =>
    obtain ⟨m', a1, a2, a3⟩ := writeEntries_put (np := f.usage.num) l (m := List.replicate (f.usage.num * f.usage.num) 0) (d := d) (base := t) (by simpa using hd)
      (fun e he => by rw [List.length_replicate]; exact dkr_inside hu hwg hl h2 e he)
    rw [bind_ok, bind_ok, a3, a2]
    rfl

/-! ### Capillary pressures of one point -/

theorem bind_pure' {α : Type} (x : M α) : (x >>= fun r => .ok r) = x := by cases x <;> rfl

theorem dpc_water {f : Funcs} (hu : f.usage = usageOf true false) (sw so : Rat) :
    f.dpcAt [sw, so] = f.pcow.eval sw >>= fun a => f.pcow.derivative sw >>= fun d => .ok ([a, 0], [d, 0, 0, 0]) := by
  have L : f.dpcAt [sw, so] = (f.pcow.eval sw >>= fun a => f.pcow.derivative sw >>= fun d => .ok ([a, 0], [d, 0, 0, 0])) >>= fun r => .ok r := by
    obtain ⟨u⟩ := f
    cases hu
    rfl
  rw [L, bind_pure']
theorem dpc_gas {f : Funcs} (hu : f.usage = usageOf false true) (so sg : Rat) :
    f.dpcAt [so, sg] = f.pcog.eval sg >>= fun a => f.pcog.derivative sg >>= fun d => .ok ([0, a], [0, 0, 0, d]) := by
  obtain ⟨u⟩ := f
  cases hu
  rfl
theorem dpc_three {f : Funcs} (hu : f.usage = usageOf true true) (sw so sg : Rat) :
    f.dpcAt [sw, so, sg] = f.pcow.eval sw >>= fun a => f.pcow.derivative sw >>= fun d => f.pcog.eval sg >>= fun b => f.pcog.derivative sg >>= fun e => .ok ([a, 0, b], [d, 0, 0, 0, 0, 0, 0, 0, e]) := by
  have L : f.dpcAt [sw, so, sg] = (f.pcow.eval sw >>= fun a => f.pcow.derivative sw >>= fun d => .ok ([a, 0, 0], [d, 0, 0, 0, 0, 0, 0, 0, 0])) >>= fun r =>
      f.pcog.eval sg >>= fun b => wr r.1 2 b >>= fun p => f.pcog.derivative sg >>= fun e => wr r.2 8 e >>= fun d => .ok (p, d) := by
    obtain ⟨u⟩ := f
    cases hu
    rfl
  rw [L, bind_assoc']
  refine bind_congr' fun a => ?_
  rw [bind_assoc']
  rfl
theorem pc_water {f : Funcs} (hu : f.usage = usageOf true false) (sw so : Rat) : f.pcAt [sw, so] = f.pcow.eval sw >>= fun a => .ok [a, 0] := by
  have L : f.pcAt [sw, so] = ((f.pcow.eval sw >>= fun a => .ok ([a, 0], ([] : List Rat))) >>= fun r => .ok r) >>= fun r => .ok r.1 := by
    obtain ⟨u⟩ := f
    cases hu
    rfl
  rw [L, bind_pure', bind_assoc']
  rfl
theorem pc_gas {f : Funcs} (hu : f.usage = usageOf false true) (so sg : Rat) : f.pcAt [so, sg] = f.pcog.eval sg >>= fun a => .ok [0, a] := by
  have L : f.pcAt [so, sg] = (f.pcog.eval sg >>= fun a => .ok ([0, a], ([] : List Rat))) >>= fun r => .ok r.1 := by
    obtain ⟨u⟩ := f
    cases hu
    rfl
  rw [L, bind_assoc']
  rfl
theorem pc_three {f : Funcs} (hu : f.usage = usageOf true true) (sw so sg : Rat) : f.pcAt [sw, so, sg] = f.pcow.eval sw >>= fun a => f.pcog.eval sg >>= fun b => .ok [a, 0, b] := by
  have L : f.pcAt [sw, so, sg] = ((f.pcow.eval sw >>= fun a => .ok ([a, 0, 0], ([] : List Rat))) >>= fun r => f.pcog.eval sg >>= fun b => wr r.1 2 b >>= fun p => .ok (p, r.2)) >>= fun r => .ok r.1 := by
    obtain ⟨u⟩ := f
    cases hu
    rfl
  rw [L, bind_assoc', bind_assoc']
  refine bind_congr' fun a => ?_
  rw [bind_ok, bind_assoc']
  rfl

/-- `evalPc` for a block of an array. -/
theorem evalPc_block {f : Funcs} {w g : Bool} (hu : f.usage = usageOf w g) (hwg : (w || g) = true) {s pc d : List Rat} {i j t : Nat} (hs : i + f.usage.num ≤ s.length) (hk : j + f.usage.num ≤ pc.length) :
    f.evalPc false s i pc j d t = f.pcAt ((s.drop i).take f.usage.num) >>= fun v => .ok (put pc j v, d) := by
  rcases w <;> rcases g
  · simp at hwg
  · have hn : f.usage.num = 2 := by rw [hu]; rfl
    rw [hn] at hs hk ⊢
    obtain ⟨a, b, e, ra, rb, -⟩ := split2 hs
    obtain ⟨x, y, -, -, -, p⟩ := split2 hk
    have L : f.evalPc false s i pc j d t = wr pc (j + 0) 0 >>= fun pc => rd s (i + 1) >>= fun x => f.pcog.eval x >>= fun v => wr pc (j + 1) v >>= fun p => .ok (p, d) := by
      obtain ⟨u⟩ := f
      cases hu
      rfl
    rw [L, ← p, wr_put20 hk, bind_ok, rb, bind_ok, e, pc_gas hu, bind_assoc']
    refine bind_congr' fun c => ?_
    rw [wr_put21 hk, p]
    rfl
  · have hn : f.usage.num = 2 := by rw [hu]; rfl
    rw [hn] at hs hk ⊢
    obtain ⟨a, b, e, ra, rb, -⟩ := split2 hs
    obtain ⟨x, y, -, -, -, p⟩ := split2 hk
    have L : f.evalPc false s i pc j d t = wr pc (j + 1) 0 >>= fun pc => (rd s (i + 0) >>= fun x => f.pcow.eval x >>= fun v => wr pc (j + 0) v >>= fun p => .ok (p, d)) >>= fun r => .ok r := by
      obtain ⟨u⟩ := f
      cases hu
      rfl
    rw [L, ← p, wr_put21 hk, bind_ok, ra, bind_ok, e, pc_water hu, bind_assoc', bind_assoc']
    refine bind_congr' fun c => ?_
    rw [wr_put20 hk, p]
    rfl
  · have hn : f.usage.num = 3 := by rw [hu]; rfl
    rw [hn] at hs hk ⊢
    obtain ⟨a, b, c, e, ra, rb, rc, -⟩ := split3 hs
    obtain ⟨x, y, z, -, -, -, -, p⟩ := split3 hk
    have L : f.evalPc false s i pc j d t = wr pc (j + 1) 0 >>= fun pc => (rd s (i + 0) >>= fun x => f.pcow.eval x >>= fun v => wr pc (j + 0) v >>= fun p => .ok (p, d)) >>= fun r =>
        rd s (i + 2) >>= fun x => f.pcog.eval x >>= fun v => wr r.1 (j + 2) v >>= fun p => .ok (p, r.2) := by
      obtain ⟨u⟩ := f
      cases hu
      rfl
    rw [L, ← p, wr_put31 hk, bind_ok, ra, bind_ok, e, pc_three hu, bind_assoc', bind_assoc']
    refine bind_congr' fun c => ?_
    rw [wr_put30 hk, bind_ok, bind_ok, rc, bind_ok, bind_assoc']
    refine bind_congr' fun c => ?_
    dsimp only
    rw [wr_put32 hk, p]
    rfl

/-- `evalPcDeriv` for blocks of arrays. -/
theorem evalPcDeriv_block {f : Funcs} {w g : Bool} (hu : f.usage = usageOf w g) (hwg : (w || g) = true) {s pc d : List Rat} {i j t : Nat} (hs : i + f.usage.num ≤ s.length) (hk : j + f.usage.num ≤ pc.length)
    (hd : t + f.usage.num * f.usage.num ≤ d.length) :
    f.evalPc true s i pc j d t = f.dpcAt ((s.drop i).take f.usage.num) >>= fun v => .ok (put pc j v.1, put d t v.2) := by
  rcases w <;> rcases g
  · simp at hwg
  · have hn : f.usage.num = 2 := by rw [hu]; rfl
    rw [hn] at hs hk hd ⊢
    obtain ⟨a, b, e, ra, rb, -⟩ := split2 hs
    obtain ⟨x, y, -, -, -, p⟩ := split2 hk
    have L : f.evalPc true s i pc j d t = zeros t (2 * 2) d >>= fun d => wr pc (j + 0) 0 >>= fun pc => rd s (i + 1) >>= fun x => f.pcog.eval x >>= fun v => wr pc (j + 1) v >>= fun p =>
        f.pcog.derivative x >>= fun q => wr d (t + 3) q >>= fun d => .ok (p, d) := by
      obtain ⟨u⟩ := f
      cases hu
      rfl
    rw [L, ← p, zeros_put hd, bind_ok, wr_put20 hk, bind_ok, rb, bind_ok, e, dpc_gas hu, bind_assoc']
    refine bind_congr' fun c => ?_
    rw [wr_put21 hk, bind_ok, bind_assoc']
    refine bind_congr' fun c => ?_
    rw [wr_put (by simpa using hd) (j := 3) (by simp), p]
    rfl
  · have hn : f.usage.num = 2 := by rw [hu]; rfl
    rw [hn] at hs hk hd ⊢
    obtain ⟨a, b, e, ra, rb, -⟩ := split2 hs
    obtain ⟨x, y, -, -, -, p⟩ := split2 hk
    have L : f.evalPc true s i pc j d t = zeros t (2 * 2) d >>= fun d => wr pc (j + 1) 0 >>= fun pc => (rd s (i + 0) >>= fun x => f.pcow.eval x >>= fun v => wr pc (j + 0) v >>= fun p =>
        f.pcow.derivative x >>= fun q => wr d (t + 0) q >>= fun d => .ok (p, d)) >>= fun r => .ok r := by
      obtain ⟨u⟩ := f
      cases hu
      rfl
    rw [L, ← p, zeros_put hd, bind_ok, wr_put21 hk, bind_ok, ra, bind_ok, e, dpc_water hu, bind_assoc', bind_assoc']
    refine bind_congr' fun c => ?_
    rw [wr_put20 hk, bind_ok, bind_assoc', bind_assoc']
    refine bind_congr' fun c => ?_
    rw [wr_put (by simpa using hd) (j := 0) (by simp), p]
    rfl
  · have hn : f.usage.num = 3 := by rw [hu]; rfl
    rw [hn] at hs hk hd ⊢
    obtain ⟨a, b, c, e, ra, rb, rc, -⟩ := split3 hs
    obtain ⟨x, y, z, -, -, -, -, p⟩ := split3 hk
    have L : f.evalPc true s i pc j d t = zeros t (3 * 3) d >>= fun d => wr pc (j + 1) 0 >>= fun pc => (rd s (i + 0) >>= fun x => f.pcow.eval x >>= fun v => wr pc (j + 0) v >>= fun p =>
        f.pcow.derivative x >>= fun q => wr d (t + 0) q >>= fun d => .ok (p, d)) >>= fun r => rd s (i + 2) >>= fun x => f.pcog.eval x >>= fun v => wr r.1 (j + 2) v >>= fun p =>
        f.pcog.derivative x >>= fun q => wr r.2 (t + 8) q >>= fun d => .ok (p, d) := by
      obtain ⟨u⟩ := f
      cases hu
      rfl
    rw [L, ← p, zeros_put hd, bind_ok, wr_put31 hk, bind_ok, ra, bind_ok, e, dpc_three hu, bind_assoc', bind_assoc']
    refine bind_congr' fun c => ?_
    rw [wr_put30 hk, bind_ok, bind_assoc', bind_assoc']
    refine bind_congr' fun c => ?_
    rw [wr_put (by simpa using hd) (j := 0) (by simp), bind_ok, bind_ok, rc, bind_ok, bind_assoc']
    refine bind_congr' fun c => ?_
    dsimp only
    rw [wr_put32 hk, bind_ok, bind_assoc']
    refine bind_congr' fun c => ?_
    rw [wr_put (by simpa using hd) (j := 8) (by simp), p]
    rfl

theorem pcAt_length {f : Funcs} {w g : Bool} (hu : f.usage = usageOf w g) (hwg : (w || g) = true) {s v : List Rat} (hs : s.length = f.usage.num) (h : f.pcAt s = .ok v) : v.length = f.usage.num := by
  rw [hu] at hs ⊢
  rcases w <;> rcases g
  · simp at hwg
  · obtain ⟨a, b, rfl⟩ := List.length_eq_two.1 hs
    simp only [pc_gas hu, bind_eq_ok] at h
    obtain ⟨x, -, h⟩ := h
    cases h; rfl
  · obtain ⟨a, b, rfl⟩ := List.length_eq_two.1 hs
    simp only [pc_water hu, bind_eq_ok] at h
    obtain ⟨x, -, h⟩ := h
    cases h; rfl
  · obtain ⟨a, b, c, rfl⟩ := List.length_eq_three.1 hs
    simp only [pc_three hu, bind_eq_ok] at h
    obtain ⟨x, -, y, -, h⟩ := h
    cases h; rfl

theorem dpcAt_length {f : Funcs} {w g : Bool} (hu : f.usage = usageOf w g) (hwg : (w || g) = true) {s : List Rat} {v : List Rat × List Rat} (hs : s.length = f.usage.num) (h : f.dpcAt s = .ok v) :
    f.pcAt s = .ok v.1 ∧ v.1.length = f.usage.num ∧ v.2.length = f.usage.num * f.usage.num := by
  have hn : f.usage.num = (usageOf w g).num := by rw [hu]
  rw [hn] at hs ⊢
  rcases w <;> rcases g
  · simp at hwg
  · obtain ⟨a, b, rfl⟩ := List.length_eq_two.1 hs
    simp only [dpc_gas hu, bind_eq_ok] at h
    obtain ⟨x, h1, y, -, h⟩ := h
    cases h
    exact ⟨by rw [pc_gas hu, h1]; rfl, rfl, rfl⟩
  · obtain ⟨a, b, rfl⟩ := List.length_eq_two.1 hs
    simp only [dpc_water hu, bind_eq_ok] at h
    obtain ⟨x, h1, y, -, h⟩ := h
    cases h
    exact ⟨by rw [pc_water hu, h1]; rfl, rfl, rfl⟩
  · obtain ⟨a, b, c, rfl⟩ := List.length_eq_three.1 hs
    simp only [dpc_three hu, bind_eq_ok] at h
    obtain ⟨x, h1, y, -, z, h2, _, -, h⟩ := h
    cases h
    exact ⟨by rw [pc_three hu, h1, bind_ok, h2]; rfl, rfl, rfl⟩

end Opm.SatFunc
