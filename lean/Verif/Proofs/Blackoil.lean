import Verif.Spec.Blackoil
import Verif.Proofs.Blocks
import Verif.Props.Pvt
/-!
# Helper lemmas for black-oil properties
-/

namespace Opm.Blackoil
open Opm Opm.Pvt Opm.Rock

theorem fluid_rd {b : Props} {c : Nat} {f : Fluid} (h : b.fluid c = some f) : rd b.props c = .ok (some f) := by
  unfold Props.fluid at h
  cases e : b.props[c]? with
  | none => rw [e] at h; simp at h
  | some q => rw [e] at h; simp at h; rw [rd_of_getElem? e, h]

theorem scatter_ok {np n ph : Nat} {data out : List Rat} (hd : data.length = n) (ho : out.length = n * np) (hp : ph < np) :
    ∃ t, scatter np n ph data out = .ok t ∧ t.length = out.length ∧ (∀ i, i < n → t.getD (np * i + ph) 0 = data.getD i 0) ∧
      ∀ k, (∀ i, i < n → np * i + ph ≠ k) → t.getD k 0 = out.getD k 0 := by
  unfold scatter
  refine loop_writes (fun i => np * i + ph) (fun i => data.getD i 0) (fun i hi => ?_) (fun i j _ _ e => ?_) (fun i t hi _ _ => ?_)
  · have : np * i + np ≤ n * np := by rw [← Nat.mul_succ, Nat.mul_comm n]; exact Nat.mul_le_mul_left _ hi
    omega
  · have : np * i = np * j := by omega
    exact Nat.eq_of_mul_eq_mul_left (by omega) this
  · rw [rd_of_getElem? (getElem?_getD (by omega)), bind_ok]

/-- Positions of different phases are different. -/
theorem pos_ne {np i j c d : Nat} (hc : c < np) (hd : d < np) (h : c ≠ d) : np * i + c ≠ np * j + d := by
  intro e
  have : (np * i + c) % np = (np * j + d) % np := by rw [e]
  rw [Nat.mul_add_mod, Nat.mul_add_mod, Nat.mod_eq_of_lt hc, Nat.mod_eq_of_lt hd] at this
  exact h this

theorem pos_inj {np i j c : Nat} (hc : c < np) (e : np * i + c = np * j + c) : i = j := by
  have : np * i = np * j := by omega
  exact Nat.eq_of_mul_eq_mul_left (by omega) this

/-- A method with one result per phase. -/
theorem each_iff {b : Props} (hb : b.Ok) {call : Fluid → Config → Nat → List Rat → List Rat → List Rat → M (List Rat)} {one : Fluid → Config → List Rat → Rat → M Rat} {n : Nat} {p z : List Rat} (hp : p.length = n)
    (hc : ∀ f d, f.Reads b.cfg → (call f b.cfg n p z (List.replicate n 0) = .ok d ↔ d.length = n ∧ ∀ i x, p[i]? = some x → ∃ v, one f b.cfg (point b.cfg z i) x = .ok v ∧ d[i]? = some v))
    {out out' : List Rat} (ho : out.length = n * b.usage.num) :
    b.each call n p z out = .ok out' ↔ out'.length = n * b.usage.num ∧
      ∀ i x c f, p[i]? = some x → b.fluid c = some f → ∃ v, one f b.cfg (point b.cfg z i) x = .ok v ∧ out'[b.usage.num * i + c]? = some v := by
  have cl : ∀ {c f}, b.fluid c = some f → c < b.usage.num := by
    intro c f h
    have := fluid_rd h
    rw [rd_eq_ok] at this
    rw [← hb.len]
    exact (List.getElem?_eq_some_iff.1 this).1
  -- if everything is defined, the result is as claimed
  have pos : (∀ i x c f, p[i]? = some x → b.fluid c = some f → ∃ v, one f b.cfg (point b.cfg z i) x = .ok v) →
      ∃ r, b.each call n p z out = .ok r ∧ r.length = n * b.usage.num ∧
        ∀ i x c f, p[i]? = some x → b.fluid c = some f → ∃ v, one f b.cfg (point b.cfg z i) x = .ok v ∧ r[b.usage.num * i + c]? = some v := by
    intro h
    obtain ⟨r, e, h1, h2⟩ := loop_inv (n := b.usage.num) (s := out) (f := fun phase out => do
        let q ← rd b.props phase
        let f ← deref q
        let data ← call f b.cfg n p z (List.replicate n 0)
        scatter b.usage.num n phase data out)
      (P := fun m (r : List Rat) => r.length = n * b.usage.num ∧
        ∀ (i : Nat) x c f, c < m → p[i]? = some x → b.fluid c = some f → ∃ v, one f b.cfg (point b.cfg z i) x = .ok v ∧ r[b.usage.num * i + c]? = some v) ⟨ho, by intro i x c f h; omega⟩ (by
      rintro c r hcn ⟨h1, h2⟩
      obtain ⟨f, hf, hr⟩ := hb.fluids c hcn
      have hd : ∃ d, call f b.cfg n p z (List.replicate n 0) = .ok d := by
        refine ⟨(List.range n).map (fun i => match one f b.cfg (point b.cfg z i) (p.getD i 0) with | .ok v => v | .error _ => 0), (hc f _ hr).2 ⟨by simp, fun i x hx => ?_⟩⟩
        obtain ⟨v, hv⟩ := h i x c f hx hf
        have hi := (List.getElem?_eq_some_iff.1 hx).1
        refine ⟨v, hv, ?_⟩
        rw [List.getElem?_map, List.getElem?_range (by omega)]
        simp only [Option.map_some, List.getD_eq_getElem?_getD, hx, Option.getD_some, hv]
      obtain ⟨d, hd⟩ := hd
      obtain ⟨dl, dv⟩ := (hc f d hr).1 hd
      obtain ⟨t, e, l, w1, w2⟩ := scatter_ok (np := b.usage.num) (n := n) (ph := c) dl h1 hcn
      refine ⟨t, by rw [fluid_rd hf, bind_ok]; show (Except.ok f >>= fun f => _) = _; rw [bind_ok, hd, bind_ok, e], by rw [l, h1], fun i x c' f' hc' hx hf' => ?_⟩
      have hi := (List.getElem?_eq_some_iff.1 hx).1
      have hlt : b.usage.num * i + c' < t.length := by
        rw [l, h1]
        have := cl hf'
        have : b.usage.num * i + b.usage.num ≤ n * b.usage.num := by rw [← Nat.mul_succ, Nat.mul_comm n]; exact Nat.mul_le_mul_left _ (by omega)
        omega
      rcases Nat.lt_succ_iff_lt_or_eq.1 hc' with q | q
      · obtain ⟨v, hv, hr'⟩ := h2 i x c' f' q hx hf'
        refine ⟨v, hv, ?_⟩
        rw [getElem?_getD hlt, w2 _ (fun j _ => pos_ne hcn (cl hf') (by omega)), List.getD_eq_getElem?_getD, hr', Option.getD_some]
      · subst q
        rw [hf] at hf'
        cases hf'
        obtain ⟨v, hv, hr'⟩ := dv i x hx
        refine ⟨v, hv, ?_⟩
        rw [getElem?_getD hlt, w1 i (by omega), List.getD_eq_getElem?_getD, hr', Option.getD_some])
    exact ⟨r, e, h1, fun i x c f hx hf => h2 i x c f (cl hf) hx hf⟩
  constructor
  · intro h
    have hall : ∀ i x c f, p[i]? = some x → b.fluid c = some f → ∃ v, one f b.cfg (point b.cfg z i) x = .ok v := by
      intro i x c f hx hf
      obtain ⟨s1, s2, hs⟩ := loop_passes h c (cl hf)
      rw [fluid_rd hf, bind_ok] at hs
      have hs : (call f b.cfg n p z (List.replicate n 0) >>= fun data => scatter b.usage.num n c data s1) = .ok s2 := hs
      rw [bind_eq_ok] at hs
      obtain ⟨d, hd, _⟩ := hs
      obtain ⟨f', hf', hr⟩ := hb.fluids c (cl hf)
      rw [hf] at hf'
      cases hf'
      obtain ⟨v, hv, _⟩ := ((hc f d hr).1 hd).2 i x hx
      exact ⟨v, hv⟩
    obtain ⟨r, e, h1, h2⟩ := pos hall
    rw [e] at h
    cases h
    exact ⟨h1, h2⟩
  · rintro ⟨h1, h2⟩
    obtain ⟨r, e, h3, h4⟩ := pos (fun i x c f hx hf => by obtain ⟨v, hv, _⟩ := h2 i x c f hx hf; exact ⟨v, hv⟩)
    rw [e]
    congr 1
    refine List.ext_getElem? (fun k => ?_)
    rcases Nat.lt_or_ge k (n * b.usage.num) with hk | hk
    · have hnp : 0 < b.usage.num := by
        rcases Nat.eq_zero_or_pos b.usage.num with q | q
        · rw [q] at hk; omega
        · exact q
      have hi : k / b.usage.num < n := Nat.div_lt_of_lt_mul (by rw [Nat.mul_comm]; exact hk)
      have hm := Nat.mod_lt k hnp
      obtain ⟨f, hf, _⟩ := hb.fluids _ hm
      have hx := List.getElem?_eq_getElem (l := p) (i := k / b.usage.num) (by omega)
      obtain ⟨v, hv, hr⟩ := h4 _ _ _ f hx hf
      obtain ⟨v', hv', hr'⟩ := h2 _ _ _ f hx hf
      rw [hv] at hv'
      cases hv'
      rw [Nat.div_add_mod] at hr hr'
      rw [hr, hr']
    · rw [List.getElem?_eq_none (by omega), List.getElem?_eq_none (by omega)]

/-- First and second part of a method with two results. -/
def fstCall (call : Fluid → Config → Nat → List Rat → List Rat → List Rat × List Rat → M (List Rat × List Rat)) (f : Fluid) (cfg : Config) (n : Nat) (p z o : List Rat) : M (List Rat) := do
  let r ← call f cfg n p z (o, List.replicate n 0)
  .ok r.1
def sndCall (call : Fluid → Config → Nat → List Rat → List Rat → List Rat × List Rat → M (List Rat × List Rat)) (f : Fluid) (cfg : Config) (n : Nat) (p z o : List Rat) : M (List Rat) := do
  let r ← call f cfg n p z (List.replicate n 0, o)
  .ok r.2

theorem each2_split (b : Props) (call : Fluid → Config → Nat → List Rat → List Rat → List Rat × List Rat → M (List Rat × List Rat)) (n : Nat) (p z x y x' y' : List Rat) :
    b.each2 call n p z (x, y) = .ok (x', y') ↔ b.each (fstCall call) n p z x = .ok x' ∧ b.each (sndCall call) n p z y = .ok y' := by
  unfold Props.each2 Props.each
  generalize b.usage.num = N
  suffices h : ∀ m x' y', loop m (fun phase out => do
      let q ← rd b.props phase
      let f ← deref q
      let data ← call f b.cfg n p z (List.replicate n 0, List.replicate n 0)
      let x ← scatter N n phase data.1 out.1
      let y ← scatter N n phase data.2 out.2
      Except.ok (x, y)) (x, y) = .ok (x', y') ↔
      loop m (fun phase out => do
        let q ← rd b.props phase
        let f ← deref q
        let data ← fstCall call f b.cfg n p z (List.replicate n 0)
        scatter N n phase data out) x = .ok x' ∧
      loop m (fun phase out => do
        let q ← rd b.props phase
        let f ← deref q
        let data ← sndCall call f b.cfg n p z (List.replicate n 0)
        scatter N n phase data out) y = .ok y' from h N x' y'
  intro m
  induction m with
  | zero => intro x' y'; simp only [loop_zero, Except.ok.injEq, Prod.mk.injEq]
  | succ m ih =>
    intro x' y'
    simp only [loop_succ, bind_eq_ok, Prod.exists, ih]
    constructor
    · rintro ⟨x1, y1, ⟨h1, h2⟩, q, hq, f, hf, d1, d2, hd, a, ha, c, hc, e⟩
      simp only [Except.ok.injEq, Prod.mk.injEq] at e
      obtain ⟨rfl, rfl⟩ := e
      exact ⟨⟨x1, h1, q, hq, f, hf, d1, by unfold fstCall; rw [hd, bind_ok], ha⟩, ⟨y1, h2, q, hq, f, hf, d2, by unfold sndCall; rw [hd, bind_ok], hc⟩⟩
    · rintro ⟨⟨x1, h1, q, hq, f, hf, d1, hd1, ha⟩, ⟨y1, h2, q', hq', f', hf', d2, hd2, hc⟩⟩
      rw [hq] at hq'
      cases hq'
      rw [hf] at hf'
      cases hf'
      unfold fstCall at hd1
      unfold sndCall at hd2
      rw [bind_eq_ok] at hd1 hd2
      obtain ⟨⟨u, v⟩, hu, e1⟩ := hd1
      obtain ⟨⟨u', v'⟩, hu', e2⟩ := hd2
      rw [hu] at hu'
      cases hu'
      cases e1
      cases e2
      exact ⟨x1, y1, ⟨h1, h2⟩, q, hq, f, hf, u, v, hu, x', ha, y', hc, rfl⟩

/-- A method with two results per phase. -/
theorem each2_iff {b : Props} (hb : b.Ok) {call : Fluid → Config → Nat → List Rat → List Rat → List Rat × List Rat → M (List Rat × List Rat)} {one : Fluid → Config → List Rat → Rat → M (Rat × Rat)} {n : Nat} {p z : List Rat}
    (hp : p.length = n)
    (hc : ∀ f d e, f.Reads b.cfg → (call f b.cfg n p z (List.replicate n 0, List.replicate n 0) = .ok (d, e) ↔ d.length = n ∧ e.length = n ∧
      ∀ i x, p[i]? = some x → ∃ v w, one f b.cfg (point b.cfg z i) x = .ok (v, w) ∧ d[i]? = some v ∧ e[i]? = some w))
    {x y x' y' : List Rat} (hx : x.length = n * b.usage.num) (hy : y.length = n * b.usage.num) :
    b.each2 call n p z (x, y) = .ok (x', y') ↔ x'.length = n * b.usage.num ∧ y'.length = n * b.usage.num ∧
      ∀ i q c f, p[i]? = some q → b.fluid c = some f → ∃ v w, one f b.cfg (point b.cfg z i) q = .ok (v, w) ∧ x'[b.usage.num * i + c]? = some v ∧ y'[b.usage.num * i + c]? = some w := by
  have h1 : ∀ f d, f.Reads b.cfg → (fstCall call f b.cfg n p z (List.replicate n 0) = .ok d ↔ d.length = n ∧
      ∀ i x, p[i]? = some x → ∃ v, (one f b.cfg (point b.cfg z i) x >>= fun r => .ok r.1) = .ok v ∧ d[i]? = some v) := by
    intro f d hr
    unfold fstCall
    rw [bind_eq_ok]
    constructor
    · rintro ⟨⟨u, v⟩, h, e⟩
      cases e
      obtain ⟨a1, a2, a3⟩ := (hc f u v hr).1 h
      refine ⟨a1, fun i x hx => ?_⟩
      obtain ⟨s, t, b1, b2, b3⟩ := a3 i x hx
      exact ⟨s, by rw [b1, bind_ok], b2⟩
    · rintro ⟨a1, a2⟩
      refine ⟨(d, (List.range n).map (fun i => match one f b.cfg (point b.cfg z i) (p.getD i 0) with | .ok v => v.2 | .error _ => 0)), (hc f _ _ hr).2 ⟨a1, by simp, fun i x hx => ?_⟩, rfl⟩
      have hi := (List.getElem?_eq_some_iff.1 hx).1
      obtain ⟨s, b1, b2⟩ := a2 i x hx
      rw [bind_eq_ok] at b1
      obtain ⟨⟨s', t⟩, b1, e⟩ := b1
      cases e
      refine ⟨s', t, b1, b2, ?_⟩
      rw [List.getElem?_map, List.getElem?_range (by omega)]
      simp only [Option.map_some, List.getD_eq_getElem?_getD, hx, Option.getD_some, b1]
  have h2 : ∀ f d, f.Reads b.cfg → (sndCall call f b.cfg n p z (List.replicate n 0) = .ok d ↔ d.length = n ∧
      ∀ i x, p[i]? = some x → ∃ v, (one f b.cfg (point b.cfg z i) x >>= fun r => .ok r.2) = .ok v ∧ d[i]? = some v) := by
    intro f d hr
    unfold sndCall
    rw [bind_eq_ok]
    constructor
    · rintro ⟨⟨u, v⟩, h, e⟩
      cases e
      obtain ⟨a1, a2, a3⟩ := (hc f u v hr).1 h
      refine ⟨a2, fun i x hx => ?_⟩
      obtain ⟨s, t, b1, b2, b3⟩ := a3 i x hx
      exact ⟨t, by rw [b1, bind_ok], b3⟩
    · rintro ⟨a1, a2⟩
      refine ⟨((List.range n).map (fun i => match one f b.cfg (point b.cfg z i) (p.getD i 0) with | .ok v => v.1 | .error _ => 0), d), (hc f _ _ hr).2 ⟨by simp, a1, fun i x hx => ?_⟩, rfl⟩
      have hi := (List.getElem?_eq_some_iff.1 hx).1
      obtain ⟨s, b1, b2⟩ := a2 i x hx
      rw [bind_eq_ok] at b1
      obtain ⟨⟨s', t⟩, b1, e⟩ := b1
      cases e
      refine ⟨s', t, b1, ?_, b2⟩
      rw [List.getElem?_map, List.getElem?_range (by omega)]
      simp only [Option.map_some, List.getD_eq_getElem?_getD, hx, Option.getD_some, b1]
  rw [each2_split, each_iff hb (one := fun f cfg z x => one f cfg z x >>= fun r => .ok r.1) hp h1 hx, each_iff hb (one := fun f cfg z x => one f cfg z x >>= fun r => .ok r.2) hp h2 hy]
  constructor
  · rintro ⟨⟨a1, a2⟩, a3, a4⟩
    refine ⟨a1, a3, fun i q c f hq hf => ?_⟩
    obtain ⟨v, b1, b2⟩ := a2 i q c f hq hf
    obtain ⟨w, b3, b4⟩ := a4 i q c f hq hf
    rw [bind_eq_ok] at b1 b3
    obtain ⟨⟨s, t⟩, b1, e⟩ := b1
    obtain ⟨r, b3, e'⟩ := b3
    rw [b1] at b3
    cases b3
    cases e
    cases e'
    exact ⟨s, t, b1, b2, b4⟩
  · rintro ⟨a1, a2, a3⟩
    refine ⟨⟨a1, fun i q c f hq hf => ?_⟩, a2, fun i q c f hq hf => ?_⟩
    · obtain ⟨v, w, b1, b2, b3⟩ := a3 i q c f hq hf
      exact ⟨v, by rw [b1, bind_ok], b2⟩
    · obtain ⟨v, w, b1, b2, b3⟩ := a3 i q c f hq hf
      exact ⟨w, by rw [b1, bind_ok], b3⟩

end Opm.Blackoil
