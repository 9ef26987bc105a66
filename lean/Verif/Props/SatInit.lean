import Verif.Props.SatDeriv
/-!
# Saturation functions of a deck: tables, saturation ranges, end points
-/

namespace Opm.SatFunc
open Opm Opm.Interp Opm.Pvt Opm.Blackoil Opm.Rock

/-- What `init` takes from a table of SWOF. -/
structure WaterPart (k : Kind) (u : Option (Sampling × Int)) (sw krw krow pcow : List Rat) (f : Funcs) (swco swmax : Rat) : Prop where
  check : k = .simple → krw[0]? = some 0 ∧ krow[krow.length - 1]? = some 0
  water : mkTab u sw krw = .ok f.krw
  oil : mkTab u sw krow = .ok f.krow
  cap : mkTab u sw pcow = .ok f.pcow
  connate : krow[0]? = some f.krocw
  lo : sw[0]? = some swco
  hi : sw[sw.length - 1]? = some swmax
  ends : if k = .simple then ∃ e, endsOf sw krw krow swco swmax = .ok e ∧ f.ends = some e else f.ends = none

/-- What `init` takes from a table of SGOF. -/
structure GasPart (u : Option (Sampling × Int)) (sg krg krog pcog : List Rat) (f : Funcs) (lo hi : Rat) : Prop where
  gas : mkTab u sg krg = .ok f.krg
  oil : mkTab u sg krog = .ok f.krog
  cap : mkTab u sg pcog = .ok f.pcog
  lo : sg[0]? = some lo
  hi : sg[sg.length - 1]? = some hi

theorem initWater_ok {k : Kind} {u : Option (Sampling × Int)} {swof : Option (List (List (List Rat)))} {table : Nat} {f0 f : Funcs} {a b : Rat} {g : Bool} (hu : f0.usage = usageOf true g) (h0 : f0.smin = [0, 0, 0]) (h1 : f0.smax = [0, 0, 0])
    (h : initWater k u swof table f0 = .ok (f, a, b)) :
    f.usage = f0.usage ∧ f.smin = [a, 0, 0] ∧ f.smax = [b, 0, 0] ∧ ∃ ts sw krw krow pcow rest, swof = some ts ∧ ts[table]? = some (sw :: krw :: krow :: pcow :: rest) ∧ WaterPart k u sw krw krow pcow f a b := by
  unfold initWater at h
  cases swof with
  | none => cases h
  | some ts =>
    dsimp only at h
    obtain ⟨t, ht, h⟩ := bind_eq_ok.1 h
    obtain ⟨sw, e0, h⟩ := bind_eq_ok.1 h
    obtain ⟨krw, e1, h⟩ := bind_eq_ok.1 h
    obtain ⟨krow, e2, h⟩ := bind_eq_ok.1 h
    obtain ⟨pcow, e3, h⟩ := bind_eq_ok.1 h
    obtain ⟨_, ck, h⟩ := bind_eq_ok.1 h
    obtain ⟨x, hx, h⟩ := bind_eq_ok.1 h
    obtain ⟨y, hy, h⟩ := bind_eq_ok.1 h
    obtain ⟨z, hz, h⟩ := bind_eq_ok.1 h
    obtain ⟨krocw, ho, h⟩ := bind_eq_ok.1 h
    obtain ⟨swco, hco, h⟩ := bind_eq_ok.1 h
    obtain ⟨swmax, hmx, h⟩ := bind_eq_ok.1 h
    rw [hu, show rd (usageOf true g).pos Aqua = .ok 0 from rfl, bind_ok, h0, h1, show wr [0, 0, 0] 0 swco = .ok [swco, 0, 0] from rfl, bind_ok, show wr [0, 0, 0] 0 swmax = .ok [swmax, 0, 0] from rfl, bind_ok] at h
    obtain ⟨e, he, h⟩ := bind_eq_ok.1 h
    obtain ⟨r1, r2⟩ := Prod.mk.inj (Except.ok.inj h)
    obtain ⟨r2, r3⟩ := Prod.mk.inj r2
    subst r1 r2 r3
    have ht' : t = sw :: krw :: krow :: pcow :: t.drop 4 := by
      obtain ⟨q0, rfl⟩ := List.getElem?_eq_some_iff.1 (rd_eq_ok.1 e0)
      obtain ⟨q1, rfl⟩ := List.getElem?_eq_some_iff.1 (rd_eq_ok.1 e1)
      obtain ⟨q2, rfl⟩ := List.getElem?_eq_some_iff.1 (rd_eq_ok.1 e2)
      obtain ⟨q3, rfl⟩ := List.getElem?_eq_some_iff.1 (rd_eq_ok.1 e3)
      rw [← List.drop_eq_getElem_cons, ← List.drop_eq_getElem_cons, ← List.drop_eq_getElem_cons, ← List.drop_eq_getElem_cons, List.drop_zero]
    refine ⟨hu.symm, rfl, rfl, ts, sw, krw, krow, pcow, t.drop 4, rfl, ?_, ?_, hx, hy, hz, rd_eq_ok.1 ho, rd_eq_ok.1 hco, rd_eq_ok.1 hmx, ?_⟩
    · rw [← ht']; exact rd_eq_ok.1 ht
    · intro hk
      subst hk
      unfold checkEnds at ck
      dsimp only at ck
      obtain ⟨p, hp, ck⟩ := bind_eq_ok.1 ck
      obtain ⟨q, hq, ck⟩ := bind_eq_ok.1 ck
      split at ck
      · cases ck
      · next hn =>
        push Not at hn
        rw [hn.1] at hp
        rw [hn.2] at hq
        exact ⟨rd_eq_ok.1 hp, rd_eq_ok.1 hq⟩
    · unfold setEnds at he
      cases k
      · obtain ⟨e', he', q⟩ := bind_eq_ok.1 he
        exact ⟨e', he', (Except.ok.inj q).symm⟩
      · exact (Except.ok.inj he).symm
      · exact (Except.ok.inj he).symm

theorem initGas_ok {u : Option (Sampling × Int)} {sgof : Option (List (List (List Rat)))} {table : Nat} {f0 f : Funcs} {swco : Rat} {w : Bool} (hu : f0.usage = usageOf w true)
    (h : initGas u sgof table swco f0 = .ok f) :
    ∃ ts sg krg krog pcog rest lo hi, sgof = some ts ∧ ts[table]? = some (sg :: krg :: krog :: pcog :: rest) ∧ GasPart u sg krg krog pcog f lo hi ∧ |hi + swco - 1| ≤ 1 / 1000 ∧
      w.toNat + 1 < f0.smin.length ∧ w.toNat + 1 < f0.smax.length ∧
      f = { f0 with krg := f.krg, krog := f.krog, pcog := f.pcog, smin := f0.smin.set (w.toNat + 1) lo, smax := f0.smax.set (w.toNat + 1) hi } := by
  unfold initGas at h
  cases sgof with
  | none => cases h
  | some ts =>
    dsimp only at h
    obtain ⟨t, ht, h⟩ := bind_eq_ok.1 h
    obtain ⟨sg, e0, h⟩ := bind_eq_ok.1 h
    obtain ⟨krg, e1, h⟩ := bind_eq_ok.1 h
    obtain ⟨krog, e2, h⟩ := bind_eq_ok.1 h
    obtain ⟨pcog, e3, h⟩ := bind_eq_ok.1 h
    obtain ⟨x, hx, h⟩ := bind_eq_ok.1 h
    obtain ⟨y, hy, h⟩ := bind_eq_ok.1 h
    obtain ⟨z, hz, h⟩ := bind_eq_ok.1 h
    obtain ⟨lo, ho, h⟩ := bind_eq_ok.1 h
    obtain ⟨hi, hco, h⟩ := bind_eq_ok.1 h
    rw [hu, show rd (usageOf w true).pos Vapour = .ok (w.toNat + 1) from rfl, bind_ok] at h
    obtain ⟨l1, hl1, h⟩ := bind_eq_ok.1 h
    split at h
    · cases h
    next hn =>
    obtain ⟨l2, hl2, h⟩ := bind_eq_ok.1 h
    have h := Except.ok.inj h
    obtain ⟨q1, rfl⟩ := wr_eq_ok.1 hl1
    obtain ⟨q2, rfl⟩ := wr_eq_ok.1 hl2
    subst h
    have ht' : t = sg :: krg :: krog :: pcog :: t.drop 4 := by
      obtain ⟨q0, rfl⟩ := List.getElem?_eq_some_iff.1 (rd_eq_ok.1 e0)
      obtain ⟨q1, rfl⟩ := List.getElem?_eq_some_iff.1 (rd_eq_ok.1 e1)
      obtain ⟨q2, rfl⟩ := List.getElem?_eq_some_iff.1 (rd_eq_ok.1 e2)
      obtain ⟨q3, rfl⟩ := List.getElem?_eq_some_iff.1 (rd_eq_ok.1 e3)
      rw [← List.drop_eq_getElem_cons, ← List.drop_eq_getElem_cons, ← List.drop_eq_getElem_cons, ← List.drop_eq_getElem_cons, List.drop_zero]
    refine ⟨ts, sg, krg, krog, pcog, t.drop 4, lo, hi, rfl, ?_, ⟨hx, hy, hz, rd_eq_ok.1 ho, rd_eq_ok.1 hco⟩, not_lt.1 hn, q1, q2, by rw [← hu]⟩
    rw [← ht']; exact rd_eq_ok.1 ht

/-- What `init` makes of a deck with water: the tables of SWOF, and the ranges of saturations.  Position 0 is water, position 1 oil. -/
theorem init_water {k : Kind} {u : Option (Sampling × Int)} {swof sgof : Option (List (List (List Rat)))} {table : Nat} {g : Bool} {f : Funcs} (h : Funcs.init k u swof sgof table (usageOf true g) = .ok f) :
    f.usage = usageOf true g ∧ ∃ ts sw krw krow pcow rest swco swmax, swof = some ts ∧ ts[table]? = some (sw :: krw :: krow :: pcow :: rest) ∧ WaterPart k u sw krw krow pcow f swco swmax ∧
      f.smin.take 2 = [swco, 1 - swmax] ∧ f.smax.take 2 = [swmax, 1 - swco] ∧
      (g = true → ∃ ts sg krg krog pcog rest lo hi, sgof = some ts ∧ ts[table]? = some (sg :: krg :: krog :: pcog :: rest) ∧ GasPart u sg krg krog pcog f lo hi ∧ |hi + swco - 1| ≤ 1 / 1000 ∧
        f.smin = [swco, 1 - swmax, lo] ∧ f.smax = [swmax, 1 - swco, hi]) := by
  unfold Funcs.init at h
  obtain ⟨⟨f1, a, b⟩, h1, h⟩ := bind_eq_ok.1 h
  unfold maybeWater at h1
  rw [show rd (usageOf true g).used Aqua = .ok true from rfl, bind_ok, if_pos rfl] at h1
  obtain ⟨u1, m1, M1, ts, sw, krw, krow, pcow, rest, ht, hr, W⟩ := initWater_ok (g := g) rfl rfl rfl h1
  dsimp only at h u1
  obtain ⟨f2, h2, h3⟩ := bind_eq_ok.1 h
  clear h
  rw [show rd (usageOf true g).pos Liquid = .ok 1 from rfl, bind_ok] at h3
  unfold maybeGas at h2
  rw [u1, show rd (usageOf true g).used Vapour = .ok g from rfl, bind_ok] at h2
  cases g with
  | false =>
    rw [if_neg (by decide)] at h2
    cases h2
    rw [m1, M1] at h3
    have h := Except.ok.inj h3
    subst h
    exact ⟨u1, ts, sw, krw, krow, pcow, rest, a, b, ht, hr, ⟨W.check, W.water, W.oil, W.cap, W.connate, W.lo, W.hi, W.ends⟩, rfl, rfl, by simp⟩
  | true =>
    rw [if_pos rfl] at h2
    obtain ⟨ts', sg, krg, krog, pcog, rest', lo, hi, ht', hr', G, hx, -, -, ef⟩ := initGas_ok u1 h2
    rw [m1, M1] at ef
    rw [ef] at h3
    have h := Except.ok.inj h3
    subst h
    rw [ef] at G
    exact ⟨u1, ts, sw, krw, krow, pcow, rest, a, b, ht, hr, ⟨W.check, W.water, W.oil, W.cap, W.connate, W.lo, W.hi, W.ends⟩, rfl, rfl,
      fun _ => ⟨ts', sg, krg, krog, pcog, rest', lo, hi, ht', hr', ⟨G.gas, G.oil, G.cap, G.lo, G.hi⟩, hx, rfl, rfl⟩⟩

/-- The same for a deck with oil and gas only: position 0 is oil, position 1 gas. -/
theorem init_gas {k : Kind} {u : Option (Sampling × Int)} {swof sgof : Option (List (List (List Rat)))} {table : Nat} {f : Funcs} (h : Funcs.init k u swof sgof table (usageOf false true) = .ok f) :
    f.usage = usageOf false true ∧ ∃ ts sg krg krog pcog rest lo hi, sgof = some ts ∧ ts[table]? = some (sg :: krg :: krog :: pcog :: rest) ∧ GasPart u sg krg krog pcog f lo hi ∧ |hi - 1| ≤ 1 / 1000 ∧
      f.smin.take 2 = [0, lo] ∧ f.smax.take 2 = [1, hi] := by
  unfold Funcs.init at h
  rw [show maybeWater k u swof table { usage := usageOf false true } = .ok ({ usage := usageOf false true }, 0, 1) from rfl, bind_ok] at h
  dsimp only at h
  obtain ⟨f2, h2, h⟩ := bind_eq_ok.1 h
  rw [show rd (usageOf false true).pos Liquid = .ok 0 from rfl, bind_ok] at h
  unfold maybeGas at h2
  rw [show rd (usageOf false true).used Vapour = .ok true from rfl, bind_ok, if_pos rfl] at h2
  obtain ⟨ts', sg, krg, krog, pcog, rest', lo, hi, ht', hr', G, hx, -, -, ef⟩ := initGas_ok (w := false) rfl h2
  rw [ef] at h
  have h := Except.ok.inj h
  subst h
  rw [ef] at G
  refine ⟨rfl, ts', sg, krg, krog, pcog, rest', lo, hi, ht', hr', ⟨G.gas, G.oil, G.cap, G.lo, G.hi⟩, by simpa using hx, ?_, ?_⟩
  · simp
  · simp

end Opm.SatFunc
