import Verif.Proofs.TofMultidim
import Verif.Props.Tof
import Verif.Proofs.Sweep
import Verif.Proofs.GridValid
import Mathlib.Tactic.IntervalCases
/-!
# C127: multidimensional upwinding for the time of flight
-/

namespace Opm.TofMultidim
open Opm UniquePoints
open _root_.Opm.Geometry (RowOf entries entries_ok)
open _root_.Opm.DGBasis (rdG)

variable {P : Problem} {cell : Nat} {fs : List Nat} {ns : Nat → List Nat}

/-- The sums of a cell. -/
theorem sums_ok (h : CellData P cell fs ns) (hq : Quiet P cell fs ns) {F : List Rat} (hF : F.length = P.g.nf) (x : Rat) :
    ∃ a, fs.foldlM (addFace P cell F) { up := 0, factor := x, face := 0 } = .ok a ∧ -a.up = (fs.map (fun f => max (-out P cell f) 0 * F.getD f 0)).sum ∧
      a.face = (fs.map (fun f => max (out P cell f) 0 * fterm P cell (beside P fs ns f) (fun j => F.getD j 0) f)).sum ∧
      a.factor = x + (fs.map (fun f => max (out P cell f) 0 * cterm P cell (beside P fs ns f) f)).sum := by
  obtain ⟨a, e, p1, p2, p3⟩ := foldlM_inv (l := fs) (f := addFace P cell F) (s := { up := 0, factor := x, face := 0 })
    (fun done a => -a.up = (done.map (fun f => max (-out P cell f) 0 * F.getD f 0)).sum ∧
      a.face = (done.map (fun f => max (out P cell f) 0 * fterm P cell (beside P fs ns f) (fun j => F.getD j 0) f)).sum ∧
      a.factor = x + (done.map (fun f => max (out P cell f) 0 * cterm P cell (beside P fs ns f) f)).sum) ⟨by simp, by simp, by simp⟩ (by
      rintro done f rest a eL ⟨p1, p2, p3⟩
      have hf : f ∈ fs := by rw [eL]; simp
      unfold addFace
      rw [outflux_ok h hf, bind_ok]
      by_cases q : out P cell f < 0
      · rw [if_pos q, rdG (by rw [hF]; exact (h.inside f hf).1), bind_ok]
        refine ⟨_, rfl, ?_, ?_, ?_⟩
        · simp only [List.map_append, List.sum_append, ← p1, List.map_cons, List.map_nil, List.sum_cons, List.sum_nil]
          rw [max_eq_left (by linarith)]
          ring
        · simp only [List.map_append, List.sum_append, ← p2, List.map_cons, List.map_nil, List.sum_cons, List.sum_nil]
          rw [max_eq_right (by linarith)]
          ring
        · simp only [List.map_append, List.sum_append, List.map_cons, List.map_nil, List.sum_cons, List.sum_nil]
          rw [max_eq_right (by linarith), p3]
          ring
      · rw [if_neg q, terms_ok h hq hF hf, bind_ok]
        refine ⟨_, rfl, ?_, ?_, ?_⟩
        · simp only [List.map_append, List.sum_append, ← p1, List.map_cons, List.map_nil, List.sum_cons, List.sum_nil]
          rw [max_eq_right (by linarith)]
          ring
        · simp only [List.map_append, List.sum_append, ← p2, List.map_cons, List.map_nil, List.sum_cons, List.sum_nil]
          rw [max_eq_left (by linarith)]
          ring
        · simp only [List.map_append, List.sum_append, List.map_cons, List.map_nil, List.sum_cons, List.sum_nil]
          rw [max_eq_left (by linarith), p3]
          ring)
  exact ⟨a, e, p1, p2, p3⟩

/-- The values at the faces with outflow. -/
theorem faces_ok (h : CellData P cell fs ns) (hq : Quiet P cell fs ns) {F tof : List Rat} (hF : F.length = P.g.nf) (ht : cell < tof.length) :
    ∃ G, fs.foldlM (setFace P cell tof) F = .ok G ∧ G.length = P.g.nf ∧
      ∀ k, G.getD k 0 = if k ∈ fs ∧ 0 < out P cell k then faceValue P cell (beside P fs ns k) (fun j => F.getD j 0) (tof.getD cell 0) k else F.getD k 0 := by
  obtain ⟨G, e, l, p⟩ := foldlM_inv (l := fs) (f := setFace P cell tof) (s := F) (fun done G => G.length = P.g.nf ∧
      ∀ k, G.getD k 0 = if k ∈ done ∧ 0 < out P cell k then faceValue P cell (beside P fs ns k) (fun j => F.getD j 0) (tof.getD cell 0) k else F.getD k 0) ⟨hF, by simp⟩ (by
      rintro done f rest G eL ⟨l, p⟩
      have hf : f ∈ fs := by rw [eL]; simp
      unfold setFace
      rw [outflux_ok h hf, bind_ok]
      by_cases q : 0 < out P cell f
      · rw [if_pos q, terms_ok h hq l hf, bind_ok, rdG ht, bind_ok, wr_ok (by rw [l]; exact (h.inside f hf).1)]
        refine ⟨_, rfl, by simpa using l, fun k => ?_⟩
        dsimp only
        rw [fterm_congr (G := fun j => F.getD j 0) (fun j _ hj => by rw [p j, if_neg (fun z => by linarith [z.2])]), ← faceValue_eq, getD_set' (by rw [l]; exact (h.inside f hf).1)]
        by_cases w : k = f
        · subst w
          simp [q]
        · rw [if_neg w, p k]
          simp [w]
      · rw [if_neg q]
        refine ⟨G, rfl, l, fun k => ?_⟩
        rw [p k]
        by_cases w : k = f
        · subst w
          simp [q]
        · simp [w])
  exact ⟨G, e, l, p⟩

/-- The factor of the value of the cell is positive. -/
theorem factor_pos (h : CellData P cell fs ns) (hm : Moving P cell fs) : 0 < max (-P.src.getD cell 0) 0 + (fs.map (fun f => max (out P cell f) 0 * cterm P cell (beside P fs ns f) f)).sum := by
  have h0 : ∀ f ∈ fs, 0 ≤ max (out P cell f) 0 * cterm P cell (beside P fs ns f) f := fun f _ => mul_nonneg (le_max_right _ _) (cterm_nonneg _ _)
  rcases hm with hs | ⟨f, hf, ho⟩
  · have := sum_nonneg' fs _ h0
    have := le_max_left (-P.src.getD cell 0) 0
    linarith
  · have := le_max_right (-P.src.getD cell 0) 0
    have := sum_pos' fs _ h0 hf (mul_pos (lt_max_of_lt_left ho) (cterm_pos (by have := h.closed f hf; omega) ho))
    linarith

/-- **C127.**  `solveSingleCell`: the value of the cell and the values at its faces with outflow solve the equations of the cell; all other values stay as they are. -/
theorem cell_solved (h : CellData P cell fs ns) (hq : Quiet P cell fs ns) (hm : Moving P cell fs) {s : List Rat × List Rat} (hc : cell < s.1.length) (hF : s.2.length = P.g.nf) :
    ∃ s', solveSingleCell P cell s = .ok s' ∧ s'.1.length = s.1.length ∧ s'.2.length = P.g.nf ∧ (∀ c, c ≠ cell → s'.1.getD c 0 = s.1.getD c 0) ∧
      (∀ f, ¬ (f ∈ fs ∧ 0 < out P cell f) → s'.2.getD f 0 = s.2.getD f 0) ∧ Solves P cell fs ns (s'.1.getD cell 0) (fun f => s'.2.getD f 0) := by
  obtain ⟨a, ea, p1, p2, p3⟩ := sums_ok h hq hF (max (-P.src.getD cell 0) 0)
  have hpos := factor_pos h hm
  rw [← p3] at hpos
  set t : Rat := (P.pv.getD cell 0 - a.up - a.face) / a.factor with ht
  obtain ⟨G, eG, lG, pG⟩ := faces_ok h hq hF (tof := s.1.set cell t) (by simpa using hc)
  rw [show (s.1.set cell t).getD cell 0 = t by simp [hc]] at pG
  have keep : ∀ j, out P cell j < 0 → G.getD j 0 = s.2.getD j 0 := fun j hj => by rw [pG j, if_neg (fun z => by linarith [z.2])]
  refine ⟨(s.1.set cell t, G), ?_, by simp, lG, fun c hne => by dsimp only; rw [getD_set' hc, if_neg hne], fun f hf => by dsimp only; rw [pG f, if_neg hf], ?_⟩
  · unfold solveSingleCell
    rw [rdG h.src, bind_ok, entries_ok h.row, bind_ok, ea, bind_ok, rdG h.pv, bind_ok, fdiv, if_neg hpos.ne', bind_ok, wr_ok hc, bind_ok, eG, bind_ok]
  · rw [show (s.1.set cell t).getD cell 0 = t by simp [hc]]
    constructor
    · intro f hf ho
      dsimp only
      rw [pG f, if_pos ⟨hf, ho⟩, faceValue_eq, faceValue_eq, fterm_congr (fun j _ hj => keep j hj)]
    · have e1 : (fs.map (fun f => max (-out P cell f) 0 * G.getD f 0)) = fs.map (fun f => max (-out P cell f) 0 * s.2.getD f 0) := List.map_congr_left (fun f _ => by
        by_cases q : out P cell f < 0
        · rw [keep f q]
        · rw [max_eq_right (by linarith), zero_mul, zero_mul])
      have e2 : fs.map (fun f => max (out P cell f) 0 * G.getD f 0) =
          fs.map (fun f => max (out P cell f) 0 * fterm P cell (beside P fs ns f) (fun j => s.2.getD j 0) f + max (out P cell f) 0 * cterm P cell (beside P fs ns f) f * t) := List.map_congr_left (fun f hf => by
        by_cases q : 0 < out P cell f
        · rw [pG f, if_pos ⟨hf, q⟩, faceValue_eq]
          ring
        · rw [max_eq_right (by linarith)]
          ring)
      have e3 : a.factor * t = P.pv.getD cell 0 - a.up - a.face := by
        rw [ht, mul_div_cancel₀ _ hpos.ne']
      rw [e1, e2, ← p1, List.sum_map_add, List.sum_map_mul_right, ← p2]
      rw [p3] at e3
      linarith

/-- A face through which fluid leaves `d`, and which belongs to another cell: fluid flows there. -/
theorem flows (hv : P.g.Valid) {d c : Nat} {gs : List Nat} (hd : CellData P d fs ns) (hc : CellData P c gs ns) (hne : c ≠ d) {f : Nat} (h1 : f ∈ fs) (h2 : f ∈ gs) (ho : 0 < out P d f) : P.g.FlowsTo P.flux d c := by
  obtain ⟨-, i1, i2⟩ := hd.inside f h1
  have hS : P.g.Sides f (P.g.faceCells.getD (2 * f) 0) (P.g.faceCells.getD (2 * f + 1) 0) := by
    constructor
    · rw [List.getD_eq_getElem?_getD, List.getElem?_eq_getElem (show 2 * f < P.g.faceCells.length by omega)]; rfl
    · rw [List.getD_eq_getElem?_getD, List.getElem?_eq_getElem i2]; rfl
  have has : ∀ {x : Nat} {l : List Nat}, RowOf P.g.cellFacepos P.g.cellFaces x l → f ∈ l → P.g.HasFace x f := by
    rintro x l ⟨a, b, e1, e2, e3⟩ hf
    unfold slice at e3
    split at e3
    · cases e3
      obtain ⟨k, hk⟩ := List.mem_iff_getElem?.1 hf
      rw [List.getElem?_drop, List.getElem?_take] at hk
      split at hk
      · rename_i hlt
        exact ⟨a, b, a + k, e1, e2, by omega, hlt, hk⟩
      · cases hk
    · cases e3
  have hq : P.flux[f]? = some (P.flux.getD f 0) := by
    rw [List.getD_eq_getElem?_getD, List.getElem?_eq_getElem i1]; rfl
  have s1 := (hv.agree d f _ _ hS).1 (has hd.row h1)
  have s2 := (hv.agree c f _ _ hS).1 (has hc.row h2)
  have hne' : (c : Int) ≠ d := by exact_mod_cast hne
  refine ⟨f, P.flux.getD f 0, hq, ?_⟩
  unfold out at ho
  by_cases q : P.g.faceCells.getD (2 * f) 0 = (d : Int)
  · rw [if_pos q] at ho
    have z : P.g.faceCells.getD (2 * f + 1) 0 = (c : Int) := by
      rcases s2 with z | z
      · exact absurd (z.symm.trans q) hne'
      · exact z
    rw [q, z] at hS
    exact .inl ⟨ho, hS⟩
  · rw [if_neg q] at ho
    have z : P.g.faceCells.getD (2 * f + 1) 0 = (d : Int) := s1.resolve_left q
    have w : P.g.faceCells.getD (2 * f) 0 = (c : Int) := by
      rcases s2 with w | w
      · exact w
      · exact absurd (w.symm.trans z) hne'
    rw [z, w] at hS
    exact .inr ⟨by linarith, hS⟩

theorem solves_congr {t t' : Rat} {F G : Nat → Rat} (ht : t' = t) (hF : ∀ f ∈ fs, G f = F f) (h : Solves P cell fs ns t F) : Solves P cell fs ns t' G := by
  subst ht
  constructor
  · intro f hf ho
    rw [hF f hf, h.faces f hf ho, faceValue_eq, faceValue_eq, fterm_congr (fun j hj _ => (hF j (beside_mem hj).1).symm)]
  · have e1 : fs.map (fun f => max (out P cell f) 0 * G f) = fs.map (fun f => max (out P cell f) 0 * F f) := List.map_congr_left (fun f hf => by rw [hF f hf])
    have e2 : fs.map (fun f => max (-out P cell f) 0 * G f) = fs.map (fun f => max (-out P cell f) 0 * F f) := List.map_congr_left (fun f hf => by rw [hF f hf])
    rw [e1, e2]
    exact h.balance

/-- **C127.**  `solveTof` with multidimensional upwinding: there are values at the faces with which the times of flight it returns solve the equations of all cells; where fluid enters through the boundary they are zero.  Partial: for meshes in which no face without flux is beside a face with inflow; in all others it fails (`solveTof_fails`). -/
theorem solveTof_partial {fs : Nat → List Nat} (h : Data P fs ns) (hq : ∀ c, c < P.g.nc → Quiet P c (fs c) ns) (hb : SourcesBalanced P.g.nc P.src) {fuel : Nat} (hfuel : 2 * P.g.nc + 2 * P.g.nf + 2 ≤ fuel) :
    ∃ τ F, solveTof fuel P = .ok τ ∧ τ.length = P.g.nc ∧ (∀ c, c < P.g.nc → Solves P c (fs c) ns (τ.getD c 0) F) ∧
      ∀ f, (∀ c, c < P.g.nc → f ∈ fs c → out P c f ≤ 0) → F f = 0 := by
  obtain ⟨L, eL, hp, ho⟩ := Reorder.single_calls h.valid h.lenFlux h.cells h.acyclic [] [] hfuel
  have hnd : L.Nodup := hp.nodup_iff.2 List.nodup_range
  have hlt : ∀ c, c ∈ L ↔ c < P.g.nc := fun c => by rw [hp.mem_iff, List.mem_range]
  obtain ⟨s, es, l1, l2, p1, p2⟩ := foldlM_inv (l := L) (f := fun s c => solveSingleCell P c s) (s := (List.replicate P.g.nc 0, List.replicate P.g.nf 0))
    (fun done s => s.1.length = P.g.nc ∧ s.2.length = P.g.nf ∧ (∀ c ∈ done, Solves P c (fs c) ns (s.1.getD c 0) (fun f => s.2.getD f 0)) ∧
      ∀ f, (∀ c, c < P.g.nc → f ∈ fs c → out P c f ≤ 0) → s.2.getD f 0 = 0) ⟨by simp, by simp, by simp, fun f _ => TofDiscGal.getD_zeros _ _⟩ (by
      rintro done d rest s eq ⟨l1, l2, p1, p2⟩
      have hd : d < P.g.nc := (hlt d).1 (by rw [eq]; simp)
      obtain ⟨s', e', l1', l2', k1, k2, hs⟩ := cell_solved (h.cell d hd) (hq d hd) (h.moving d hd) (s := s) (by omega) l2
      refine ⟨s', e', by omega, l2', fun c hc => ?_, fun f hf => ?_⟩
      · rw [List.mem_append, List.mem_singleton] at hc
        by_cases q : c = d
        · subst q
          exact hs
        · have hcd : c ∈ done := hc.resolve_right q
          have hcn : c < P.g.nc := (hlt c).1 (by rw [eq]; simp [hcd])
          refine solves_congr (k1 c q) (fun f hf => k2 f (fun z => ?_)) (p1 c hcd)
          have hfl := flows h.valid (h.cell d hd) (h.cell c hcn) q z.1 hf z.2
          obtain ⟨i, hi⟩ := List.mem_iff_getElem?.1 hcd
          have hil : i < done.length := (List.getElem?_eq_some_iff.1 hi).1
          obtain ⟨j, hj, hjd⟩ := ho i c (by rw [eq, List.getElem?_append_left hil, hi]) d hfl
          rw [eq, List.getElem?_append_left (by omega)] at hjd
          rw [eq, List.nodup_append] at hnd
          exact hnd.2.2 d (List.mem_of_getElem? hjd) d (by simp) rfl
      · rw [k2 f (fun z => by linarith [hf d hd z.1, z.2]), p2 f hf])
  refine ⟨s.1, fun f => s.2.getD f 0, ?_, l1, fun c hc => p1 c ((hlt c).2 hc), p2⟩
  unfold solveTof transport
  rw [(Tof.checkSources_iff h.cells h.lenSrc).1 hb, bind_ok, eL, bind_ok, List.foldlM_map]
  change (L.foldlM (fun s c => solveSingleCell P c s) _ >>= _) = _
  rw [es]
  rfl

/-- The value at a face lies between bounds for the value of the cell and those at the faces with inflow. -/
theorem faceValue_between {adj : List Nat} (ha : 0 < adj.length) {F : Nat → Rat} {t lo hi : Rat} {f : Nat} (ht : lo ≤ t ∧ t ≤ hi) (hF : ∀ j ∈ adj, out P cell j < 0 → lo ≤ F j ∧ F j ≤ hi) :
    lo ≤ faceValue P cell adj F t f ∧ faceValue P cell adj F t f ≤ hi := by
  have key : ∀ j ∈ adj, lo ≤ weight P cell f j * F j + (1 - weight P cell f j) * t ∧ weight P cell f j * F j + (1 - weight P cell f j) * t ≤ hi := by
    intro j hj
    have w0 := weight_nonneg (P := P) (cell := cell) (f := f) (j := j)
    have w1 := weight_le (P := P) (cell := cell) (f := f) (j := j)
    by_cases q : out P cell j < 0
    · obtain ⟨a, b⟩ := hF j hj q
      constructor <;> nlinarith
    · rw [show weight P cell f j = 0 by unfold weight; rw [if_neg q]]
      constructor <;> linarith
  have hl : (0 : Rat) < adj.length := by exact_mod_cast ha
  unfold faceValue
  rw [le_div_iff₀ hl, div_le_iff₀ hl]
  clear ha hl hF
  induction adj with
  | nil => simp
  | cons j adj ih =>
    obtain ⟨a, b⟩ := key j (by simp)
    obtain ⟨c, d⟩ := ih (fun k hk => key k (by simp [hk]))
    simp only [List.map_cons, List.sum_cons, List.length_cons, Nat.cast_add, Nat.cast_one]
    constructor <;> nlinarith

/-- A fold that meets an element with an error, and no other error before. -/
theorem foldlM_bad {σ β : Type} {l : List β} {f : σ → β → M σ} {e : Err} (Inv : σ → Prop) (h : ∀ x ∈ l, ∀ t, Inv t → (∃ t', f t x = .ok t' ∧ Inv t') ∨ f t x = .error e) {y : β} (hy : y ∈ l)
    (hb : ∀ t, Inv t → f t y = .error e) {s : σ} (hs : Inv s) : l.foldlM f s = .error e := by
  induction l generalizing s with
  | nil => cases hy
  | cons x l ih =>
    rw [List.foldlM_cons]
    rcases h x (by simp) s hs with ⟨t', e', i'⟩ | z
    · rw [e', bind_ok]
      rcases List.mem_cons.1 hy with rfl | hy
      · rw [hb s hs] at e'
        cases e'
      · exact ih (fun x hx => h x (by simp [hx])) hy i'
    · rw [z]
      rfl

theorem omega_cases (x q : Rat) : (∃ w, omega x q = .ok w) ∨ omega x q = .error .nonFinite := by
  unfold omega
  split
  · split
    · exact .inr rfl
    · exact .inl ⟨_, rfl⟩
  · exact .inl ⟨_, rfl⟩

theorem addAdjacent_cases (h : CellData P cell fs ns) {F : List Rat} (hF : F.length = P.g.nf) {j : Nat} (hj : j ∈ fs) (q : Rat) (s : Rat × Rat) :
    (∃ t, addAdjacent P cell F q s j = .ok t) ∨ addAdjacent P cell F q s j = .error .nonFinite := by
  unfold addAdjacent
  rw [outflux_ok h hj, bind_ok]
  rcases omega_cases (-out P cell j) q with ⟨w, e⟩ | e
  · rw [e, bind_ok, rdG (by rw [hF]; exact (h.inside j hj).1), bind_ok]
    exact .inl ⟨_, rfl⟩
  · rw [e]
    exact .inr rfl

theorem terms_cases (h : CellData P cell fs ns) {F : List Rat} (hF : F.length = P.g.nf) {f : Nat} (hf : f ∈ fs) : (∃ x, terms P F f cell = .ok x) ∨ terms P F f cell = .error .nonFinite := by
  have hn : ((beside P fs ns f).length : Rat) ≠ 0 := by
    have := h.closed f hf
    rw [this.1]
    exact_mod_cast this.2.ne'
  unfold terms
  rw [adjacent_ok h hf, bind_ok, rdG (h.inside f hf).2.1, bind_ok, ← abs_eq_max_neg]
  by_cases q : ∃ j ∈ beside P fs ns f, ∀ s, addAdjacent P cell F |P.flux.getD f 0| s j = .error .nonFinite
  · obtain ⟨j, hj, hb⟩ := q
    rw [foldlM_bad (fun _ => True) (fun x hx t _ => by
      rcases addAdjacent_cases h hF (beside_mem hx).1 |P.flux.getD f 0| t with ⟨t', z⟩ | z
      · exact .inl ⟨t', z, trivial⟩
      · exact .inr z) hj (fun t _ => hb t) trivial]
    exact .inr rfl
  · obtain ⟨t, e, -⟩ := foldlM_inv (l := beside P fs ns f) (f := addAdjacent P cell F |P.flux.getD f 0|) (s := (0, 0)) (fun _ _ => True) trivial (by
      rintro done x rest t eL -
      have hx : x ∈ beside P fs ns f := by rw [eL]; simp
      have hx' := (beside_mem hx).1
      rcases omega_cases (-out P cell x) |P.flux.getD f 0| with ⟨w, z⟩ | z
      · unfold addAdjacent
        rw [outflux_ok h hx', bind_ok, z, bind_ok, rdG (by rw [hF]; exact (h.inside x hx').1), bind_ok]
        exact ⟨_, rfl, trivial⟩
      · refine absurd ⟨x, hx, fun s => ?_⟩ q
        unfold addAdjacent
        rw [outflux_ok h hx', bind_ok, z]
        rfl)
    rw [e, bind_ok, fdiv, if_neg hn, bind_ok, fdiv, if_neg hn, bind_ok]
    exact .inl ⟨_, rfl⟩

/-- A cell with a face without flux beside a face with inflow: the result is not a number. -/
theorem cell_fails (h : CellData P cell fs ns) (hq : ¬Quiet P cell fs ns) {s : List Rat × List Rat} (hF : s.2.length = P.g.nf) : solveSingleCell P cell s = .error .nonFinite := by
  unfold Quiet at hq
  push Not at hq
  obtain ⟨f, hf, h0, j, hj, hin⟩ := hq
  have ho : out P cell f = 0 := by
    unfold out
    rw [h0]
    split <;> simp
  have hbad : terms P s.2 f cell = .error .nonFinite := by
    unfold terms
    rw [adjacent_ok h hf, bind_ok, rdG (h.inside f hf).2.1, bind_ok, ← abs_eq_max_neg, h0, abs_zero]
    rw [foldlM_bad (fun _ => True) (fun x hx t _ => by
      rcases addAdjacent_cases h hF (beside_mem hx).1 0 t with ⟨t', z⟩ | z
      · exact .inl ⟨t', z, trivial⟩
      · exact .inr z) hj (fun t _ => by
        unfold addAdjacent
        rw [outflux_ok h (beside_mem hj).1, bind_ok, omega, if_pos rfl, if_pos (by linarith)]
        rfl) trivial]
    rfl
  unfold solveSingleCell
  rw [rdG h.src, bind_ok, entries_ok h.row, bind_ok]
  rw [foldlM_bad (e := .nonFinite) (fun _ => True) (fun x hx t _ => by
    unfold addFace
    rw [outflux_ok h hx, bind_ok]
    split
    · rw [rdG (by rw [hF]; exact (h.inside x hx).1), bind_ok]
      exact .inl ⟨_, rfl, trivial⟩
    · rcases terms_cases h hF hx with ⟨y, z⟩ | z
      · rw [z, bind_ok]
        exact .inl ⟨_, rfl, trivial⟩
      · rw [z]
        exact .inr rfl) hf (fun t _ => by
        unfold addFace
        rw [outflux_ok h hf, bind_ok, ho, if_neg (lt_irrefl _), hbad]
        rfl) trivial]
  rfl

/-- **C127**, negative: one face without flux beside a face with inflow, and `solveTof` computes what is not a number. -/
theorem solveTof_fails {fs : Nat → List Nat} (h : Data P fs ns) (hq : ∃ c, c < P.g.nc ∧ ¬Quiet P c (fs c) ns) (hb : SourcesBalanced P.g.nc P.src) {fuel : Nat} (hfuel : 2 * P.g.nc + 2 * P.g.nf + 2 ≤ fuel) :
    solveTof fuel P = .error .nonFinite := by
  obtain ⟨L, eL, hp, ho⟩ := Reorder.single_calls h.valid h.lenFlux h.cells h.acyclic [] [] hfuel
  have hlt : ∀ c, c ∈ L ↔ c < P.g.nc := fun c => by rw [hp.mem_iff, List.mem_range]
  obtain ⟨c, hc, hcq⟩ := hq
  unfold solveTof transport
  rw [(Tof.checkSources_iff h.cells h.lenSrc).1 hb, bind_ok, eL, bind_ok, List.foldlM_map]
  change (L.foldlM (fun s c => solveSingleCell P c s) _ >>= _) = _
  rw [foldlM_bad (e := .nonFinite) (fun s : List Rat × List Rat => s.1.length = P.g.nc ∧ s.2.length = P.g.nf) (fun d hd t ht => by
    have hd' := (hlt d).1 hd
    by_cases q : Quiet P d (fs d) ns
    · obtain ⟨s', e', l1, l2, -⟩ := cell_solved (h.cell d hd') q (h.moving d hd') (s := t) (by omega) ht.2
      exact .inl ⟨s', e', by omega, l2⟩
    · exact .inr (cell_fails (h.cell d hd') q ht.2)) ((hlt c).2 hc) (fun t ht => cell_fails (h.cell c hc) hcq ht.2) (by simp)]
  rfl

/-- A double sum. -/
theorem sum_swap {β γ : Type} (l : List β) (m : List γ) (g : β → γ → Rat) : (l.map (fun x => (m.map (fun y => g x y)).sum)).sum = (m.map (fun y => (l.map (fun x => g x y)).sum)).sum := by
  induction l with
  | nil => simp
  | cons x l ih =>
    simp only [List.map_cons, List.sum_cons]
    rw [ih, ← List.sum_map_add]

theorem sum_le' {β : Type} (l : List β) (g k : β → Rat) (h : ∀ x ∈ l, g x ≤ k x) : (l.map g).sum ≤ (l.map k).sum := by
  have := sum_nonneg' l (fun x => k x - g x) (fun x hx => by linarith [h x hx])
  have e : (l.map (fun x => k x - g x)).sum = (l.map k).sum - (l.map g).sum := by
    clear h this
    induction l with
    | nil => simp
    | cons x l ih => simp only [List.map_cons, List.sum_cons, ih]; ring
  linarith

theorem sum_filter' (l : List Nat) (p : Nat → Bool) (g : Nat → Rat) : ((l.filter p).map g).sum = (l.map (fun x => if p x = true then g x else 0)).sum := by
  induction l with
  | nil => simp
  | cons x l ih =>
    rw [List.filter_cons]
    by_cases q : p x = true
    · rw [if_pos q]; simp [ih, q]
    · rw [if_neg q]; simp [ih, q]

theorem shared_comm {a b : List Nat} (ha : a.Nodup) (hb : b.Nodup) : shared a b = shared b a := by
  unfold shared
  have h1 : (b.filter (fun n => n ∈ a)).Nodup := hb.filter _
  have h2 : (a.filter (fun n => n ∈ b)).Nodup := ha.filter _
  have : (b.filter (fun n => n ∈ a)).Perm (a.filter (fun n => n ∈ b)) := (List.perm_ext_iff_of_nodup h1 h2).2 (fun n => by simp [and_comm])
  exact this.length_eq

/-- What a face with outflow takes from a face beside it is at most what enters there. -/
theorem taken_le {f j : Nat} : max (out P cell f) 0 * weight P cell f j ≤ max (-out P cell j) 0 := by
  unfold weight
  by_cases q : out P cell j < 0
  · rw [if_pos q, max_eq_left (show (0 : Rat) ≤ -out P cell j by linarith)]
    have h1 : max (out P cell f) 0 ≤ |P.flux.getD f 0| := by
      unfold out
      split
      · exact max_le (le_abs_self _) (abs_nonneg _)
      · exact max_le (neg_le_abs _) (abs_nonneg _)
    have h2 := abs_nonneg (P.flux.getD f 0)
    rw [mul_div_assoc', div_le_iff₀ (by linarith)]
    nlinarith
  · rw [if_neg q, mul_zero]
    exact le_max_right _ _

/-- **C127.**  If the faces of a cell have the same number of vertices (always in two dimensions), times of flight are not negative where those that enter are not, nor the pore volume. -/
theorem nonneg (h : CellData P cell fs ns) (hm : Moving P cell fs) {n : Nat} (hn : ∀ f ∈ fs, (ns f).length = n) {t : Rat} {F : Nat → Rat} (hs : Solves P cell fs ns t F) (hpv : 0 ≤ P.pv.getD cell 0)
    (hF : ∀ f ∈ fs, out P cell f < 0 → 0 ≤ F f) : 0 ≤ t ∧ ∀ f ∈ fs, 0 < out P cell f → 0 ≤ F f := by
  have main : (fs.map (fun f => max (out P cell f) 0 * fterm P cell (beside P fs ns f) F f)).sum ≤ (fs.map (fun j => max (-out P cell j) 0 * F j)).sum := by
    have e1 : fs.map (fun f => max (out P cell f) 0 * fterm P cell (beside P fs ns f) F f) =
        fs.map (fun f => (fs.map (fun j => if (decide (j ≠ f ∧ shared (ns f) (ns j) + 1 = P.dim)) = true then max (out P cell f) 0 * (weight P cell f j * F j) / n else 0)).sum) := List.map_congr_left (fun f hf => by
      unfold fterm
      rw [(h.closed f hf).1, hn f hf, ← mul_div_assoc, ← List.sum_map_mul_left, ← sum_filter']
      change _ = ((beside P fs ns f).map (fun j => max (out P cell f) 0 * (weight P cell f j * F j) / n)).sum
      simp only [div_eq_mul_inv]
      rw [List.sum_map_mul_right])
    rw [e1, sum_swap]
    refine sum_le' _ _ _ (fun j hj => ?_)
    have hnp : (0 : Rat) < n := by
      have := (h.closed j hj).2
      rw [hn j hj] at this
      exact_mod_cast this
    by_cases q : out P cell j < 0
    · have hFj := hF j hj q
      have e2 : max (-out P cell j) 0 * F j = (fs.map (fun f => if (decide (f ≠ j ∧ shared (ns j) (ns f) + 1 = P.dim)) = true then max (-out P cell j) 0 * F j / n else 0)).sum := by
        rw [← sum_filter']
        change _ = ((beside P fs ns j).map (fun _ => max (-out P cell j) 0 * F j / n)).sum
        rw [List.map_const', List.sum_replicate, (h.closed j hj).1, hn j hj, nsmul_eq_mul, mul_div_cancel₀ _ hnp.ne']
      rw [e2]
      refine sum_le' _ _ _ (fun f hf => ?_)
      rw [shared_comm (h.nodes f hf).2 (h.nodes j hj).2]
      by_cases z : j ≠ f ∧ shared (ns j) (ns f) + 1 = P.dim
      · rw [if_pos (decide_eq_true z), if_pos (decide_eq_true ⟨z.1.symm, z.2⟩), ← mul_assoc]
        exact div_le_div_of_nonneg_right (mul_le_mul_of_nonneg_right taken_le hFj) hnp.le
      · rw [if_neg (fun w => z (of_decide_eq_true w)), if_neg (fun w => z ⟨(of_decide_eq_true w).1.symm, (of_decide_eq_true w).2⟩)]
    · have e3 : (fs.map (fun f => if (decide (j ≠ f ∧ shared (ns f) (ns j) + 1 = P.dim)) = true then max (out P cell f) 0 * (weight P cell f j * F j) / n else 0)) = fs.map (fun _ => (0 : Rat)) :=
        List.map_congr_left (fun f _ => by
          unfold weight
          rw [if_neg q]
          simp)
      rw [e3, max_eq_right (by linarith)]
      simp
  have e4 : (fs.map (fun f => max (out P cell f) 0 * F f)) =
      fs.map (fun f => max (out P cell f) 0 * fterm P cell (beside P fs ns f) F f + max (out P cell f) 0 * cterm P cell (beside P fs ns f) f * t) := List.map_congr_left (fun f hf => by
    by_cases q : 0 < out P cell f
    · rw [hs.faces f hf q, faceValue_eq]
      ring
    · rw [max_eq_right (by linarith)]
      ring)
  have hb := hs.balance
  rw [e4, List.sum_map_add, List.sum_map_mul_right] at hb
  have hpos := factor_pos h hm
  have ht : 0 ≤ t := by
    by_contra z
    push Not at z
    nlinarith
  refine ⟨ht, fun f hf ho => ?_⟩
  rw [hs.faces f hf ho, faceValue_eq]
  refine add_nonneg (div_nonneg (sum_nonneg' _ _ (fun j hj => ?_)) (by positivity)) (mul_nonneg (cterm_nonneg _ _) ht)
  by_cases q : out P cell j < 0
  · exact mul_nonneg weight_nonneg (hF j (beside_mem hj).1 q)
  · unfold weight
    rw [if_neg q, zero_mul]

/-- The equation for the value of the cell. -/
theorem cell_equation {t : Rat} {F : Nat → Rat} (hs : Solves P cell fs ns t F) :
    (max (-P.src.getD cell 0) 0 + (fs.map (fun f => max (out P cell f) 0 * cterm P cell (beside P fs ns f) f)).sum) * t =
      P.pv.getD cell 0 + (fs.map (fun f => max (-out P cell f) 0 * F f)).sum - (fs.map (fun f => max (out P cell f) 0 * fterm P cell (beside P fs ns f) F f)).sum := by
  have e4 : (fs.map (fun f => max (out P cell f) 0 * F f)) =
      fs.map (fun f => max (out P cell f) 0 * fterm P cell (beside P fs ns f) F f + max (out P cell f) 0 * cterm P cell (beside P fs ns f) f * t) := List.map_congr_left (fun f hf => by
    by_cases q : 0 < out P cell f
    · rw [hs.faces f hf q, faceValue_eq]
      ring
    · rw [max_eq_right (by linarith)]
      ring)
  have hb := hs.balance
  rw [e4, List.sum_map_add, List.sum_map_mul_right] at hb
  linarith

/-- The equations of a cell determine its value and those at its faces with outflow. -/
theorem cell_unique (h : CellData P cell fs ns) (hm : Moving P cell fs) {t u : Rat} {F G : Nat → Rat} (hs : Solves P cell fs ns t F) (hu : Solves P cell fs ns u G)
    (hFG : ∀ f ∈ fs, out P cell f < 0 → F f = G f) : t = u ∧ ∀ f ∈ fs, 0 < out P cell f → F f = G f := by
  have e1 : (fs.map (fun f => max (-out P cell f) 0 * F f)) = fs.map (fun f => max (-out P cell f) 0 * G f) := List.map_congr_left (fun f hf => by
    by_cases q : out P cell f < 0
    · rw [hFG f hf q]
    · rw [max_eq_right (by linarith), zero_mul, zero_mul])
  have e2 : ∀ f, fterm P cell (beside P fs ns f) F f = fterm P cell (beside P fs ns f) G f := fun f => fterm_congr (fun j hj q => hFG j (beside_mem hj).1 q)
  have ht : t = u := by
    have h1 := cell_equation hs
    have h2 := cell_equation hu
    simp only [e1, e2] at h1
    rw [← h2] at h1
    exact mul_left_cancel₀ (factor_pos h hm).ne' h1
  refine ⟨ht, fun f hf ho => ?_⟩
  rw [hs.faces f hf ho, hu.faces f hf ho, faceValue_eq, faceValue_eq, e2, ht]

/-- Cell after cell along the flow. -/
theorem along_flow {fs : Nat → List Nat} (h : Data P fs ns) {Q : Nat → Prop} (step : ∀ c, c < P.g.nc → (∀ u, u < P.g.nc → P.g.FlowsTo P.flux u c → Q u) → Q c) : ∀ c, c < P.g.nc → Q c := by
  obtain ⟨L, -, hp, ho⟩ := Reorder.single_calls h.valid h.lenFlux h.cells h.acyclic [] [] (le_refl _)
  obtain ⟨rank, hr⟩ := Reorder.exists_rank (hp.nodup_iff.2 List.nodup_range) ho
  exact Tof.flow_induction (rank := rank) (fun u d hd hu => hr u d (by rw [hp.mem_iff, List.mem_range]; exact hd) hu) step

/-- **C127.**  The equations of all cells have one solution only. -/
theorem unique {fs : Nat → List Nat} (h : Data P fs ns) {τ σ F G : Nat → Rat} (h1 : ∀ c, c < P.g.nc → Solves P c (fs c) ns (τ c) F) (h2 : ∀ c, c < P.g.nc → Solves P c (fs c) ns (σ c) G)
    (h3 : ∀ f, (∀ c, c < P.g.nc → f ∈ fs c → out P c f ≤ 0) → F f = G f) : ∀ c, c < P.g.nc → τ c = σ c := by
  have key := along_flow h (Q := fun c => τ c = σ c ∧ ∀ f ∈ fs c, 0 < out P c f → F f = G f) (fun c hc ih => by
    refine cell_unique (h.cell c hc) (h.moving c hc) (h1 c hc) (h2 c hc) (fun f hf q => ?_)
    by_cases z : ∃ d, d < P.g.nc ∧ f ∈ fs d ∧ 0 < out P d f
    · obtain ⟨d, hd, hfd, hod⟩ := z
      have hne : c ≠ d := by
        rintro rfl
        linarith
      exact (ih d hd (flows h.valid (h.cell d hd) (h.cell c hc) hne hfd hf hod)).2 f hfd hod
    · exact h3 f (fun d hd hfd => not_lt.1 (fun w => z ⟨d, hd, hfd, w⟩)))
  exact fun c hc => (key c hc).1

/-- **C127.**  If the faces of each cell have the same number of vertices and pore volumes are not negative, `solveTof` returns no negative time of flight. -/
theorem solveTof_nonneg_partial {fs : Nat → List Nat} (h : Data P fs ns) (hq : ∀ c, c < P.g.nc → Quiet P c (fs c) ns) (hb : SourcesBalanced P.g.nc P.src) {fuel : Nat} (hfuel : 2 * P.g.nc + 2 * P.g.nf + 2 ≤ fuel)
    {n : Nat → Nat} (hn : ∀ c, c < P.g.nc → ∀ f ∈ fs c, (ns f).length = n c) (hpv : ∀ c, c < P.g.nc → 0 ≤ P.pv.getD c 0) : ∃ τ, solveTof fuel P = .ok τ ∧ ∀ c, c < P.g.nc → 0 ≤ τ.getD c 0 := by
  obtain ⟨τ, F, e, -, h1, h3⟩ := solveTof_partial h hq hb hfuel
  refine ⟨τ, e, ?_⟩
  have key := along_flow h (Q := fun c => 0 ≤ τ.getD c 0 ∧ ∀ f ∈ fs c, 0 < out P c f → 0 ≤ F f) (fun c hc ih => by
    refine nonneg (h.cell c hc) (h.moving c hc) (hn c hc) (h1 c hc) (hpv c hc) (fun f hf q => ?_)
    by_cases z : ∃ d, d < P.g.nc ∧ f ∈ fs d ∧ 0 < out P d f
    · obtain ⟨d, hd, hfd, hod⟩ := z
      have hne : c ≠ d := by
        rintro rfl
        linarith
      exact (ih d hd (flows h.valid (h.cell d hd) (h.cell c hc) hne hfd hf hod)).2 f hfd hod
    · exact (h3 f (fun d hd hfd => not_lt.1 (fun w => z ⟨d, hd, hfd, w⟩))).ge)
  exact fun c hc => (key c hc).1

/-- Sources that do not nearly add up to zero are reported by an exception. -/
theorem sources_thrown (hc : 0 < P.g.nc) (hl : P.g.nc ≤ P.src.length) (hb : ¬SourcesBalanced P.g.nc P.src) (fuel : Nat) : solveTof fuel P = .error .thrown := by
  unfold solveTof
  rw [(Tof.checkSources_iff hc hl).2 hb]
  rfl

/-! ## Two squares -/

/-- Two unit squares side by side with the given fluxes. -/
def squares (flux : List Rat) : Problem where
  g := { nc := 2, nf := 7, faceCells := [-1, 0, 0, 1, 1, -1, -1, 0, 0, -1, -1, 1, 1, -1], cellFacepos := [0, 4, 8], cellFaces := [0, 1, 3, 4, 1, 2, 5, 6] }
  dim := 2
  nodepos := [0, 2, 4, 6, 8, 10, 12, 14]
  facenodes := [0, 3, 1, 4, 2, 5, 0, 1, 3, 4, 1, 2, 4, 5]
  flux := flux
  pv := [1, 1]
  src := [0, 0]

def squareFaces (c : Nat) : List Nat := if c = 0 then [0, 1, 3, 4] else [1, 2, 5, 6]

def squareNodes (f : Nat) : List Nat := ([[0, 3], [1, 4], [2, 5], [0, 1], [3, 4], [1, 2], [4, 5]] : List (List Nat)).getD f []

theorem squares_acyclic {flux : List Rat} (hl : flux.length = 7) (h : 0 ≤ flux.getD 1 0) : NoCirculation (squares flux).g flux := by
  have key : ∀ u d, (squares flux).g.FlowsTo flux u d → u < d := by
    rintro u d ⟨f, q, hq, hs⟩
    have hf : f < 7 := hl ▸ (List.getElem?_eq_some_iff.1 hq).1
    have hq1 : f = 1 → 0 ≤ q := by
      rintro rfl
      rw [List.getD_eq_getElem?_getD, hq] at h
      exact h
    interval_cases f
    all_goals
      rcases hs with ⟨hs, h1, h2⟩ | ⟨hs, h1, h2⟩
      all_goals first
        | (exfalso; linarith [hq1 rfl])
        | (simp [squares] at h1 h2; done)
        | (simp [squares] at h1 h2; omega)
  have lt : ∀ u d, Relation.TransGen ((squares flux).g.FlowsTo flux) u d → u < d := by
    intro u d h
    induction h with
    | single h => exact key _ _ h
    | tail _ h ih => exact Nat.lt_trans ih (key _ _ h)
  exact fun c h => absurd (lt c c h) (by omega)

theorem squares_cell {flux : List Rat} (hl : flux.length = 7) : ∀ c, c < 2 → CellData (squares flux) c (squareFaces c) squareNodes := by
  intro c hc
  have hc' : c = 0 ∨ c = 1 := by omega
  have row : ∀ f, f < 7 → RowOf (squares flux).nodepos (squares flux).facenodes f (squareNodes f) ∧ (squareNodes f).Nodup := by
    intro f hf
    interval_cases f
    exacts [⟨⟨0, 2, rfl, rfl, rfl⟩, by decide⟩, ⟨⟨2, 4, rfl, rfl, rfl⟩, by decide⟩, ⟨⟨4, 6, rfl, rfl, rfl⟩, by decide⟩, ⟨⟨6, 8, rfl, rfl, rfl⟩, by decide⟩, ⟨⟨8, 10, rfl, rfl, rfl⟩, by decide⟩,
      ⟨⟨10, 12, rfl, rfl, rfl⟩, by decide⟩, ⟨⟨12, 14, rfl, rfl, rfl⟩, by decide⟩]
  have hlt : ∀ f ∈ squareFaces c, f < 7 := by rcases hc' with rfl | rfl <;> decide
  refine ⟨?_, fun f hf => row f (hlt f hf), fun f hf => ⟨hlt f hf, hl.symm ▸ hlt f hf, ?_⟩, ?_, ?_, fun _ => ?_, ?_, ?_⟩
  · rcases hc' with rfl | rfl
    exacts [⟨0, 4, rfl, rfl, rfl⟩, ⟨4, 8, rfl, rfl, rfl⟩]
  · have := hlt f hf
    show 2 * f + 1 < 14
    omega
  · exact hc
  · exact hc
  · rcases hc' with rfl | rfl <;> decide
  · change ∀ f ∈ squareFaces c, ∀ j ∈ squareFaces c, j ≠ f → shared (squareNodes f) (squareNodes j) + 1 = 2 ∨ shared (squareNodes f) (squareNodes j) = 0
    rcases hc' with rfl | rfl <;> decide
  · change ∀ f ∈ squareFaces c, ((squareFaces c).filter (fun j => j ≠ f ∧ shared (squareNodes f) (squareNodes j) + 1 = 2)).length = (squareNodes f).length ∧ 0 < (squareNodes f).length
    rcases hc' with rfl | rfl <;> decide

theorem squares_data {flux : List Rat} (hl : flux.length = 7) (h1 : 0 < flux.getD 1 0) (h2 : 0 < flux.getD 2 0) : Data (squares flux) squareFaces squareNodes := by
  refine ⟨GridTopo.ValidB.valid (show GridTopo.ValidB (squares []).g by decide +kernel), Nat.zero_lt_two, hl, Nat.le_refl 2, squares_acyclic hl h1.le, squares_cell hl, fun c hc => .inr ?_⟩
  have hc' : c = 0 ∨ c = 1 := by
    have : (squares flux).g.nc = 2 := rfl
    omega
  rcases hc' with rfl | rfl
  · exact ⟨1, by decide, h1⟩
  · exact ⟨2, by decide, h2⟩

theorem squares_balanced (flux : List Rat) : SourcesBalanced (squares flux).g.nc (squares flux).src := ⟨0, by simp [squares], by simp [squares], by simp [squares], by simp [squares]⟩

example : solveTof 100 { squares [2, 2, 2, 1, 1, 1, 1] with src := [1, 0] } = .error .thrown := by decide +kernel

/-- Flow to the upper right: the hypotheses are met. -/
example : Data (squares [2, 2, 2, 1, 1, 1, 1]) squareFaces squareNodes ∧ (∀ c, c < 2 → Quiet (squares [2, 2, 2, 1, 1, 1, 1]) c (squareFaces c) squareNodes) ∧
    SourcesBalanced 2 [0, 0] ∧ solveTof 100 (squares [2, 2, 2, 1, 1, 1, 1]) = .ok [3 / 7, 67 / 98] := by
  refine ⟨squares_data rfl (by decide +kernel) (by decide +kernel), ?_, squares_balanced [], by decide +kernel⟩
  intro c hc f hf h0
  have hf' : f < 7 := by
    have : c = 0 ∨ c = 1 := by omega
    have key : ∀ f ∈ squareFaces c, f < 7 := by rcases this with rfl | rfl <;> decide
    exact key f hf
  exfalso
  revert h0
  interval_cases f <;> decide +kernel

/-- **C127**, negative: flow to the right between walls, as through a channel: the result is not a number. -/
theorem channel_fails : Data (squares [1, 1, 1, 0, 0, 0, 0]) squareFaces squareNodes ∧ solveTof 100 (squares [1, 1, 1, 0, 0, 0, 0]) = .error .nonFinite := by
  have hd : Data (squares [1, 1, 1, 0, 0, 0, 0]) squareFaces squareNodes := squares_data rfl (by decide +kernel) (by decide +kernel)
  refine ⟨hd, solveTof_fails hd ⟨0, by decide, fun h => ?_⟩ (squares_balanced _) (by decide)⟩
  have := h 3 (by decide) (by decide +kernel) 0 (by decide)
  revert this
  decide +kernel

end Opm.TofMultidim
