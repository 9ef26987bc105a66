import Verif.Props.Wachspress
/-!
# Velocities from fluxes

Properties of `VelocityInterpolationConstant` and `VelocityInterpolationECVI`.
-/

namespace Opm.Wachspress
open Opm

variable {g : Grid} {m : Mesh}

/-- The velocity stored for a corner of cell `c` yields the given fluxes through the faces that meet there. -/
def Fits (g : Grid) (m : Mesh) (flux cv : List Rat) (c : Nat) (k : Corner) : Prop :=
  ∀ f ∈ m.at c k.vertex, through g f (fun d => cv.getD (g.dim * k.id + d) 0) = flux.getD f 0

theorem id_lt {S : Static} {c : Nat} {row : List Corner} (hr : S.corners[c]? = some row) :
    (S.corners.take (c + 1)).flatten.length = (S.corners.take c).flatten.length + row.length ∧ (S.corners.take (c + 1)).flatten.length ≤ S.corners.flatten.length := by
  obtain ⟨hl, rfl⟩ := List.getElem?_eq_some_iff.1 hr
  constructor
  · rw [List.take_succ_eq_append_getElem hl, List.flatten_append, List.length_append]; simp
  · conv_rhs => rw [← List.take_append_drop (c + 1) S.corners]
    rw [List.flatten_append, List.length_append]
    omega

theorem cornerFaces_ok (h : GridOk g m) {S : Static} (hS : Made g m S) {flux : List Rat} {c : Nat} (hc : c < g.nc) (hf : ∀ f ∈ m.faces c, f < flux.length)
    (hs : Simple g m) {row : List Corner} (hr : S.corners[c]? = some row) {k : Corner} (hk : k ∈ row) :
    cornerFaces g flux S k.id = .ok (m.at c k.vertex, (m.at c k.vertex).map (fun f => flux.getD f 0)) := by
  have hl := hs c k.vertex hc ((hS.vertex c row hr _).1 (List.mem_map_of_mem hk))
  have ha := hS.at' c row k hr hk
  obtain ⟨t, e, rfl⟩ := loop_inv (n := g.dim) (f := fun j (r : List Nat × List Rat) => do
    let f ← rd S.adj (g.dim * k.id + j)
    let _ ← normal g f
    let q ← rd flux f
    .ok (r.1 ++ [f], r.2 ++ [q])) (s := ([], []))
    (P := fun n t => t = ((m.at c k.vertex).take n, ((m.at c k.vertex).take n).map (fun f => flux.getD f 0))) (by simp) (by
      rintro j t hj rfl
      have hj' : j < (m.at c k.vertex).length := by omega
      have hget : S.adj[g.dim * k.id + j]? = some (m.at c k.vertex)[j] := by
        rw [← List.getElem?_drop, ← List.getElem?_take_of_lt hj, ha, List.getElem?_eq_getElem hj']
      have hmem : (m.at c k.vertex)[j] ∈ m.faces c := (List.mem_filter.1 (List.getElem_mem hj')).1
      rw [rd_of_getElem? hget, bind_ok, normal_ok (h.normals c _ hc hmem), bind_ok, rdD (hf _ hmem), bind_ok]
      exact ⟨_, rfl, by rw [List.take_succ_eq_append_getElem hj', List.map_append]; rfl⟩)
  rw [List.take_of_length_le (by omega)] at e
  exact e

theorem regular_normals (h : GridOk g m) (hs : Simple g m) (hi : Independent g m) {c v : Nat} (hc : c < g.nc) (hv : m.Vertex c v) :
    CfsTpfa.Regular g.dim (normalMatrix g (m.at c v)) ∧ ∀ (u : Nat → Rat) (i f : Nat), (m.at c v)[i]? = some f →
      ∑ j ∈ Finset.range g.dim, normalMatrix g (m.at c v) (j * g.dim + i) * u j = through g f u := by
  have hl := hs c v hc hv
  have key : ∀ (u : Nat → Rat) (i f : Nat), (m.at c v)[i]? = some f → ∑ j ∈ Finset.range g.dim, normalMatrix g (m.at c v) (j * g.dim + i) * u j = through g f u := by
    intro u i f hif
    have hlt : i < g.dim := by rw [← hl]; exact (List.getElem?_eq_some_iff.1 hif).1
    refine Finset.sum_congr rfl (fun j hj => ?_)
    have e1 : (j * g.dim + i) % g.dim = i := by rw [Nat.mul_comm, Nat.mul_add_mod, Nat.mod_eq_of_lt hlt]
    have e2 : (j * g.dim + i) / g.dim = j := by rw [Nat.mul_comm, Nat.mul_add_div (by omega), Nat.div_eq_of_lt hlt, Nat.add_zero]
    unfold normalMatrix nrm
    rw [e1, e2, show (m.at c v).getD i 0 = f by rw [List.getD_eq_getElem?_getD, hif]; rfl]
  refine ⟨fun u hu d hd => hi c v hc hv u (fun f hf => ?_) d hd, key⟩
  obtain ⟨i, hif⟩ := List.getElem?_of_mem hf
  rw [← key u i f hif]
  exact hu i (by rw [← hl]; exact (List.getElem?_eq_some_iff.1 hif).1)

theorem cornerVelocity_ok (h : GridOk g m) (hs : Simple g m) (hi : Independent g m) {lu : CfsTpfa.Lapack} (hlu : CfsTpfa.LapackOk lu) {S : Static} (hS : Made g m S) {flux : List Rat}
    {c : Nat} (hc : c < g.nc) (hf : ∀ f ∈ m.faces c, f < flux.length) {row : List Corner} (hr : S.corners[c]? = some row) {k : Corner} (hk : k ∈ row)
    {cv : List Rat} (hl : g.dim * (k.id + 1) ≤ cv.length) :
    ∃ cv', cornerVelocity lu g flux S k cv = .ok cv' ∧ cv'.length = cv.length ∧ Fits g m flux cv' c k ∧ ∀ j, j < g.dim * k.id → cv'.getD j 0 = cv.getD j 0 := by
  have hv := (hS.vertex c row hr _).1 (List.mem_map_of_mem hk)
  have hal := hs c k.vertex hc hv
  obtain ⟨hreg, hmat⟩ := regular_normals h hs hi hc hv
  obtain ⟨s, es, hsol⟩ := hlu _ _ hreg
  unfold cornerVelocity
  rw [cornerFaces_ok h hS hc hf hs hr hk, bind_ok]
  dsimp only
  rw [es]
  dsimp only
  rw [Nat.mul_succ] at hl
  obtain ⟨b, e, q1, q2, q3⟩ := loop_writes (n := g.dim) (s := cv) (f := fun d cv => wr cv (g.dim * k.id + d) (s (fun j => ((m.at c k.vertex).map (fun f => flux.getD f 0)).getD j 0) d))
    (fun d => g.dim * k.id + d) (fun d => s (fun j => ((m.at c k.vertex).map (fun f => flux.getD f 0)).getD j 0) d) (fun d hd => by omega) (fun i j _ _ e => by omega) (fun _ _ _ _ _ => rfl)
  refine ⟨b, e, q1, ?_, fun j hj => q3 j (fun i hi => by omega)⟩
  intro f hf'
  obtain ⟨i, hif⟩ := List.getElem?_of_mem hf'
  have hlt : i < g.dim := by rw [← hal]; exact (List.getElem?_eq_some_iff.1 hif).1
  have := hsol (fun j => ((m.at c k.vertex).map (fun f => flux.getD f 0)).getD j 0) i hlt
  rw [hmat _ i f hif] at this
  rw [List.getD_eq_getElem?_getD, List.getElem?_map, hif] at this
  refine Eq.trans ?_ this
  unfold through
  exact Finset.sum_congr rfl (fun d hd => by dsimp only; rw [q2 d (Finset.mem_range.1 hd)])

/-- After `setupFluxes` each corner has a velocity that yields the fluxes through its faces. -/
theorem setupFluxes_ok (h : GridOk g m) (hs : Simple g m) (hi : Independent g m) {lu : CfsTpfa.Lapack} (hlu : CfsTpfa.LapackOk lu) {S : Static} (hS : Made g m S) {flux cv : List Rat}
    (hf : ∀ c f, c < g.nc → f ∈ m.faces c → f < flux.length) :
    ∃ cv', setupFluxes lu g S flux cv = .ok cv' ∧ cv'.length = g.dim * S.corners.flatten.length ∧
      ∀ c row k, S.corners[c]? = some row → k ∈ row → Fits g m flux cv' c k := by
  have fits : ∀ {cv cv' : List Rat} {c : Nat} {k : Corner} {n : Nat}, k.id < n → (∀ j, j < g.dim * n → cv'.getD j 0 = cv.getD j 0) → Fits g m flux cv c k → Fits g m flux cv' c k := by
    intro cv cv' c k n hn he hfit f hf
    rw [← hfit f hf]
    unfold through
    refine Finset.sum_congr rfl (fun d hd => ?_)
    have hd := Finset.mem_range.1 hd
    have hm : g.dim * (k.id + 1) ≤ g.dim * n := Nat.mul_le_mul_left _ hn
    rw [Nat.mul_succ] at hm
    dsimp only
    rw [he (g.dim * k.id + d) (by omega)]
  obtain ⟨cv', e, h1, h2⟩ := loop_inv (n := g.nc) (f := fun c cv => do
      let row ← rd S.corners c
      row.foldlM (fun cv k => cornerVelocity lu g flux S k cv) cv)
    (s := cv.take (g.dim * S.corners.flatten.length) ++ List.replicate (g.dim * S.corners.flatten.length - cv.length) 0)
    (P := fun n (t : List Rat) => t.length = g.dim * S.corners.flatten.length ∧
      ∀ c row k, S.corners[c]? = some row → k ∈ row → k.id < (S.corners.take n).flatten.length → Fits g m flux t c k)
    ⟨by simp; omega, by simp⟩ (by
    rintro c t hc ⟨h1, h2⟩
    have hlc : c < S.corners.length := by rw [hS.cells]; exact hc
    have hr := List.getElem?_eq_getElem hlc
    obtain ⟨l1, l2⟩ := id_lt hr
    rw [rd_ok hlc, bind_ok]
    obtain ⟨t', e, q1, q2⟩ := foldlM_inv (l := S.corners[c]) (f := fun cv k => cornerVelocity lu g flux S k cv) (s := t)
      (P := fun done (t : List Rat) => t.length = g.dim * S.corners.flatten.length ∧
        ∀ c' row k, S.corners[c']? = some row → k ∈ row → k.id < (S.corners.take c).flatten.length + done.length → Fits g m flux t c' k)
      ⟨h1, by simpa using h2⟩ (by
      rintro done k rest t hl ⟨h1, h2⟩
      have hk : S.corners[c][done.length]? = some k := by rw [hl]; simp
      have hid := hS.id c _ _ _ hr hk
      have hdl : done.length < S.corners[c].length := (List.getElem?_eq_some_iff.1 hk).1
      have hm : g.dim * (k.id + 1) ≤ g.dim * S.corners.flatten.length := Nat.mul_le_mul_left _ (by omega)
      obtain ⟨t', e, q1, q2, q3⟩ := cornerVelocity_ok h hs hi hlu hS hc (fun f hf' => hf c f hc hf') hr (List.mem_of_getElem? hk) (cv := t) (by rw [h1]; exact hm)
      refine ⟨t', e, by rw [q1, h1], ?_⟩
      intro c' row' k' hr' hk' hlt
      simp only [List.length_append, List.length_cons, List.length_nil] at hlt
      rcases Nat.lt_or_ge k'.id k.id with hlt' | hge
      · exact fits hlt' q3 (h2 c' row' k' hr' hk' (by omega))
      · have hee : k'.id = k.id := by omega
        obtain ⟨i', hi'⟩ := List.getElem?_of_mem hk'
        have hid' := hS.id c' _ _ _ hr' hi'
        have hil' : i' < row'.length := (List.getElem?_eq_some_iff.1 hi').1
        obtain ⟨l1', l2'⟩ := id_lt hr'
        have mono : ∀ a b, a ≤ b → (S.corners.take a).flatten.length ≤ (S.corners.take b).flatten.length := by
          intro a b hab
          rw [show S.corners.take a = (S.corners.take b).take a by rw [List.take_take, Nat.min_eq_left hab]]
          conv_rhs => rw [← List.take_append_drop a (S.corners.take b)]
          rw [List.flatten_append, List.length_append]
          omega
        have hcc : c' = c := by
          rcases Nat.lt_trichotomy c' c with hlt2 | heq | hgt
          · have := mono (c' + 1) c hlt2
            omega
          · exact heq
          · have := mono (c + 1) c' hgt
            omega
        subst hcc
        rw [hr] at hr'
        obtain rfl := Option.some.inj hr'
        have : i' = done.length := by omega
        subst this
        rw [hk] at hi'
        obtain rfl := Option.some.inj hi'
        exact q2)
    exact ⟨t', e, q1, fun c' row k a b hlt => q2 c' row k a b (by omega)⟩)
  refine ⟨cv', e, h1, fun c row k hr hk => h2 c row k hr hk ?_⟩
  obtain ⟨i, hik⟩ := List.getElem?_of_mem hk
  have hid := hS.id c _ _ _ hr hik
  have hlt := (List.getElem?_eq_some_iff.1 hik).1
  obtain ⟨l1, l2⟩ := id_lt hr
  rw [List.take_of_length_le (by rw [hS.cells])]
  omega

theorem through_sum {f n : Nat} {b : Nat → Rat} {u : Nat → Nat → Rat} : through g f (fun d => ∑ i ∈ Finset.range n, u i d * b i) = ∑ i ∈ Finset.range n, b i * through g f (u i) := by
  unfold through
  simp only [Finset.mul_sum]
  rw [Finset.sum_comm]
  exact Finset.sum_congr rfl (fun i _ => Finset.sum_congr rfl (fun d _ => by ring))

theorem interpolate_eq (h : GridOk g m) (hs : Simple g m) (hi : Independent g m) {S : Static} (hS : Made g m S) {cv : List Rat} (hcv : cv.length = g.dim * S.corners.flatten.length) {c : Nat} (hc : c < g.nc)
    {row : List Corner} (hr : S.corners[c]? = some row) {x v bary : List Rat} (hxl : g.dim ≤ x.length) (hvl : g.dim ≤ v.length) (hx : Within g m c (fun d => x.getD d 0)) :
    ∃ w b, interpolate g S cv bary c x v = .ok (w, b) ∧ w.length = v.length ∧ (∀ d, g.dim ≤ d → w.getD d 0 = v.getD d 0) ∧
      Bary g m c (fun d => x.getD d 0) (fun i => (row.map (·.vertex)).getD i 0) row.length (fun i => b.getD i 0) ∧
      ∀ d, d < g.dim → w.getD d 0 = ∑ i ∈ Finset.range row.length, cv.getD (g.dim * (row.getD i ⟨0, 0, 0⟩).id + d) 0 * b.getD i 0 := by
  have hrl : (bary.take row.length ++ List.replicate (row.length - bary.length) (0 : Rat)).length = row.length := by simp; omega
  obtain ⟨b, eb, b1, -, b2⟩ := cartToBary_bary h hs hi hS hc hr hxl (le_of_eq hrl.symm) hx
  rw [hrl] at b1
  obtain ⟨l1, l2⟩ := id_lt hr
  unfold interpolate
  rw [rd_of_getElem? hr, bind_ok, eb, bind_ok]
  obtain ⟨v0, e0, p1, p2, p3⟩ := loop_writes (n := g.dim) (s := v) (f := fun d v => wr v d 0) (fun d => d) (fun _ => 0) (fun d hd => by omega) (fun i j _ _ e => e) (fun _ _ _ _ _ => rfl)
  rw [e0, bind_ok]
  obtain ⟨w, ew, q1, q2, q3⟩ := loop_inv (n := row.length) (f := fun i v => do
      let k ← rd row i
      loop g.dim (fun d v => do
        let y ← rd cv (g.dim * k.id + d)
        let z ← rd b i
        addAt v d (y * z)) v) (s := v0)
    (P := fun n (t : List Rat) => t.length = v.length ∧ (∀ d, g.dim ≤ d → t.getD d 0 = v.getD d 0) ∧
      ∀ d, d < g.dim → t.getD d 0 = ∑ i ∈ Finset.range n, cv.getD (g.dim * (row.getD i ⟨0, 0, 0⟩).id + d) 0 * b.getD i 0)
    ⟨p1, fun d hd => p3 d (fun i hi => by omega), fun d hd => by rw [p2 d hd]; simp⟩ (by
    rintro i t hi ⟨q1, q2, q3⟩
    obtain ⟨hg, hmem⟩ := getD_mem hi
    have hid := hS.id c row i _ hr hg
    rw [rd_of_getElem? hg, bind_ok]
    have hm : g.dim * ((row.getD i ⟨0, 0, 0⟩).id + 1) ≤ g.dim * S.corners.flatten.length := Nat.mul_le_mul_left _ (by omega)
    rw [Nat.mul_succ] at hm
    obtain ⟨t', e, r1, r2⟩ := MiscUtil.loop_addAt (n := g.dim) (s := t) (f := fun d v => do
        let y ← rd cv (g.dim * (row.getD i ⟨0, 0, 0⟩).id + d)
        let z ← rd b i
        addAt v d (y * z)) (fun d => d) (fun d => cv.getD (g.dim * (row.getD i ⟨0, 0, 0⟩).id + d) 0 * b.getD i 0) (by
      intro d t' hd _
      rw [rdD (by omega), bind_ok, rdD (by omega), bind_ok]) (fun d hd => by omega)
    refine ⟨t', e, by rw [r1, q1], ?_, ?_⟩
    · intro d hd
      rw [r2 d, Finset.sum_eq_zero, add_zero, q2 d hd]
      intro j hj
      rw [if_neg (by have := Finset.mem_range.1 hj; omega)]
    · intro d hd
      rw [r2 d, Finset.sum_ite_eq, if_pos (Finset.mem_range.2 hd), q3 d hd, Finset.sum_range_succ])
  rw [ew, bind_ok]
  exact ⟨w, b, rfl, q1, q2, b2, q3⟩

/-- The velocities of `VelocityInterpolationECVI`.  An object can be made, the fluxes set, and the velocity at each point of each cell asked for, whatever was computed before.  On a face of the cell
the velocity yields the flux of the face; so its normal component is the same seen from both sides.  If the fluxes are those of a constant velocity, then this is found everywhere in the cell. -/
theorem ecvi_velocity (h : GridOk g m) (hs : Simple g m) (hi : Independent g m) {lu : CfsTpfa.Lapack} (hlu : CfsTpfa.LapackOk lu) {flux cv : List Rat}
    (hf : ∀ c f, c < g.nc → f ∈ m.faces c → f < flux.length) :
    ∃ S cv', construct g = .ok S ∧ setupFluxes lu g S flux cv = .ok cv' ∧
      ∀ c (x v bary : List Rat), c < g.nc → g.dim ≤ x.length → g.dim ≤ v.length → Within g m c (fun d => x.getD d 0) →
        ∃ w b, interpolate g S cv' bary c x v = .ok (w, b) ∧ w.length = v.length ∧ (∀ d, g.dim ≤ d → w.getD d 0 = v.getD d 0) ∧
          (∀ f ∈ m.faces c, dist g c f (fun d => x.getD d 0) = 0 → through g f (fun d => w.getD d 0) = flux.getD f 0) ∧
          ∀ u : Nat → Rat, (∀ f ∈ m.faces c, flux.getD f 0 = through g f u) → ∀ d, d < g.dim → w.getD d 0 = u d := by
  obtain ⟨S, eS⟩ := (construct_iff h).2 hs
  have hS := construct_made h eS
  obtain ⟨cv', ec, hl, hfit⟩ := setupFluxes_ok h hs hi hlu hS (cv := cv) hf
  refine ⟨S, cv', eS, ec, ?_⟩
  intro c x v bary hc hxl hvl hx
  have hlc : c < S.corners.length := by rw [hS.cells]; exact hc
  have hr := List.getElem?_eq_getElem hlc
  generalize S.corners[c] = row at hr
  obtain ⟨w, b, e, h1, h2, hb, h3⟩ := interpolate_eq h hs hi hS hl hc hr (bary := bary) hxl hvl hx
  refine ⟨w, b, e, h1, h2, ?_, ?_⟩
  · intro f hff h0
    have e1 : through g f (fun d => w.getD d 0) = through g f (fun d => ∑ i ∈ Finset.range row.length, cv'.getD (g.dim * (row.getD i ⟨0, 0, 0⟩).id + d) 0 * b.getD i 0) :=
      Finset.sum_congr rfl (fun d hd => by dsimp only; rw [h3 d (Finset.mem_range.1 hd)])
    rw [e1, through_sum (u := fun i d => cv'.getD (g.dim * (row.getD i ⟨0, 0, 0⟩).id + d) 0)]
    have e2 : ∀ i ∈ Finset.range row.length, b.getD i 0 * through g f (fun d => cv'.getD (g.dim * (row.getD i ⟨0, 0, 0⟩).id + d) 0) = b.getD i 0 * flux.getD f 0 := by
      intro i hi'
      obtain ⟨hg, hmem⟩ := getD_mem (Finset.mem_range.1 hi')
      by_cases hv : (row.getD i ⟨0, 0, 0⟩).vertex ∈ m.nodes f
      · rw [hfit c row _ hr hmem f (List.mem_filter.2 ⟨hff, by simpa using hv⟩)]
      · rw [hb.zero i f (Finset.mem_range.1 hi') hff h0 (by rw [List.getD_eq_getElem?_getD, List.getElem?_map, hg]; exact hv), zero_mul, zero_mul]
    rw [Finset.sum_congr rfl e2, ← Finset.sum_mul, hb.one, one_mul]
  · intro u hu d hd
    rw [h3 d hd]
    have e2 : ∀ i ∈ Finset.range row.length, cv'.getD (g.dim * (row.getD i ⟨0, 0, 0⟩).id + d) 0 * b.getD i 0 = u d * b.getD i 0 := by
      intro i hi'
      obtain ⟨hg, hmem⟩ := getD_mem (Finset.mem_range.1 hi')
      have hv := (hS.vertex c row hr _).1 (List.mem_map_of_mem hmem)
      have hz := hi c _ hc hv (fun d => cv'.getD (g.dim * (row.getD i ⟨0, 0, 0⟩).id + d) 0 - u d) (by
        intro f hff
        have a1 := hfit c row _ hr hmem f hff
        have a2 := hu f (List.mem_filter.1 hff).1
        have : through g f (fun d => cv'.getD (g.dim * (row.getD i ⟨0, 0, 0⟩).id + d) 0 - u d) = through g f (fun d => cv'.getD (g.dim * (row.getD i ⟨0, 0, 0⟩).id + d) 0) - through g f u := by
          unfold through
          rw [← Finset.sum_sub_distrib]
          exact Finset.sum_congr rfl (fun d _ => by ring)
        rw [this, a1, a2, sub_self]) d hd
      rw [sub_eq_zero.1 hz]
    rw [Finset.sum_congr rfl e2, ← Finset.mul_sum, hb.one, mul_one]

/-- The fluxes of a cell are summed with the directions to the centroids of its faces, and divided by its volume. -/
theorem interpolateConstant_eq (h : GridOk g m) {flux v : List Rat} {c : Nat} (hc : c < g.nc) (hf : ∀ f ∈ m.faces c, f < flux.length) (hvl : g.dim ≤ v.length)
    (hcc : c * g.dim + g.dim ≤ g.cellCentroids.length) (hvol : c < g.volumes.length) (hv0 : g.volumes.getD c 0 ≠ 0) :
    ∃ w, interpolateConstant g flux c v = .ok w ∧ w.length = v.length ∧ (∀ d, g.dim ≤ d → w.getD d 0 = v.getD d 0) ∧
      ∀ d, d < g.dim → w.getD d 0 = ((m.faces c).map (fun f => outflow g flux c f * (g.centroids.getD (f * g.dim + d) 0 - g.cellCentroids.getD (c * g.dim + d) 0) / g.volumes.getD c 0)).sum := by
  obtain ⟨a, b, ha, hb, hsl⟩ := h.cell c hc
  unfold interpolateConstant
  obtain ⟨v0, e0, p1, p2, p3⟩ := loop_writes (n := g.dim) (s := v) (f := fun d v => wr v d 0) (fun d => d) (fun _ => 0) (fun d hd => by omega) (fun i j _ _ e => e) (fun _ _ _ _ _ => rfl)
  rw [e0, bind_ok, rd_of_getElem? ha, bind_ok, rd_of_getElem? hb, bind_ok]
  unfold slice at hsl
  split at hsl
  · next hab =>
    have hsl := Except.ok.inj hsl
    have hlen : (m.faces c).length = b - a := by rw [← hsl]; simp; omega
    have hget : ∀ i (hi : i < (m.faces c).length), g.cellfaces[a + i]? = some (m.faces c)[i] := by
      intro i hi
      rw [← List.getElem?_eq_getElem hi, ← hsl, List.getElem?_drop, List.getElem?_take_of_lt (by omega)]
    unfold forRange
    obtain ⟨w, ew, q1, q2, q3⟩ := loop_inv (n := b - a) (s := v0) (f := fun i v => do
        let f ← rd g.cellfaces (a + i)
        let c1 ← rd g.faceCells (2 * f)
        let q ← rd flux f
        let c2 ← rd g.faceCells (2 * f + 1)
        check (decide (c1 = (c : Int) ∨ c2 = (c : Int)))
        loop g.dim (fun d v => do
          let y ← rd g.centroids (f * g.dim + d)
          let z ← rd g.cellCentroids (c * g.dim + d)
          let vol ← rd g.volumes c
          let t ← fdiv ((if (c : Int) = c1 then q else -q) * (y - z)) vol
          addAt v d t) v)
      (P := fun n (t : List Rat) => t.length = v.length ∧ (∀ d, g.dim ≤ d → t.getD d 0 = v.getD d 0) ∧
        ∀ d, d < g.dim → t.getD d 0 = (((m.faces c).take n).map (fun f => outflow g flux c f * (g.centroids.getD (f * g.dim + d) 0 - g.cellCentroids.getD (c * g.dim + d) 0) / g.volumes.getD c 0)).sum)
      ⟨p1, fun d hd => p3 d (fun i hi => by omega), fun d hd => by rw [p2 d hd]; simp⟩ (by
      rintro i t hi ⟨q1, q2, q3⟩
      have hil : i < (m.faces c).length := by omega
      have hmem := List.getElem_mem hil
      rw [rd_of_getElem? (hget i hil), bind_ok]
      generalize hfe : (m.faces c)[i] = f at hmem
      obtain ⟨hl, hside⟩ := h.side c f hc hmem
      have hcl := h.centroids c f hc hmem
      have r1 : rd g.faceCells (2 * f) = .ok (g.faceCells.getD (2 * f) (-1)) := by rw [rd_ok (by omega), List.getD_eq_getElem?_getD, List.getElem?_eq_getElem (by omega)]; rfl
      have r2 : rd g.faceCells (2 * f + 1) = .ok (g.faceCells.getD (2 * f + 1) (-1)) := by rw [rd_ok (by omega), List.getD_eq_getElem?_getD, List.getElem?_eq_getElem (by omega)]; rfl
      rw [r1, bind_ok, rdD (hf f hmem), bind_ok, r2, bind_ok, check_ok (by simpa using hside), bind_ok]
      obtain ⟨t', e, s1, s2⟩ := MiscUtil.loop_addAt (n := g.dim) (s := t) (f := fun d v => do
          let y ← rd g.centroids (f * g.dim + d)
          let z ← rd g.cellCentroids (c * g.dim + d)
          let vol ← rd g.volumes c
          let t ← fdiv ((if (c : Int) = g.faceCells.getD (2 * f) (-1) then flux.getD f 0 else -flux.getD f 0) * (y - z)) vol
          addAt v d t) (fun d => d) (fun d => outflow g flux c f * (g.centroids.getD (f * g.dim + d) 0 - g.cellCentroids.getD (c * g.dim + d) 0) / g.volumes.getD c 0) (by
        intro d t' hd _
        rw [rdD (by rw [Nat.mul_comm]; omega), bind_ok, rdD (by omega), bind_ok, rdD hvol, bind_ok, fdiv_ok hv0, bind_ok]
        unfold outflow
        by_cases e : g.faceCells.getD (2 * f) (-1) = (c : Int)
        · rw [if_pos e, if_pos e.symm]
        · rw [if_neg e, if_neg (Ne.symm e)]) (fun d hd => by omega)
      refine ⟨t', e, by rw [s1, q1], ?_, ?_⟩
      · intro d hd
        rw [s2 d, Finset.sum_eq_zero, add_zero, q2 d hd]
        intro j hj
        rw [if_neg (by have := Finset.mem_range.1 hj; omega)]
      · intro d hd
        rw [s2 d, Finset.sum_ite_eq, if_pos (Finset.mem_range.2 hd), q3 d hd, List.take_succ_eq_append_getElem hil, List.map_append, List.sum_append, hfe]
        simp)
    rw [List.take_of_length_le (by omega)] at q3
    exact ⟨w, ew, q1, q2, q3⟩
  · cases hsl

/-- `VelocityInterpolationConstant` finds a constant velocity from its fluxes, in cells for which the outward normals and the centroids of the faces satisfy the divergence theorem. -/
theorem interpolateConstant_exact (h : GridOk g m) {flux v : List Rat} {c : Nat} (hc : c < g.nc) (hf : ∀ f ∈ m.faces c, f < flux.length) (hvl : g.dim ≤ v.length)
    (hcc : c * g.dim + g.dim ≤ g.cellCentroids.length) (hvol : c < g.volumes.length) (hv0 : g.volumes.getD c 0 ≠ 0) (hg : Gauss g m c) (u : Nat → Rat)
    (hu : ∀ f ∈ m.faces c, flux.getD f 0 = through g f u) :
    ∃ w, interpolateConstant g flux c v = .ok w ∧ ∀ d, d < g.dim → w.getD d 0 = u d := by
  obtain ⟨w, e, -, -, hw⟩ := interpolateConstant_eq h hc hf hvl hcc hvol hv0
  refine ⟨w, e, fun d hd => ?_⟩
  rw [hw d hd]
  have e1 : (m.faces c).map (fun f => outflow g flux c f * (g.centroids.getD (f * g.dim + d) 0 - g.cellCentroids.getD (c * g.dim + d) 0) / g.volumes.getD c 0) =
      (m.faces c).map (fun f => ∑ j ∈ Finset.range g.dim, u j / g.volumes.getD c 0 * ((if g.faceCells.getD (2 * f) (-1) = (c : Int) then nrm g f j else -nrm g f j) * (g.centroids.getD (f * g.dim + d) 0 - g.cellCentroids.getD (c * g.dim + d) 0))) := by
    apply List.map_congr_left
    intro f hff
    unfold outflow
    rw [hu f hff, through]
    split
    · rw [Finset.sum_mul, Finset.sum_div]
      exact Finset.sum_congr rfl (fun j _ => by ring)
    · rw [← Finset.sum_neg_distrib, Finset.sum_mul, Finset.sum_div]
      exact Finset.sum_congr rfl (fun j _ => by ring)
  have swap : ∀ (l : List Nat) (F : Nat → Nat → Rat), (l.map (fun f => ∑ j ∈ Finset.range g.dim, F f j)).sum = ∑ j ∈ Finset.range g.dim, (l.map (fun f => F f j)).sum := by
    intro l F
    induction l with
    | nil => simp
    | cons a l ih => simp only [List.map_cons, List.sum_cons, ih, Finset.sum_add_distrib]
  rw [e1, swap]
  have e2 : ∀ j ∈ Finset.range g.dim, ((m.faces c).map (fun f => u j / g.volumes.getD c 0 * ((if g.faceCells.getD (2 * f) (-1) = (c : Int) then nrm g f j else -nrm g f j) * (g.centroids.getD (f * g.dim + d) 0 - g.cellCentroids.getD (c * g.dim + d) 0)))).sum =
      if d = j then u j else 0 := by
    intro j hj
    rw [List.sum_map_mul_left, hg d j hd (Finset.mem_range.1 hj)]
    split
    · rw [div_mul_cancel₀ _ hv0]
    · rw [mul_zero]
  rw [Finset.sum_congr rfl e2, Finset.sum_ite_eq, if_pos (Finset.mem_range.2 hd)]

end Opm.Wachspress
