import Verif.Proofs.Param
import Mathlib.Tactic.Tauto
/-! # Auxiliary proofs about parameter files -/

namespace Opm.Param

/-! ### Searching in strings -/

theorem findSub_none {pat : Name} (hp : pat ≠ []) : ∀ l : Name, findSub pat l = none ↔ ¬ pat <:+: l := by
  intro l
  induction l with
  | nil => simp [findSub, hp]
  | cons c l ih =>
    unfold findSub
    split
    · rename_i h
      rw [List.isPrefixOf_iff_prefix] at h
      simp [h.isInfix]
    · rename_i h
      rw [List.isPrefixOf_iff_prefix] at h
      rw [Option.map_eq_none_iff, ih, List.infix_cons_iff]
      tauto

theorem findSub_eq {a : Name} (h : '=' ∉ a) (r : Name) : findSub ['='] (a ++ '=' :: r) = some a.length := by
  induction a with
  | nil => simp [findSub, List.isPrefixOf]
  | cons x a ih =>
    have hx : x ≠ '=' := fun e => h (by rw [e]; exact List.mem_cons_self)
    rw [List.cons_append]
    unfold findSub
    rw [if_neg (by simp [List.isPrefixOf, hx.symm]), ih (fun hm => h (List.mem_cons_of_mem _ hm))]
    rfl

theorem findSub_eq_none {a : Name} (h : '=' ∉ a) : findSub ['='] a = none := by
  rw [findSub_none (by simp)]
  intro hi
  obtain ⟨s, t, e⟩ := hi
  exact h (by rw [← e]; simp)

/-- A component in front of a string adds no comment marker. -/
theorem noComment_append {c : Name} (h : '/' ∉ c) {r : Name} (hr : findSub ['/', '/'] r = none) : findSub ['/', '/'] (c ++ r) = none := by
  induction c with
  | nil => exact hr
  | cons x c ih =>
    have hx : x ≠ '/' := fun e => h (by rw [e]; exact List.mem_cons_self)
    rw [List.cons_append]
    unfold findSub
    rw [if_neg (by simp [List.isPrefixOf, hx.symm]), ih (fun hm => h (List.mem_cons_of_mem _ hm))]
    rfl

theorem noComment_slash {c0 : Char} (h : c0 ≠ '/') {r : Name} (hr : findSub ['/', '/'] (c0 :: r) = none) : findSub ['/', '/'] ('/' :: c0 :: r) = none := by
  unfold findSub
  rw [if_neg (by simp [List.isPrefixOf, h.symm]), hr]
  rfl

/-! ### Lines -/

/-- The path of a parameter as written to a file: each component is preceded by a slash. -/
def pathStr (cs : List Name) : Name := cs.flatMap (fun c => '/' :: c)

/-- The line written for a parameter. -/
def line (x : List Name × Name) : Name := pathStr x.1 ++ '=' :: x.2

theorem pathStr_append (a b : List Name) : pathStr (a ++ b) = pathStr a ++ pathStr b := List.flatMap_append

theorem spells_pathStr_tail {d : Name} {ds : List Name} (h : ∀ c ∈ d :: ds, Comp c) : Spells (d ++ pathStr ds) (d :: ds) := by
  induction ds generalizing d with
  | nil =>
    have : d ++ pathStr [] = d := by simp [pathStr]
    rw [this]
    exact .single (h d List.mem_cons_self)
  | cons e es ih =>
    have : d ++ pathStr (e :: es) = d ++ '/' :: (e ++ pathStr es) := by simp [pathStr]
    rw [this]
    exact .cons (h d List.mem_cons_self) (ih (fun c hc => h c (List.mem_cons_of_mem _ hc)))

theorem spells_pathStr {cs : List Name} (h : ∀ c ∈ cs, Comp c) (h0 : cs ≠ []) : Spells (pathStr cs) cs := by
  cases cs with
  | nil => exact absurd rfl h0
  | cons c cs =>
    have : pathStr (c :: cs) = '/' :: (c ++ pathStr cs) := by simp [pathStr]
    rw [this]
    exact .lead (spells_pathStr_tail h)

theorem parse_line {cs : List Name} {v : Name} (hcs : ∀ c ∈ cs, SafeKey c) (hv : SafeVal v) : parseLine (line (cs, v)) = some (pathStr cs, v) := by
  have hno : findSub ['/', '/'] (line (cs, v)) = none := by
    unfold line
    simp only
    induction cs with
    | nil =>
      have := noComment_append (c := ['=']) (by simp) ((findSub_none (by simp) v).2 hv.2.1)
      simpa [pathStr] using this
    | cons c cs ih =>
      obtain ⟨⟨hc0, hcs0⟩, _⟩ := hcs c List.mem_cons_self
      have ih' := ih (fun x hx => hcs x (List.mem_cons_of_mem _ hx))
      obtain ⟨x, c', rfl⟩ := List.exists_cons_of_ne_nil hc0
      have hx : x ≠ '/' := fun e => hcs0 (by rw [e]; exact List.mem_cons_self)
      have h1 := noComment_append hcs0 ih'
      have h2 := noComment_slash hx (by simpa using h1)
      simpa [pathStr] using h2
  have heq : '=' ∉ pathStr cs := by
    unfold pathStr
    rw [List.mem_flatMap]
    rintro ⟨c, hc, hm⟩
    rcases List.mem_cons.1 hm with hm | hm
    · exact absurd hm (by decide)
    · exact (hcs c hc).2.1 hm
  unfold parseLine
  rw [hno]
  simp only
  unfold parseAssignment line
  simp only
  rw [findSub_eq heq]
  simp only
  have hdrop : (pathStr cs ++ '=' :: v).drop ((pathStr cs).length + 1) = v := by
    rw [List.drop_append]
    simp
  rw [hdrop, findSub_eq_none hv.1]
  simp only
  rw [List.take_left]

theorem getLines_append {l : Name} (h : '\n' ∉ l) (cur t : Name) : getLines cur (l ++ '\n' :: t) = (cur.reverse ++ l) :: getLines [] t := by
  induction l generalizing cur with
  | nil => simp [getLines]
  | cons c l ih =>
    have hc : c ≠ '\n' := fun e => h (by rw [e]; exact List.mem_cons_self)
    rw [List.cons_append, getLines, if_neg hc, ih (fun hm => h (List.mem_cons_of_mem _ hm))]
    simp

theorem getLines_text {ls : List Name} (h : ∀ l ∈ ls, '\n' ∉ l) : getLines [] (ls.flatMap (fun l => l ++ ['\n'])) = ls := by
  induction ls with
  | nil => rfl
  | cons l ls ih =>
    rw [List.flatMap_cons, List.append_assoc, List.singleton_append, getLines_append (h l List.mem_cons_self), ih (fun x hx => h x (List.mem_cons_of_mem _ hx))]
    rfl

/-! ### The parameters of a tree -/

mutual
/-- All parameters of a group located at path `pre`. -/
def leaves (pre : List Name) : Map → List (List Name × Name)
  | [] => []
  | (k, it) :: m => leavesItem (pre ++ [k]) it ++ leaves pre m

def leavesItem (pre : List Name) : Item → List (List Name × Name)
  | .param v _ => [(pre, v)]
  | .group g => leaves pre g
end

mutual
theorem writeItems_leaves (pre : List Name) : ∀ m : Map, SafeItems m → writeItems (pathStr pre) m = (leaves pre m).map line
  | [], _ => rfl
  | (k, it) :: m, h => by
    unfold SafeItems at h
    unfold writeItems leaves
    rw [List.map_append, writeItems_leaves pre m h.2.2.2, writeItem_leaves pre k it h.2.2.1]

theorem writeItem_leaves (pre : List Name) (k : Name) : ∀ it : Item, SafeItem it → writeItem (pathStr pre) k it = (leavesItem (pre ++ [k]) it).map line
  | .param v t, _ => by
    unfold writeItem leavesItem line
    simp [pathStr_append]
    simp [pathStr]
  | .group [], h => by
    unfold SafeItem at h
    exact absurd rfl h.1
  | .group ((k', it) :: m), h => by
    unfold SafeItem at h
    have hs := h.2
    unfold SafeItems at hs
    have hp : pathStr pre ++ '/' :: k = pathStr (pre ++ [k]) := by
      rw [pathStr_append]; simp [pathStr]
    unfold writeItem leavesItem writeLines leaves
    rw [hp, List.map_append, writeItems_leaves (pre ++ [k]) m hs.2.2.2, writeItem_leaves (pre ++ [k]) k' it hs.2.2.1]
end

theorem writeLines_leaves {m : Map} (h : SafeItems m) (h0 : m ≠ []) : writeLines [] m = (leaves [] m).map line := by
  cases m with
  | nil => exact absurd rfl h0
  | cons p m =>
    obtain ⟨k, it⟩ := p
    have : writeLines [] ((k, it) :: m) = writeItems [] ((k, it) :: m) := by
      rw [writeLines, writeItems]
    rw [this]
    exact writeItems_leaves [] _ h

theorem find_none_of_ne {m : Map} {k : Name} (h : ∀ p ∈ m, p.1 ≠ k) : find m k = none := by
  unfold find
  induction m with
  | nil => rfl
  | cons p m ih =>
    obtain ⟨k', it⟩ := p
    have hk := h (k', it) List.mem_cons_self
    rw [List.lookup_cons, show (k == k') = false by simpa using fun e : k = k' => hk e.symm]
    exact ih (fun q hq => h q (List.mem_cons_of_mem _ hq))

theorem find_cons_self (k : Name) (it : Item) (m : Map) : find ((k, it) :: m) k = some it := by simp [find]

theorem find_cons_ne {k j : Name} (h : j ≠ k) (it : Item) (m : Map) : find ((k, it) :: m) j = find m j := by
  unfold find
  rw [List.lookup_cons, show (j == k) = false by simpa using h]

theorem value_cons_self (k : Name) (it : Item) (m : Map) (ds : List Name) :
    value ((k, it) :: m) (k :: ds) = match it with
      | .param v _ => if ds = [] then some v else none
      | .group g => value g ds := by
  unfold value
  cases ds with
  | nil =>
    rw [show lookup ((k, it) :: m) [k] = some it from find_cons_self k it m]
    cases it <;> simp [lookup]
  | cons d ds =>
    rw [lookup_cons (by simp), find_cons_self]
    cases it <;> simp

theorem value_cons_ne {k j : Name} (h : j ≠ k) (it : Item) (m : Map) (ds : List Name) : value ((k, it) :: m) (j :: ds) = value m (j :: ds) := by
  unfold value
  cases ds with
  | nil => rw [show lookup ((k, it) :: m) [j] = find m j from find_cons_ne h it m]; rfl
  | cons d ds => rw [lookup_cons (by simp), lookup_cons (by simp), find_cons_ne h]

theorem value_of_find_none {m : Map} {k : Name} (h : find m k = none) (ds : List Name) : value m (k :: ds) = none := by
  unfold value
  cases ds with
  | nil => rw [show lookup m [k] = find m k from rfl, h]
  | cons d ds => rw [lookup_cons (by simp), h]

mutual
theorem mem_leaves (pre : List Name) : ∀ m : Map, SafeItems m → ∀ x v, ((x, v) ∈ leaves pre m ↔ ∃ ds, x = pre ++ ds ∧ value m ds = some v)
  | [], _, x, v => by
    unfold leaves
    constructor
    · intro h; cases h
    · rintro ⟨ds, _, h⟩
      unfold value at h
      rw [lookup_nil_map] at h
      cases h
  | (k, it) :: m, h, x, v => by
    unfold SafeItems at h
    unfold leaves
    rw [List.mem_append, mem_leavesItem (pre ++ [k]) it h.2.2.1, mem_leaves pre m h.2.2.2]
    have hfind : find m k = none := find_none_of_ne h.2.1
    constructor
    · rintro (⟨ds, rfl, hv⟩ | ⟨ds, rfl, hv⟩)
      · refine ⟨k :: ds, by simp, ?_⟩
        rw [value_cons_self]
        exact hv
      · refine ⟨ds, rfl, ?_⟩
        cases ds with
        | nil => simp [value, lookup] at hv
        | cons j ds =>
          by_cases hj : j = k
          · subst hj
            rw [value_of_find_none hfind] at hv
            cases hv
          · rw [value_cons_ne hj]; exact hv
    · rintro ⟨ds, rfl, hv⟩
      cases ds with
      | nil => simp [value, lookup] at hv
      | cons j ds =>
        by_cases hj : j = k
        · subst hj
          left
          refine ⟨ds, by simp, ?_⟩
          rw [value_cons_self] at hv
          exact hv
        · right
          rw [value_cons_ne hj] at hv
          exact ⟨_, rfl, hv⟩

theorem mem_leavesItem (pre : List Name) : ∀ it : Item, SafeItem it → ∀ x v, ((x, v) ∈ leavesItem pre it ↔ ∃ ds, x = pre ++ ds ∧
    (match it with | .param w _ => if ds = [] then some w else none | .group g => value g ds) = some v)
  | .param w t, _, x, v => by
    unfold leavesItem
    rw [List.mem_singleton]
    constructor
    · intro h
      cases h
      exact ⟨[], by simp, by simp⟩
    · rintro ⟨ds, rfl, h⟩
      simp only at h
      split at h
      · rename_i h0
        subst h0
        cases h
        simp
      · cases h
  | .group g, h, x, v => by
    unfold SafeItem at h
    unfold leavesItem
    exact mem_leaves pre g h.2 x v
end

mutual
theorem leaves_safe : ∀ (m : Map) (pre : List Name), SafeItems m → (∀ c ∈ pre, SafeKey c) → ∀ x ∈ leaves pre m, (∀ c ∈ x.1, SafeKey c) ∧ SafeVal x.2
  | [], pre, _, _, x, hx => by unfold leaves at hx; cases hx
  | (k, it) :: m, pre, h, hp, x, hx => by
    unfold SafeItems at h
    unfold leaves at hx
    rcases List.mem_append.1 hx with hx | hx
    · refine leavesItem_safe it (pre ++ [k]) h.2.2.1 ?_ x hx
      intro c hc
      rcases List.mem_append.1 hc with hc | hc
      · exact hp c hc
      · rw [List.mem_singleton] at hc
        rw [hc]; exact h.1
    · exact leaves_safe m pre h.2.2.2 hp x hx

theorem leavesItem_safe : ∀ (it : Item) (pre : List Name), SafeItem it → (∀ c ∈ pre, SafeKey c) → ∀ x ∈ leavesItem pre it, (∀ c ∈ x.1, SafeKey c) ∧ SafeVal x.2
  | .param v t, pre, h, hp, x, hx => by
    unfold leavesItem at hx
    unfold SafeItem at h
    rw [List.mem_singleton] at hx
    subst hx
    exact ⟨hp, h⟩
  | .group g, pre, h, hp, x, hx => by
    unfold SafeItem at h
    unfold leavesItem at hx
    exact leaves_safe g pre h.2 hp x hx
end

/-- Below a parameter there is nothing. -/
theorem value_below {m : Map} : ∀ {p q : List Name} {v w : Name}, value m p = some v → value m (p ++ q) = some w → q = [] := by
  intro p
  induction p generalizing m with
  | nil => intro q v w h; simp [value, lookup] at h
  | cons c p ih =>
    intro q v w h1 h2
    rcases Decidable.em (q = []) with hq | hq
    · exact hq
    · exfalso
      unfold value at h1 h2
      by_cases hp : p = []
      · subst hp
        rw [show lookup m [c] = find m c from rfl] at h1
        rw [List.singleton_append, lookup_cons hq] at h2
        cases hf : find m c with
        | none => rw [hf] at h1; cases h1
        | some it =>
          rw [hf] at h1 h2
          cases it with
          | param a b => cases h2
          | group g => cases h1
      · rw [lookup_cons hp] at h1
        rw [List.cons_append, lookup_cons (by simp [hp])] at h2
        cases hf : find m c with
        | none => rw [hf] at h1; cases h1
        | some it =>
          rw [hf] at h1 h2
          cases it with
          | param a b => cases h2
          | group g => exact hq (ih (m := g) h1 h2)

/-- Inserting all parameters of a tree into the empty group recreates them. -/
theorem read_leaves {m : Map} (k : Nat) (L : List (List Name × Name)) (hL : ∀ x ∈ L, value m x.1 = some x.2) (hs : ∀ x ∈ L, (∀ c ∈ x.1, SafeKey c) ∧ SafeVal x.2)
    (hk : ∀ x ∈ L, (pathStr x.1).length < k) :
    ∃ m', readLines k (L.map line) [] = .ok m' ∧ ∀ ds v, value m' ds = some v ↔ (ds, v) ∈ L := by
  suffices h : ∀ (R D : List (List Name × Name)) (t : Map), L = D ++ R → (∀ ds v, value t ds = some v ↔ (ds, v) ∈ D) →
      ∃ m', readLines k (R.map line) t = .ok m' ∧ ∀ ds v, value m' ds = some v ↔ (ds, v) ∈ L by
    refine h L [] [] rfl ?_
    intro ds v
    simp [value, lookup_nil_map]
  intro R
  induction R with
  | nil =>
    intro D t hD ht
    rw [List.append_nil] at hD
    exact ⟨t, rfl, by rw [hD]; exact ht⟩
  | cons x R ih =>
    intro D t hD ht
    obtain ⟨cs, v⟩ := x
    have hx : (cs, v) ∈ L := by rw [hD]; simp
    have hval := hL _ hx
    obtain ⟨hs1, hs2⟩ := hs _ hx
    have hcs : cs ≠ [] := by
      rintro rfl
      simp [value, lookup] at hval
    have hsp := spells_pathStr (fun c hc => (hs1 c hc).1) hcs
    have hDv : ∀ ds w, (ds, w) ∈ D → value m ds = some w := fun ds w h => hL (ds, w) (by rw [hD]; exact List.mem_append_left _ h)
    have hpass : Passable t cs := by
      intro p q w ty hpq hp hq hl
      have h1 : value t p = some w := by unfold value; rw [hl]
      have h2 := hDv p w ((ht p w).1 h1)
      simp only at hval
      rw [hpq] at hval
      exact hq (value_below h2 hval)
    have hins := insert_put cs k (pathStr cs) t v hsp (hk _ hx) hpass
    obtain ⟨m', e, hm⟩ := ih (D ++ [(cs, v)]) (put v cs t) (by rw [hD]; simp) (by
      intro ds w
      rw [List.mem_append, List.mem_singleton]
      have hnew : ∀ u, (cs, u) ∈ D → u = v := by
        intro u hu
        have := hDv cs u hu
        simp only at hval
        rw [this] at hval
        exact Option.some.inj hval
      by_cases h1 : cs <+: ds
      · obtain ⟨q, rfl⟩ := h1
        by_cases hq : q = []
        · subst hq
          rw [List.append_nil]
          unfold value
          rw [lookup_put_self v cs hcs]
          simp only
          constructor
          · intro h; cases h; right; rfl
          · rintro (h | h)
            · rw [hnew w h]
            · cases h; rfl
        · unfold value
          rw [lookup_put_below v cs q hcs hq]
          simp only
          constructor
          · intro h; cases h
          · rintro (h | h)
            · exact absurd (value_below hval (hDv _ _ h)) hq
            · have := congrArg (fun x => x.1.length) h
              simp at this
              exact absurd this hq
      · by_cases h2 : ds <+: cs
        · obtain ⟨q, rfl⟩ := h2
          have hq : q ≠ [] := by
            rintro rfl
            exact h1 (by simp)
          by_cases hd : ds = []
          · subst hd
            unfold value
            simp only [lookup]
            constructor
            · intro h; cases h
            · rintro (h | h)
              · have := hDv _ _ h
                simp [value, lookup] at this
              · have := congrArg (fun x => x.1.length) h
                simp at this
                exact absurd (List.length_eq_zero_iff.1 this.symm) hq
          · obtain ⟨g, hg⟩ := lookup_put_above v ds hd q t hq
            unfold value
            rw [hg]
            simp only
            constructor
            · intro h; cases h
            · rintro (h | h)
              · exact absurd (value_below (hDv _ _ h) hval) hq
              · have := congrArg (fun x => x.1.length) h
                simp at this
                exact absurd this hq
        · have : value (put v cs t) ds = value t ds := by
            unfold value
            rw [lookup_put_other v cs ds t hpass h1 h2]
          rw [this, ht]
          constructor
          · exact Or.inl
          · rintro (h | h)
            · exact h
            · cases h
              exact absurd List.prefix_rfl h1)
    refine ⟨m', ?_, hm⟩
    rw [List.map_cons]
    unfold readLines at e ⊢
    rw [List.foldlM_cons, parse_line hs1 hs2]
    simp only
    rw [hins, bindP_ok]
    exact e

end Opm.Param
