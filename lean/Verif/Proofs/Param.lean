import Verif.Spec.Param
import Mathlib.Data.List.Basic
import Mathlib.Tactic.ByContra
/-! # Auxiliary proofs about parameter groups -/

namespace Opm.Param

@[simp] theorem bindP_ok {α β : Type} (x : α) (f : α → P β) : ((Except.ok x : P α) >>= f) = f x := rfl
@[simp] theorem bindP_err {α β : Type} (e : Fail) (f : α → P β) : ((Except.error e : P α) >>= f) = .error e := rfl

/-! ### Strings -/

theorem takeWhile_comp {c : Name} (h : '/' ∉ c) (r : Name) : (c ++ '/' :: r).takeWhile (fun x => x ≠ '/') = c := by
  induction c with
  | nil => simp
  | cons a c ih =>
    have ha : a ≠ '/' := fun e => h (by rw [e]; exact List.mem_cons_self)
    rw [List.cons_append, List.takeWhile_cons_of_pos (by simpa using ha), ih (fun hm => h (List.mem_cons_of_mem _ hm))]

theorem dropWhile_comp {c : Name} (h : '/' ∉ c) (r : Name) : (c ++ '/' :: r).dropWhile (fun x => x ≠ '/') = '/' :: r := by
  induction c with
  | nil => simp
  | cons a c ih =>
    have ha : a ≠ '/' := fun e => h (by rw [e]; exact List.mem_cons_self)
    rw [List.cons_append, List.dropWhile_cons_of_pos (by simpa using ha), ih (fun hm => h (List.mem_cons_of_mem _ hm))]

theorem split_cons {c : Name} (h : '/' ∉ c) (r : Name) : split (c ++ '/' :: r) = (c, r) := by
  unfold split
  rw [takeWhile_comp h, dropWhile_comp h]; rfl

theorem split_single {c : Name} (h : '/' ∉ c) : split c = (c, []) := by
  have ht : c.takeWhile (fun x => x ≠ '/') = c ∧ c.dropWhile (fun x => x ≠ '/') = [] := by
    induction c with
    | nil => exact ⟨rfl, rfl⟩
    | cons a c ih =>
      have ha : a ≠ '/' := fun e => h (by rw [e]; exact List.mem_cons_self)
      obtain ⟨h1, h2⟩ := ih (fun hm => h (List.mem_cons_of_mem _ hm))
      exact ⟨by rw [List.takeWhile_cons_of_pos (by simpa using ha), h1], by rw [List.dropWhile_cons_of_pos (by simpa using ha), h2]⟩
  unfold split
  rw [ht.1, ht.2]; rfl

theorem split_slash (r : Name) : split ('/' :: r) = ([], r) := by
  simpa using split_cons (c := []) (by simp) r

/-- Every string is a component, or a component followed by a slash and a rest. -/
theorem name_cases (n : Name) : ('/' ∉ n) ∨ ∃ c r, '/' ∉ c ∧ n = c ++ '/' :: r := by
  induction n with
  | nil => left; simp
  | cons a n ih =>
    by_cases ha : a = '/'
    · right; exact ⟨[], n, by simp, by rw [ha]; rfl⟩
    · rcases ih with ih | ⟨c, r, hc, rfl⟩
      · left
        intro h
        rcases List.mem_cons.1 h with h | h
        · exact ha h.symm
        · exact ih h
      · right
        refine ⟨a :: c, r, ?_, rfl⟩
        intro h
        rcases List.mem_cons.1 h with h | h
        · exact ha h.symm
        · exact hc h

theorem Spells.ne_nil {n : Name} {cs : List Name} (h : Spells n cs) : n ≠ [] ∧ cs ≠ [] := by
  induction h with
  | single hc => exact ⟨hc.1, by simp⟩
  | trailing hc => exact ⟨by simp, by simp⟩
  | lead _ ih => exact ⟨by simp, ih.2⟩
  | cons _ _ ih => exact ⟨by simp, by simp⟩

/-- The first component found by the loop of `insertParameter`. -/
theorem skip_spells {n : Name} {cs : List Name} (h : Spells n cs) : ∀ k, n.length < k →
    ∃ c r cs', skipEmpty k (split n) = .ok (c, r) ∧ Comp c ∧ cs = c :: cs' ∧ r.length < n.length ∧
      ((cs' = [] ∧ r = []) ∨ Spells r cs') := by
  induction h with
  | @single c hc =>
    intro k hk
    obtain ⟨j, rfl⟩ : ∃ j, k = j + 1 := ⟨k - 1, by omega⟩
    refine ⟨c, [], [], ?_, hc, rfl, List.length_pos_of_ne_nil hc.1, .inl ⟨rfl, rfl⟩⟩
    rw [split_single hc.2]
    unfold skipEmpty
    rw [if_neg hc.1]
  | @trailing c hc =>
    intro k hk
    obtain ⟨j, rfl⟩ : ∃ j, k = j + 1 := ⟨k - 1, by omega⟩
    refine ⟨c, [], [], ?_, hc, rfl, by simp, .inl ⟨rfl, rfl⟩⟩
    rw [split_cons hc.2]
    unfold skipEmpty
    rw [if_neg hc.1]
  | @lead n cs hn ih =>
    intro k hk
    rw [List.length_cons] at hk
    obtain ⟨j, rfl⟩ : ∃ j, k = j + 1 := ⟨k - 1, by omega⟩
    obtain ⟨c, r, cs', e, h1, h2, h3, h4⟩ := ih j (by omega)
    refine ⟨c, r, cs', ?_, h1, h2, by simp; omega, h4⟩
    rw [split_slash]
    unfold skipEmpty
    rw [if_pos rfl]
    exact e
  | @cons c n cs hc hn ih =>
    intro k hk
    obtain ⟨j, rfl⟩ : ∃ j, k = j + 1 := ⟨k - 1, by omega⟩
    refine ⟨c, n, cs, ?_, hc, rfl, by simp; omega, .inr hn⟩
    rw [split_cons hc.2]
    unfold skipEmpty
    rw [if_neg hc.1]

theorem skip_nil (k : Nat) : skipEmpty k (split []) = .error .hang := by
  have hs : split [] = ([], []) := rfl
  rw [hs]
  induction k with
  | zero => rfl
  | succ k ih =>
    unfold skipEmpty
    rw [if_pos rfl, hs, ih]

/-- If the loop of `insertParameter` ends, it has found a component, and prefixing that component tells how the name is spelled. -/
theorem skip_result (k : Nat) (n : Name) : skipEmpty k (split n) = .error .hang ∨
    ∃ c r, skipEmpty k (split n) = .ok (c, r) ∧ Comp c ∧ (r = [] → Spells n [c]) ∧ (∀ cs, Spells r cs → Spells n (c :: cs)) := by
  induction k generalizing n with
  | zero => left; rfl
  | succ k ih =>
    rcases name_cases n with hn | ⟨c, r, hc, rfl⟩
    · by_cases h0 : n = []
      · subst h0; left; exact skip_nil _
      · right
        refine ⟨n, [], ?_, ⟨h0, hn⟩, fun _ => .single ⟨h0, hn⟩, fun cs hcs => absurd rfl hcs.ne_nil.1⟩
        rw [split_single hn]
        unfold skipEmpty
        rw [if_neg h0]
    · rw [split_cons hc]
      unfold skipEmpty
      by_cases h0 : c = []
      · subst h0
        rw [if_pos rfl]
        rcases ih r with e | ⟨c, r', e, h1, h2, h3⟩
        · left; exact e
        · right
          exact ⟨c, r', e, h1, fun h => (h2 h).lead, fun cs hcs => (h3 cs hcs).lead⟩
      · rw [if_neg h0]
        right
        refine ⟨c, r, rfl, ⟨h0, hc⟩, ?_, fun cs hcs => .cons ⟨h0, hc⟩ hcs⟩
        rintro rfl
        exact .trailing ⟨h0, hc⟩

theorem spells_join {cs : List Name} (hc : ∀ c ∈ cs, Comp c) (h : cs ≠ []) : Spells (join cs) cs := by
  induction cs with
  | nil => exact absurd rfl h
  | cons c cs ih =>
    cases cs with
    | nil => exact .single (hc c List.mem_cons_self)
    | cons d cs => exact .cons (hc c List.mem_cons_self) (ih (fun x hx => hc x (List.mem_cons_of_mem _ hx)) (by simp))

theorem Spells.comps {n : Name} {cs : List Name} (h : Spells n cs) : ∀ c ∈ cs, Comp c := by
  induction h with
  | single hc => simpa using hc
  | trailing hc => simpa using hc
  | lead _ ih => exact ih
  | cons hc _ ih =>
    intro x hx
    rcases List.mem_cons.1 hx with rfl | hx
    · exact hc
    · exact ih x hx

/-! ### Association lists -/

@[simp] theorem find_assign_self (k : Name) (v : Item) (m : Map) : find (assign k v m) k = some v := by
  induction m with
  | nil => simp [assign, find]
  | cons p m ih =>
    obtain ⟨k', v'⟩ := p
    unfold assign
    split
    · simp [find]
    · rename_i hk
      split
      · simp [find]
      · unfold find at ih ⊢
        rw [List.lookup_cons, show (k == k') = false by simpa using hk]
        exact ih

theorem find_assign_ne {k j : Name} (v : Item) (m : Map) (h : j ≠ k) : find (assign k v m) j = find m j := by
  induction m with
  | nil =>
    have hj : (j == k) = false := by simpa using h
    simp [assign, find, List.lookup_cons, hj]
  | cons p m ih =>
    obtain ⟨k', v'⟩ := p
    have hj : (j == k) = false := by simpa using h
    unfold assign
    split
    · rename_i hk
      subst hk
      unfold find
      rw [List.lookup_cons, List.lookup_cons, hj]
    · split
      · unfold find
        rw [List.lookup_cons, hj]
      · unfold find at ih ⊢
        rw [List.lookup_cons, List.lookup_cons, ih]

/-! ### Insertion -/

/-- The tree with parameter `v` at path `cs`. -/
def put (v : Name) : List Name → Map → Map
  | [], m => m
  | [c], m => assign c (.param v cmdline) m
  | c :: cs, m =>
    match find m c with
    | some (.group g) => assign c (.group (put v cs g)) m
    | _ => assign c (.group (put v cs [])) m

theorem lookup_nil_map (cs : List Name) : lookup [] cs = none := by
  cases cs with
  | nil => rfl
  | cons c cs => cases cs <;> rfl

theorem passable_empty (cs : List Name) : Passable [] cs := by
  intro p q v t _ _ _ h
  rw [lookup_nil_map] at h
  cases h

theorem lookup_cons {m : Map} {c : Name} {cs : List Name} (h : cs ≠ []) :
    lookup m (c :: cs) = match find m c with | some (.group g) => lookup g cs | _ => none := by
  cases cs with
  | nil => exact absurd rfl h
  | cons d cs => rfl

theorem put_cons {v : Name} {m : Map} {c : Name} {cs : List Name} (h : cs ≠ []) :
    put v (c :: cs) m = match find m c with | some (.group g) => assign c (.group (put v cs g)) m | _ => assign c (.group (put v cs [])) m := by
  cases cs with
  | nil => exact absurd rfl h
  | cons d cs => rfl

theorem passable_child {m : Map} {c : Name} {cs : List Name} {g : Map} (h : Passable m (c :: cs)) (hf : find m c = some (.group g)) : Passable g cs := by
  intro p q v t hcs hp hq hl
  refine h (c :: p) q v t (by rw [hcs]; rfl) (by simp) hq ?_
  rw [lookup_cons hp, hf]
  exact hl

theorem passable_head {m : Map} {c : Name} {cs : List Name} (h : Passable m (c :: cs)) (hcs : cs ≠ []) (v t : Name) : find m c ≠ some (.param v t) :=
  h [c] cs v t rfl (by simp) hcs

theorem insert_put (cs : List Name) : ∀ (k : Nat) (n : Name) (m : Map) (v : Name), Spells n cs → n.length < k → Passable m cs →
    insertParameter k m n v = .ok (put v cs m) := by
  induction cs with
  | nil => intro k n m v h; exact absurd rfl h.ne_nil.2
  | cons c0 cs ih =>
    intro k n m v h hk hp
    obtain ⟨c, r, cs', e, hc, hcs, hlen, hr⟩ := skip_spells h k hk
    obtain ⟨j, rfl⟩ : ∃ j, k = j + 1 := ⟨k - 1, by omega⟩
    cases hcs
    unfold insertParameter
    rw [e, bindP_ok]
    unfold insertBody
    simp only
    rcases hr with ⟨rfl, rfl⟩ | hr
    · cases hf : find m c0 <;> simp [put]
    · have hr0 := hr.ne_nil
      rw [put_cons hr0.2]
      cases hf : find m c0 with
      | none =>
        simp only [if_neg hr0.1]
        rw [ih j r [] v hr (by omega) (passable_empty _)]
        rfl
      | some it =>
        cases it with
        | param w t => exact absurd hf (passable_head hp hr0.2 w t)
        | group g =>
          simp only [if_neg hr0.1]
          rw [ih j r g v hr (by omega) (passable_child hp hf)]
          rfl

/-- A path through a plain parameter makes `insertParameter` throw. -/
theorem insert_blocked (cs : List Name) : ∀ (k : Nat) (n : Name) (m : Map) (v : Name), Spells n cs → n.length < k → ¬ Passable m cs →
    insertParameter k m n v = .error .badCast := by
  induction cs with
  | nil => intro k n m v h; exact absurd rfl h.ne_nil.2
  | cons c0 cs ih =>
    intro k n m v h hk hp
    obtain ⟨c, r, cs', e, hc, hcs, hlen, hr⟩ := skip_spells h k hk
    obtain ⟨j, rfl⟩ : ∃ j, k = j + 1 := ⟨k - 1, by omega⟩
    cases hcs
    unfold insertParameter
    rw [e, bindP_ok]
    unfold insertBody
    simp only
    rcases hr with ⟨rfl, rfl⟩ | hr
    · exfalso
      apply hp
      intro p q w t hpq hp0 hq0
      have := congrArg List.length hpq
      rw [List.length_append, List.length_singleton] at this
      have h1 := List.length_pos_of_ne_nil hp0
      have h2 := List.length_pos_of_ne_nil hq0
      omega
    · have hr0 := hr.ne_nil
      -- a blocking parameter
      have hb : (∃ w t, find m c0 = some (.param w t)) ∨ ∃ g, find m c0 = some (.group g) ∧ ¬ Passable g cs := by
        by_contra hcon
        rw [not_or] at hcon
        obtain ⟨hc1, hc2⟩ := hcon
        apply hp
        intro p q w t hpq hp0 hq0 hl
        cases p with
        | nil => exact hp0 rfl
        | cons d p =>
          rw [List.cons_append] at hpq
          injection hpq with hd hpq
          subst hd
          by_cases hpn : p = []
          · subst hpn
            exact hc1 ⟨w, t, hl⟩
          · rw [lookup_cons hpn] at hl
            cases hf : find m c0 with
            | none => rw [hf] at hl; cases hl
            | some it =>
              cases it with
              | param w' t' => exact hc1 ⟨_, _, hf⟩
              | group g =>
                rw [hf] at hl
                exact hc2 ⟨g, hf, fun hg => hg p q w t hpq hpn hq0 hl⟩
      rcases hb with ⟨w, t, hf⟩ | ⟨g, hf, hg⟩
      · simp only [hf, if_neg hr0.1]
      · simp only [hf, if_neg hr0.1]
        rw [ih j r g v hr (by omega) hg]
        rfl

theorem insert_unspelled (k : Nat) : ∀ (n : Name) (m : Map) (v : Name), (∀ cs, ¬ Spells n cs) →
    insertParameter k m n v = .error .hang ∨ (insertParameter k m n v = .error .badCast ∧ m ≠ []) := by
  induction k with
  | zero => intro n m v _; left; rfl
  | succ k ih =>
    intro n m v hn
    unfold insertParameter
    rcases skip_result (k + 1) n with e | ⟨c, r, e, hc, h1, h2⟩
    · left; rw [e]; rfl
    · rw [e, bindP_ok]
      have hr0 : r ≠ [] := fun h => hn _ (h1 h)
      have hrn : ∀ cs, ¬ Spells r cs := fun cs hcs => hn _ (h2 cs hcs)
      unfold insertBody
      simp only [if_neg hr0]
      cases hf : find m c with
      | none =>
        simp only
        rcases ih r [] v hrn with e' | ⟨_, e'⟩
        · left; rw [e']; rfl
        · exact absurd rfl e'
      | some it =>
        have hm : m ≠ [] := by rintro rfl; cases hf
        cases it with
        | param w t => right; exact ⟨rfl, hm⟩
        | group g =>
          simp only
          rcases ih r g v hrn with e' | ⟨e', _⟩
          · left; rw [e']; rfl
          · right; rw [e']; exact ⟨rfl, hm⟩

theorem lookup_put_self (v : Name) (cs : List Name) (h : cs ≠ []) : ∀ m, lookup (put v cs m) cs = some (.param v cmdline) := by
  induction cs with
  | nil => exact absurd rfl h
  | cons c cs ih =>
    intro m
    by_cases h0 : cs = []
    · subst h0; simp [put, lookup]
    · rw [lookup_cons h0, put_cons h0]
      cases hf : find m c with
      | none => simp [ih h0]
      | some it =>
        cases it with
        | param w t => simp [ih h0]
        | group g => simp [ih h0]

/-- Other paths keep their contents. -/
theorem lookup_put_other (v : Name) (cs : List Name) : ∀ (ds : List Name) (m : Map), Passable m cs → ¬ cs <+: ds → ¬ ds <+: cs →
    lookup (put v cs m) ds = lookup m ds := by
  induction cs with
  | nil => intro ds m _ h; exact absurd (List.nil_prefix) h
  | cons c cs ih =>
    intro ds m hp h1 h2
    cases ds with
    | nil => exact absurd List.nil_prefix h2
    | cons d ds =>
      by_cases hcd : d = c
      · subst hcd
        have h1' : ¬ cs <+: ds := fun h => h1 (List.cons_prefix_cons.2 ⟨rfl, h⟩)
        have h2' : ¬ ds <+: cs := fun h => h2 (List.cons_prefix_cons.2 ⟨rfl, h⟩)
        have hcs0 : cs ≠ [] := by rintro rfl; exact h1' List.nil_prefix
        have hds0 : ds ≠ [] := by rintro rfl; exact h2' List.nil_prefix
        rw [lookup_cons hds0, lookup_cons hds0, put_cons hcs0]
        cases hf : find m d with
        | none =>
          simp only [find_assign_self]
          rw [ih ds [] (passable_empty _) h1' h2', lookup_nil_map]
        | some it =>
          cases it with
          | param w t => exact absurd hf (passable_head hp hcs0 w t)
          | group g =>
            simp only [find_assign_self]
            exact ih ds g (passable_child hp hf) h1' h2'
      · have hfind : ∀ it, find (assign c it m) d = find m d := fun it => find_assign_ne it m hcd
        have hput : ∃ it, put v (c :: cs) m = assign c it m := by
          cases cs with
          | nil => exact ⟨_, rfl⟩
          | cons c' cs =>
            unfold put
            cases hf : find m c with
            | none => exact ⟨_, rfl⟩
            | some it =>
              cases it with
              | param w t => exact ⟨_, rfl⟩
              | group g => exact ⟨_, rfl⟩
        obtain ⟨it, hit⟩ := hput
        rw [hit]
        cases ds with
        | nil => exact hfind it
        | cons d' ds =>
          rw [lookup_cons (by simp), lookup_cons (by simp), hfind]

/-- Below the new parameter there is nothing. -/
theorem lookup_put_below (v : Name) (cs ds : List Name) (h : cs ≠ []) (hd : ds ≠ []) : ∀ m, lookup (put v cs m) (cs ++ ds) = none := by
  induction cs with
  | nil => exact absurd rfl h
  | cons c cs ih =>
    intro m
    by_cases h0 : cs = []
    · subst h0
      rw [List.singleton_append, lookup_cons hd]
      simp [put]
    · rw [List.cons_append, lookup_cons (by simp [h0]), put_cons h0]
      cases hf : find m c with
      | none => simp [ih h0]
      | some it =>
        cases it with
        | param w t => simp [ih h0]
        | group g => simp [ih h0]

/-- Above the new parameter there are groups. -/
theorem lookup_put_above (v : Name) (ds : List Name) (hd : ds ≠ []) : ∀ (es : List Name) (m : Map), es ≠ [] →
    ∃ g, lookup (put v (ds ++ es) m) ds = some (.group g) := by
  induction ds with
  | nil => exact absurd rfl hd
  | cons d ds ih =>
    intro es m he
    rw [List.cons_append, put_cons (by simp [he])]
    by_cases h0 : ds = []
    · subst h0
      cases hf : find m d with
      | none => exact ⟨_, by simp [lookup]; rfl⟩
      | some it =>
        cases it with
        | param w t => exact ⟨_, by simp [lookup]; rfl⟩
        | group g => exact ⟨_, by simp [lookup]; rfl⟩
    · rw [lookup_cons h0]
      cases hf : find m d with
      | none => simpa using ih h0 es [] he
      | some it =>
        cases it with
        | param w t => simpa using ih h0 es [] he
        | group g => simpa using ih h0 es g he

/-! ### Queries -/

theorem split_join {c : Name} {cs : List Name} (hc : Comp c) : split (join (c :: cs)) = (c, join cs) := by
  cases cs with
  | nil => exact split_single hc.2
  | cons d cs => exact split_cons hc.2 _

theorem join_ne_nil {cs : List Name} (hc : ∀ c ∈ cs, Comp c) : join cs = [] ↔ cs = [] := by
  constructor
  · intro h
    cases cs with
    | nil => rfl
    | cons c cs =>
      exact absurd h (spells_join hc (by simp)).ne_nil.1
  · rintro rfl; rfl

theorem has_lookup (cs : List Name) : ∀ (k : Nat) (m : Map), (∀ c ∈ cs, Comp c) → cs ≠ [] → cs.length < k + 1 → Passable m cs →
    has k m (join cs) = .ok (lookup m cs).isSome := by
  induction cs with
  | nil => intro k m _ h; exact absurd rfl h
  | cons c cs ih =>
    intro k m hc _ hk hp
    simp only [List.length_cons] at hk
    obtain ⟨j, rfl⟩ : ∃ j, k = j + 1 := ⟨k - 1, by omega⟩
    have hc' : ∀ c ∈ cs, Comp c := fun x hx => hc x (List.mem_cons_of_mem _ hx)
    unfold has
    rw [split_join (hc c List.mem_cons_self)]
    simp only
    by_cases h0 : cs = []
    · subst h0
      cases hf : find m c <;> simp [lookup, hf, join]
    · rw [lookup_cons h0]
      cases hf : find m c with
      | none => simp
      | some it =>
        have hj : join cs ≠ [] := fun h => h0 ((join_ne_nil hc').1 h)
        simp only [if_neg hj]
        cases it with
        | param w t => exact absurd hf (passable_head hp h0 w t)
        | group g => exact ih j g hc' h0 (by omega) (passable_child hp hf)

theorem outward_cons_none {g : Map} {ps : List Map} {c : Name} (h : find g c = none) : outward (g :: ps) c = outward ps c := by
  unfold outward
  rw [List.dropWhile_cons_of_pos (by simp [h])]

theorem outward_cons_some {g : Map} {ps : List Map} {c : Name} {it : Item} (h : find g c = some it) : outward (g :: ps) c = g :: ps := by
  unfold outward
  rw [List.dropWhile_cons_of_neg (by simp [h])]

theorem resolve_cons_none {g : Map} {ps : List Map} {c : Name} {cs : List Name} (h : find g c = none) :
    resolve (g :: ps) (c :: cs) = resolve ps (c :: cs) := by
  conv => lhs; unfold resolve
  conv => rhs; unfold resolve
  rw [outward_cons_none h]

theorem resolve_cons_some {g : Map} {ps : List Map} {c : Name} {cs : List Name} {it : Item} (h : find g c = some it) :
    resolve (g :: ps) (c :: cs) = if cs = [] then .ok it else match (generalizing := false) it with | .param _ _ => .error .badCast | .group h => resolve (h :: g :: ps) cs := by
  conv => lhs; unfold resolve
  rw [outward_cons_some h]
  simp only [h]
  cases it <;> rfl

theorem resolve_nil (cs : List Name) : resolve [] cs = .error .notFound := by
  cases cs with
  | nil => rfl
  | cons c cs => simp [resolve, outward]

theorem get_resolve {α : Type} (tr : Item → P α) (k : Nat) : ∀ (cs : List Name) (g : Map) (ps : List Map), (∀ c ∈ cs, Comp c) → cs ≠ [] →
    ps.length + 2 * cs.length < k + 1 → get tr k g ps (join cs) = (resolve (g :: ps) cs >>= tr) := by
  induction k with
  | zero =>
    intro cs g ps _ h hk
    have := List.length_pos_of_ne_nil h
    omega
  | succ k ih =>
    intro cs g ps hc hne hk
    cases cs with
    | nil => exact absurd rfl hne
    | cons c cs =>
      have hc' : ∀ c ∈ cs, Comp c := fun x hx => hc x (List.mem_cons_of_mem _ hx)
      unfold get
      rw [split_join (hc c List.mem_cons_self)]
      simp only [List.length_cons] at hk ⊢
      cases hf : find g c with
      | none =>
        rw [resolve_cons_none hf]
        cases ps with
        | nil => rw [resolve_nil]; rfl
        | cons p ps => exact ih (c :: cs) p ps hc hne (by simp only [List.length_cons] at hk ⊢; omega)
      | some it =>
        rw [resolve_cons_some hf]
        by_cases h0 : cs = []
        · subst h0; simp [join]
        · have hj : join cs ≠ [] := fun h => h0 ((join_ne_nil hc').1 h)
          simp only [if_neg hj, if_neg h0]
          cases it with
          | param w t => rfl
          | group h => exact ih cs h (g :: ps) hc' h0 (by simp only [List.length_cons]; omega)

theorem getDefault_resolve {α : Type} (tr : Item → P α) (d : α) (chk : α → Bool) (k : Nat) : ∀ (cs : List Name) (g : Map) (ps : List Map),
    (∀ c ∈ cs, Comp c) → cs ≠ [] → ps.length + 2 * cs.length < k + 1 →
    getDefault tr d chk k g ps (join cs) = match resolve (g :: ps) cs with
      | .ok it => tr it
      | .error .notFound => if chk d then .ok d else .error .requirement
      | .error e => .error e := by
  induction k with
  | zero =>
    intro cs g ps _ h hk
    have := List.length_pos_of_ne_nil h
    omega
  | succ k ih =>
    intro cs g ps hc hne hk
    cases cs with
    | nil => exact absurd rfl hne
    | cons c cs =>
      have hc' : ∀ c ∈ cs, Comp c := fun x hx => hc x (List.mem_cons_of_mem _ hx)
      unfold getDefault
      rw [split_join (hc c List.mem_cons_self)]
      simp only [List.length_cons] at hk ⊢
      cases hf : find g c with
      | none =>
        rw [resolve_cons_none hf]
        cases ps with
        | nil => rw [resolve_nil]
        | cons p ps => exact ih (c :: cs) p ps hc hne (by simp only [List.length_cons] at hk ⊢; omega)
      | some it =>
        rw [resolve_cons_some hf]
        by_cases h0 : cs = []
        · subst h0; simp [join]
        · have hj : join cs ≠ [] := fun h => h0 ((join_ne_nil hc').1 h)
          simp only [if_neg hj, if_neg h0]
          cases it with
          | param w t => rfl
          | group h => exact ih cs h (g :: ps) hc' h0 (by simp only [List.length_cons]; omega)

/-- A path that exists is resolved to what is stored there. -/
theorem resolve_lookup (cs : List Name) : ∀ (m : Map) (ps : List Map) (it : Item), lookup m cs = some it → resolve (m :: ps) cs = .ok it := by
  induction cs with
  | nil => intro m ps it h; cases h
  | cons c cs ih =>
    intro m ps it h
    by_cases h0 : cs = []
    · subst h0
      have hf : find m c = some it := h
      rw [resolve_cons_some hf, if_pos rfl]
    · rw [lookup_cons h0] at h
      cases hf : find m c with
      | none => rw [hf] at h; cases h
      | some x =>
        rw [hf] at h
        cases x with
        | param w t => cases h
        | group g =>
          rw [resolve_cons_some hf, if_neg h0]
          exact ih g (m :: ps) it h

/-! ### More fuel -/

theorem skip_mono {k : Nat} : ∀ {p q : Name × Name} {k' : Nat}, skipEmpty k p = .ok q → k ≤ k' → skipEmpty k' p = .ok q := by
  induction k with
  | zero => intro p q k' h; cases h
  | succ k ih =>
    intro p q k' h hk
    obtain ⟨j, rfl⟩ : ∃ j, k' = j + 1 := ⟨k' - 1, by omega⟩
    unfold skipEmpty at h ⊢
    split
    · rename_i hp
      rw [if_pos hp] at h
      exact ih h (by omega)
    · rename_i hp
      rw [if_neg hp] at h
      exact h

theorem insert_mono {k : Nat} : ∀ {m m' : Map} {n v : Name} {k' : Nat}, insertParameter k m n v = .ok m' → k ≤ k' → insertParameter k' m n v = .ok m' := by
  induction k with
  | zero => intro m m' n v k' h; cases h
  | succ k ih =>
    intro m m' n v k' h hk
    obtain ⟨j, rfl⟩ : ∃ j, k' = j + 1 := ⟨k' - 1, by omega⟩
    unfold insertParameter at h ⊢
    cases hs : skipEmpty (k + 1) (split n) with
    | error e => rw [hs] at h; cases h
    | ok p =>
      rw [hs, bindP_ok] at h
      rw [skip_mono hs hk, bindP_ok]
      unfold insertBody at h ⊢
      cases hf : find m p.1 with
      | none =>
        simp only [hf] at h ⊢
        split
        · rename_i h0; rw [if_pos h0] at h; exact h
        · rename_i h0
          rw [if_neg h0] at h
          cases hr : insertParameter k [] p.2 v with
          | error e => rw [hr] at h; cases h
          | ok c => rw [hr] at h; rw [ih hr (by omega)]; exact h
      | some it =>
        simp only [hf] at h ⊢
        split
        · rename_i h0; rw [if_pos h0] at h; exact h
        · rename_i h0
          rw [if_neg h0] at h
          cases it with
          | param w t => exact h
          | group g =>
            simp only at h ⊢
            cases hr : insertParameter k g p.2 v with
            | error e => rw [hr] at h; cases h
            | ok c => rw [hr] at h; rw [ih hr (by omega)]; exact h

theorem insert_ok_eq {k : Nat} {m m' : Map} {n v : Name} {cs : List Name} (hs : Spells n cs) (h : insertParameter k m n v = .ok m') :
    Passable m cs ∧ m' = put v cs m := by
  have h' := insert_mono h (Nat.le_max_left k (n.length + 1))
  have hlt : n.length < max k (n.length + 1) := by omega
  by_cases hp : Passable m cs
  · rw [insert_put cs _ n m v hs hlt hp] at h'
    cases h'
    exact ⟨hp, rfl⟩
  · rw [insert_blocked cs _ n m v hs hlt hp] at h'
    cases h'

end Opm.Param
