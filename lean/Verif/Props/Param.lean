import Verif.Proofs.ParamFile
/-!
# Property theorems for parameter groups (C30, C31, C32, C54, C55)
-/

namespace Opm.Param

/-! ### C30: insertion and retrieval -/

/-- **C30.**  Inserting a parameter under a name that spells the path `cs` (not leading through a plain parameter) succeeds; then the
parameter is stored at `cs`, `get` and `has` find it there (from any context of enclosing groups), groups lead to it, nothing is
below it, and all paths that are neither extensions nor beginnings of `cs` keep their contents. -/
theorem inserted_parameter_is_found (n : Name) (cs : List Name) (v : Name) (m : Map) (hn : Spells n cs) (hp : Passable m cs) :
    ∃ m', (∀ k, n.length < k → insertParameter k m n v = .ok m') ∧
      value m' cs = some v ∧
      (∀ k ps, ps.length + 2 * cs.length < k → get toStr k m' ps (join cs) = .ok v) ∧
      (∀ k, cs.length < k → has k m' (join cs) = .ok true) ∧
      (∀ ds, ¬ cs <+: ds → ¬ ds <+: cs → lookup m' ds = lookup m ds) ∧
      (∀ ds, ds ≠ [] → ds <+: cs → ds ≠ cs → ∃ g, lookup m' ds = some (.group g)) ∧
      (∀ ds, cs <+: ds → ds ≠ cs → lookup m' ds = none) := by
  have h0 := hn.ne_nil.2
  have hc := hn.comps
  have hself := lookup_put_self v cs h0 m
  have hpass : Passable (put v cs m) cs := by
    intro p q w t hpq hp0 hq0 hl
    subst hpq
    obtain ⟨g, hg⟩ := lookup_put_above v p hp0 q m hq0
    rw [hg] at hl
    cases hl
  refine ⟨put v cs m, fun k hk => insert_put cs k n m v hn hk hp, ?_, ?_, ?_, ?_, ?_, ?_⟩
  · unfold value; rw [hself]
  · intro k ps hk
    rw [get_resolve toStr k cs _ ps hc h0 (by omega), resolve_lookup cs _ ps _ hself]
    rfl
  · intro k hk
    rw [has_lookup cs k _ hc h0 (by omega) hpass, hself]
    rfl
  · exact fun ds h1 h2 => lookup_put_other v cs ds m hp h1 h2
  · rintro ds hd ⟨q, rfl⟩ hne
    exact lookup_put_above v ds hd q m (by rintro rfl; exact hne (by simp))
  · rintro ds ⟨q, rfl⟩ hne
    exact lookup_put_below v cs q h0 (by rintro rfl; exact hne (by simp)) m

/-- A sequence of insertions. -/
def insertAll (k : Nat) (l : List (Name × Name)) (m : Map) : P Map := l.foldlM (fun m nv => insertParameter k m nv.1 nv.2) m

/-- Two paths of which neither is a beginning of the other. -/
def Unrelated (a b : List Name) : Prop := ¬ a <+: b ∧ ¬ b <+: a

theorem insertAll_keeps {k : Nat} {cs : List Name} {it : Item} : ∀ (l : List (Name × Name)) (m m' : Map),
    (∀ x ∈ l, ∃ ds, Spells x.1 ds ∧ Unrelated ds cs) → lookup m cs = some it → insertAll k l m = .ok m' → lookup m' cs = some it := by
  intro l
  induction l with
  | nil => intro m m' _ h e; cases e; exact h
  | cons x l ih =>
    intro m m' hl h e
    unfold insertAll at e ih
    rw [List.foldlM_cons] at e
    obtain ⟨ds, hs, hu1, hu2⟩ := hl x List.mem_cons_self
    cases hx : insertParameter k m x.1 x.2 with
    | error f => rw [hx] at e; cases e
    | ok t =>
      rw [hx, bindP_ok] at e
      obtain ⟨hp, rfl⟩ := insert_ok_eq hs hx
      exact ih _ m' (fun y hy => hl y (List.mem_cons_of_mem _ hy)) (by rw [lookup_put_other x.2 ds cs m hp hu1 hu2]; exact h) e

/-- **C30.**  The last insertion at a path wins: after any sequence of insertions, a path holds the value of its last insertion,
provided the later ones are at unrelated paths. -/
theorem last_insertion_wins (k : Nat) (before later : List (Name × Name)) (n v : Name) (cs : List Name) (m m' : Map) (hn : Spells n cs)
    (hl : ∀ x ∈ later, ∃ ds, Spells x.1 ds ∧ Unrelated ds cs) (h : insertAll k (before ++ (n, v) :: later) m = .ok m') :
    value m' cs = some v := by
  unfold insertAll at h
  rw [List.foldlM_append] at h
  cases hb : insertAll k before m with
  | error e => unfold insertAll at hb; rw [hb] at h; cases h
  | ok t =>
    unfold insertAll at hb
    rw [hb, bindP_ok, List.foldlM_cons] at h
    cases hx : insertParameter k t n v with
    | error e => rw [hx] at h; cases h
    | ok u =>
      rw [hx, bindP_ok] at h
      obtain ⟨_, rfl⟩ := insert_ok_eq hn hx
      have := insertAll_keeps later _ m' hl (lookup_put_self v cs hn.ne_nil.2 t) h
      unfold value
      rw [this]

/-- **C30.**  `has` says whether something is stored at exactly the given path. -/
theorem has_iff_stored (k : Nat) (m : Map) (cs : List Name) (hc : ∀ c ∈ cs, Comp c) (h0 : cs ≠ []) (hk : cs.length < k) (hp : Passable m cs) :
    has k m (join cs) = .ok (lookup m cs).isSome := has_lookup cs k m hc h0 (by omega) hp

/-- **C30, limit.**  A name with an empty component can be inserted but is not found under the same name: `insertParameter` skips
empty components, `get` and `has` do not. -/
theorem leading_slash_is_not_found :
    ∃ m', (∀ k, 2 < k → insertParameter k [] "/a".toList "1".toList = .ok m') ∧ (∀ k, 0 < k → get toStr k m' [] "/a".toList = .error .notFound) ∧
      ∀ k, 0 < k → has k m' "/a".toList = .ok false := by
  have hs : Spells "/a".toList ["a".toList] := .lead (.single ⟨by decide, by decide⟩)
  refine ⟨put "1".toList ["a".toList] [], fun k hk => insert_put _ k _ [] _ hs (by simpa using hk) (passable_empty _), ?_, ?_⟩
  · intro k hk
    obtain ⟨j, rfl⟩ : ∃ j, k = j + 1 := ⟨k - 1, by omega⟩
    rfl
  · intro k hk
    obtain ⟨j, rfl⟩ : ∃ j, k = j + 1 := ⟨k - 1, by omega⟩
    rfl

/-! ### C31: termination -/

/-- **C31 (partial).**  For names that spell a path the insertion returns (normally, or by an exception if the path leads through a
plain parameter).  Missing for the full claim: other names, see `insertion_hangs`. -/
theorem insertion_terminates_partial (n : Name) (cs : List Name) (hn : Spells n cs) (m : Map) (v : Name) (k : Nat) (hk : n.length < k) :
    insertParameter k m n v ≠ .error .hang := by
  by_cases hp : Passable m cs
  · rw [insert_put cs k n m v hn hk hp]
    intro h; cases h
  · rw [insert_blocked cs k n m v hn hk hp]
    intro h; cases h

/-- **C31, negative part.**  For every other name the insertion into an empty group never returns, and into any group it never
returns normally. -/
theorem insertion_hangs (n : Name) (hn : ∀ cs, ¬ Spells n cs) (v : Name) :
    (∀ k, insertParameter k [] n v = .error .hang) ∧ ∀ k m m', insertParameter k m n v ≠ .ok m' := by
  constructor
  · intro k
    rcases insert_unspelled k n [] v hn with h | ⟨_, h⟩
    · exact h
    · exact absurd rfl h
  · intro k m m' he
    rcases insert_unspelled k n m v hn with h | ⟨h, _⟩
    · rw [h] at he; cases he
    · rw [h] at he; cases he

/-- **C31.**  The names that spell a path are those that contain something else than slashes and do not end in two slashes. -/
theorem spells_iff (n : Name) : (∃ cs, Spells n cs) ↔ (∃ c ∈ n, c ≠ '/') ∧ ¬ ['/', '/'] <:+ n := by
  constructor
  · rintro ⟨cs, h⟩
    have hcomp : ∀ {c : Name}, Comp c → ∃ x ∈ c, x ≠ '/' := by
      intro c hc
      obtain ⟨x, c', rfl⟩ := List.exists_cons_of_ne_nil hc.1
      exact ⟨x, List.mem_cons_self, fun e => hc.2 (by rw [e]; exact List.mem_cons_self)⟩
    induction h with
    | @single c hc =>
      refine ⟨hcomp hc, ?_⟩
      rintro ⟨r, rfl⟩
      exact hc.2 (by simp)
    | @trailing c hc =>
      refine ⟨?_, ?_⟩
      · obtain ⟨x, hx, h⟩ := hcomp hc
        exact ⟨x, List.mem_append_left _ hx, h⟩
      · rintro ⟨r, hr⟩
        have : r ++ ['/', '/'] = (r ++ ['/']) ++ ['/'] := by simp
        rw [this] at hr
        have := (List.append_inj' hr rfl).1
        exact hc.2 (by rw [← this]; simp)
    | @lead n cs hn ih =>
      obtain ⟨⟨x, hx, h⟩, h2⟩ := ih
      refine ⟨⟨x, List.mem_cons_of_mem _ hx, h⟩, ?_⟩
      intro hs
      rcases List.suffix_cons_iff.1 hs with h3 | h3
      · have : n = ['/'] := by injection h3 with _ h3; exact h3.symm
        subst this
        rw [List.mem_singleton] at hx
        exact h hx
      · exact h2 h3
    | @cons c n cs hc hn ih =>
      obtain ⟨⟨x, hx, h⟩, h2⟩ := ih
      refine ⟨⟨x, List.mem_append_right _ (List.mem_cons_of_mem _ hx), h⟩, ?_⟩
      intro hs
      have hlen : ['/', '/'].length ≤ ('/' :: n).length := by
        have := List.length_pos_of_ne_nil hn.ne_nil.1
        simp only [List.length_cons, List.length_nil]; omega
      have hs' : ['/', '/'] <:+ '/' :: n := List.suffix_of_suffix_length_le hs (List.suffix_append _ _) hlen
      rcases List.suffix_cons_iff.1 hs' with h3 | h3
      · have : n = ['/'] := by injection h3 with _ h3; exact h3.symm
        subst this
        rw [List.mem_singleton] at hx
        exact h hx
      · exact h2 h3
  · intro h
    induction hl : n.length using Nat.strongRecOn generalizing n with
    | _ L ih =>
      obtain ⟨⟨x, hx, hxs⟩, hsuf⟩ := h
      rcases name_cases n with hn | ⟨c, r, hc, rfl⟩
      · exact ⟨[n], .single ⟨List.ne_nil_of_mem hx, hn⟩⟩
      · by_cases hr : r = []
        · subst hr
          have hc0 : c ≠ [] := by
            rintro rfl
            rw [List.nil_append, List.mem_singleton] at hx
            exact hxs hx
          exact ⟨[c], .trailing ⟨hc0, hc⟩⟩
        · have hsr : ¬ ['/', '/'] <:+ r := fun h => hsuf (h.trans ((List.suffix_cons _ _).trans (List.suffix_append _ _)))
          have hxr : ∃ y ∈ r, y ≠ '/' := by
            by_contra hcon
            have hall : ∀ y ∈ r, y = '/' := by
              intro y hy
              by_contra hne
              exact hcon ⟨y, hy, hne⟩
            -- then the name ends in two slashes
            apply hsuf
            obtain ⟨r', y, rfl⟩ : ∃ r' y, r = r' ++ [y] := ⟨r.dropLast, r.getLast hr, (List.dropLast_append_getLast hr).symm⟩
            have hy : y = '/' := hall y (by simp)
            subst hy
            have hlast : ∃ s, '/' :: r' = s ++ ['/'] := by
              rcases List.eq_nil_or_concat r' with h | ⟨s, z, h⟩
              · exact ⟨[], by rw [h]; rfl⟩
              · refine ⟨'/' :: s, ?_⟩
                have hz : z = '/' := hall z (by rw [h]; simp)
                rw [h, hz]; simp
            obtain ⟨s, hs⟩ := hlast
            refine ⟨c ++ s, ?_⟩
            rw [show c ++ '/' :: (r' ++ ['/']) = c ++ ('/' :: r') ++ ['/'] by simp, hs]
            simp
          obtain ⟨cs, hcs⟩ := ih r.length (by rw [← hl]; simp; omega) r ⟨hxr, hsr⟩ rfl
          by_cases hc0 : c = []
          · subst hc0; exact ⟨cs, .lead hcs⟩
          · exact ⟨c :: cs, .cons ⟨hc0, hc⟩ hcs⟩

/-- **C31, negative part.**  A blank line at the start of a parameter file makes the reader hang. -/
theorem blank_line_hangs (rest : Name) (k : Nat) : readParam k ('\n' :: rest) [] = .error .hang := by
  have hno : ∀ cs, ¬ Spells [] cs := fun cs h => h.ne_nil.1 rfl
  unfold readParam getLines readLines
  rw [if_pos rfl, List.reverse_nil, List.foldlM_cons]
  have : parseLine [] = some ([], []) := by decide
  rw [this]
  simp only
  rw [(insertion_hangs [] hno []).1 k]
  rfl

/-- **C31 (partial).**  Reading a file terminates if every line is a comment, has several `=`, or has a name that spells a path. -/
theorem reading_terminates_partial (k : Nat) (text : Name) (m : Map)
    (h : ∀ l ∈ getLines [] text, ∀ nv, parseLine l = some nv → (∃ cs, Spells nv.1 cs) ∧ nv.1.length < k) :
    readParam k text m ≠ .error .hang := by
  unfold readParam readLines
  generalize getLines [] text = ls at h
  induction ls generalizing m with
  | nil => intro h; cases h
  | cons l ls ih =>
    rw [List.foldlM_cons]
    have ih' := fun m => ih m (fun x hx => h x (List.mem_cons_of_mem _ hx))
    have hl := h l List.mem_cons_self
    cases hp : parseLine l with
    | none => exact ih' m
    | some nv =>
      obtain ⟨⟨cs, hcs⟩, hk⟩ := hl nv hp
      simp only
      have := insertion_terminates_partial nv.1 cs hcs m nv.2 k hk
      cases hi : insertParameter k m nv.1 nv.2 with
      | error e =>
        rw [hi] at this
        intro h
        exact this h
      | ok t => exact ih' t

/-! ### C32: lookup in enclosing groups -/

/-- **C32.**  A query of any depth is resolved outward: every component is taken from the innermost enclosing group that has it. -/
theorem get_resolves_outward {α : Type} (tr : Item → P α) (k : Nat) (cs : List Name) (g : Map) (ps : List Map) (hc : ∀ c ∈ cs, Comp c) (h0 : cs ≠ [])
    (hk : ps.length + 2 * cs.length < k) : get tr k g ps (join cs) = (resolve (g :: ps) cs >>= tr) :=
  get_resolve tr k cs g ps hc h0 (by omega)

/-- **C32.**  A simple name found in the group or an enclosing one, at distance `i` and not nearer, is taken from there. -/
theorem get_takes_innermost {α : Type} (tr : Item → P α) (k : Nat) (c : Name) (hc : Comp c) (g : Map) (ps : List Map) (hk : ps.length + 2 < k)
    (i : Nat) (h : Map) (it : Item) (hi : (g :: ps)[i]? = some h) (hf : find h c = some it) (hnear : ∀ j h', j < i → (g :: ps)[j]? = some h' → find h' c = none) :
    get tr k g ps c = tr it := by
  have e := get_resolve tr k [c] g ps (by simpa using hc) (by simp) (by simp only [List.length_singleton]; omega)
  rw [show join [c] = c from rfl] at e
  rw [e]
  have : ∀ (i : Nat) (st : List Map), st[i]? = some h → (∀ j h', j < i → st[j]? = some h' → find h' c = none) → resolve st [c] = .ok it := by
    intro i
    induction i with
    | zero =>
      intro st hi _
      cases st with
      | nil => cases hi
      | cons a st =>
        cases hi
        rw [resolve_cons_some hf, if_pos rfl]
    | succ i ih =>
      intro st hi hn
      cases st with
      | nil => cases hi
      | cons a st =>
        rw [resolve_cons_none (hn 0 a (by omega) rfl)]
        exact ih st hi (fun j h' hj hh => hn (j + 1) h' (by omega) hh)
  rw [this i _ hi hnear]
  rfl

/-- **C32.**  A simple name that neither the group nor an enclosing one defines is not found. -/
theorem get_fails_iff_undefined (k : Nat) (c : Name) (hc : Comp c) (g : Map) (ps : List Map) (hk : ps.length + 2 < k) (tr : Item → P Name)
    (htr : ∀ it, tr it ≠ .error .notFound) : get tr k g ps c = .error .notFound ↔ ∀ h ∈ g :: ps, find h c = none := by
  have e := get_resolve tr k [c] g ps (by simpa using hc) (by simp) (by simp only [List.length_singleton]; omega)
  rw [show join [c] = c from rfl] at e
  rw [e]
  generalize g :: ps = st
  induction st with
  | nil => simp [resolve_nil]
  | cons a st ih =>
    cases hf : find a c with
    | none =>
      rw [resolve_cons_none hf]
      exact ih.trans (by simp [hf])
    | some it =>
      rw [resolve_cons_some hf, if_pos rfl, bindP_ok]
      constructor
      · intro h; exact absurd h (htr it)
      · intro h
        have := h a List.mem_cons_self
        rw [hf] at this; cases this

/-- **C32.**  `getDefault` agrees with `get` except that the default (if it meets the requirement) replaces "not found". -/
theorem getDefault_defaults_iff_not_found {α : Type} (conv : Item → P α) (chk : α → Bool) (d : α) (k : Nat) (cs : List Name) (g : Map) (ps : List Map)
    (hc : ∀ c ∈ cs, Comp c) (h0 : cs ≠ []) (hk : ps.length + 2 * cs.length < k) (hconv : ∀ it, conv it ≠ .error .notFound) :
    (get (translate conv chk) k g ps (join cs) = .error .notFound →
      getDefault (translate conv chk) d chk k g ps (join cs) = if chk d then .ok d else .error .requirement) ∧
    (get (translate conv chk) k g ps (join cs) ≠ .error .notFound →
      getDefault (translate conv chk) d chk k g ps (join cs) = get (translate conv chk) k g ps (join cs)) := by
  rw [get_resolve _ k cs g ps hc h0 (by omega), getDefault_resolve _ d chk k cs g ps hc h0 (by omega)]
  cases hr : resolve (g :: ps) cs with
  | ok it =>
    simp only [bindP_ok]
    have : translate conv chk it ≠ .error .notFound := by
      unfold translate
      have := hconv it
      cases hcv : conv it with
      | error e =>
        rw [hcv] at this
        exact fun h => this (by cases h; rfl)
      | ok v =>
        simp only [bindP_ok]
        split
        · intro h; cases h
        · intro h; cases h
    exact ⟨fun h => absurd h this, fun _ => trivial⟩
  | error e =>
    have he : (Except.error e >>= translate conv chk : P α) = .error e := rfl
    rw [he]
    cases e <;> first | exact ⟨fun _ => rfl, fun h => absurd rfl h⟩ | exact ⟨fun h => (by cases h), fun _ => rfl⟩

/-! ### C54: parameter files -/

/-- **C54.**  Writing a non-empty group to a file and reading the file into an empty group gives the same parameters, provided names
and values are free of the characters with a meaning in the file. -/
theorem file_round_trip (m : Map) (hs : SafeItems m) (h0 : m ≠ []) :
    ∃ K m', (∀ k, K ≤ k → readParam k (writeParam m) [] = .ok m') ∧ ∀ cs, value m' cs = value m cs := by
  have hsafe := leaves_safe m [] hs (by simp)
  have hmem : ∀ x v, (x, v) ∈ leaves [] m ↔ value m x = some v := by
    intro x v
    rw [mem_leaves [] m hs x v]
    simp
  have hnl : ∀ l ∈ (leaves [] m).map line, '\n' ∉ l := by
    intro l hl
    obtain ⟨x, hx, rfl⟩ := List.mem_map.1 hl
    obtain ⟨h1, h2⟩ := hsafe x hx
    unfold line
    rw [List.mem_append, List.mem_cons]
    rintro (h | h | h)
    · unfold pathStr at h
      rw [List.mem_flatMap] at h
      obtain ⟨c, hc, hm⟩ := h
      rcases List.mem_cons.1 hm with hm | hm
      · exact absurd hm (by decide)
      · exact (h1 c hc).2.2 hm
    · exact absurd h (by decide)
    · exact h2.2.2 h
  have hread : ∀ k, readParam k (writeParam m) [] = readLines k ((leaves [] m).map line) [] := by
    intro k
    unfold readParam writeParam
    rw [writeLines_leaves hs h0, getLines_text hnl]
  -- one fuel for all names
  obtain ⟨K, hK⟩ : ∃ K, ∀ x ∈ leaves [] m, (pathStr x.1).length < K := by
    generalize leaves [] m = L
    induction L with
    | nil => exact ⟨0, by simp⟩
    | cons x L ih =>
      obtain ⟨K, hK⟩ := ih
      refine ⟨max K ((pathStr x.1).length + 1), ?_⟩
      intro y hy
      rcases List.mem_cons.1 hy with rfl | hy
      · omega
      · have := hK y hy; omega
  obtain ⟨m', e, hm⟩ := read_leaves K (leaves [] m) (m := m) (fun x hx => (hmem x.1 x.2).1 hx) hsafe hK
  refine ⟨K, m', ?_, ?_⟩
  · intro k hk
    rw [hread]
    -- reading is independent of the fuel
    have : ∀ (ls : List Name) (a b : Map), readLines K ls a = .ok b → readLines k ls a = .ok b := by
      intro ls
      induction ls with
      | nil => intro a b h; exact h
      | cons l ls ih =>
        intro a b h
        unfold readLines at h ih ⊢
        rw [List.foldlM_cons] at h ⊢
        cases hp : parseLine l with
        | none => rw [hp] at h; exact ih a b h
        | some nv =>
          rw [hp] at h
          simp only at h ⊢
          cases hi : insertParameter K a nv.1 nv.2 with
          | error f => rw [hi] at h; cases h
          | ok t =>
            rw [hi] at h
            rw [insert_mono hi hk]
            exact ih t b h
    exact this _ _ _ e
  · intro cs
    cases hv : value m cs with
    | some v => exact (hm cs v).2 ((hmem cs v).2 hv)
    | none =>
      cases hv' : value m' cs with
      | none => rfl
      | some v =>
        have := (hmem cs v).1 ((hm cs v).1 hv')
        rw [hv] at this; cases this

/-- **C54, limit.**  A value that contains `//` is cut when it is read back; an empty group comes back with a parameter `dummy`. -/
theorem file_round_trip_limits :
    (∃ m', readParam 20 (writeParam [("url".toList, .param "a//b".toList cmdline)]) [] = .ok m' ∧ value m' ["url".toList] = some "a".toList) ∧
    (∃ m', readParam 20 (writeParam []) [] = .ok m' ∧ value m' ["dummy".toList] = some "0".toList) :=
  ⟨⟨_, rfl, by decide⟩, ⟨_, rfl, by decide⟩⟩

/-! ### C55: the command line -/

theorem classify_append (a b : List Name) : (classify (a ++ b)).2 = (classify a).2 ++ (classify b).2 := by
  unfold classify
  simp

/-- **C55.**  A command line assignment `name=value` overrides whatever the parameter files contain, wherever it stands on the
command line, unless a later assignment touches the same path. -/
theorem command_line_overrides (k : Nat) (readFile : Name → Map → P Map) (before later : List Name) (n v : Name) (cs : List Name) (m m' : Map)
    (hn : Spells n cs) (hn' : '=' ∉ n) (hv : '=' ∉ v)
    (hl : ∀ x ∈ (classify later).2, ∃ ds, Spells x.1 ds ∧ Unrelated ds cs)
    (h : parseCommandLine k readFile (before ++ (n ++ '=' :: v) :: later) m = .ok m') : value m' cs = some v := by
  have hpa : parseAssignment (n ++ '=' :: v) = some (n, v) := by
    unfold parseAssignment
    rw [findSub_eq hn']
    simp only
    have hdrop : (n ++ '=' :: v).drop (n.length + 1) = v := by
      rw [List.drop_append]; simp
    rw [hdrop, findSub_eq_none hv]
    simp only
    rw [List.take_left]
  have hcl : (classify (before ++ (n ++ '=' :: v) :: later)).2 = (classify before).2 ++ (n, v) :: (classify later).2 := by
    rw [classify_append]
    congr 1
    unfold classify
    simp only
    rw [List.filterMap_cons, findSub_eq hn']
    simp [hpa]
  unfold parseCommandLine at h
  cases hf : (classify (before ++ (n ++ '=' :: v) :: later)).1.foldlM (fun m f => readFile f m) m with
  | error e => rw [hf] at h; cases h
  | ok t =>
    rw [hf, bindP_ok, hcl] at h
    exact last_insertion_wins k _ _ n v cs t m' hn hl h

/-! ### Concrete cases -/

/-- A tree `{ x = 1, grp = { y = 2, sub = { z = 3 } } }`. -/
def demo : Map :=
  [("grp".toList, .group [("sub".toList, .group [("z".toList, .param "3".toList cmdline)]), ("y".toList, .param "2".toList cmdline)]),
   ("x".toList, .param "1".toList cmdline)]

example : Spells "grp//new/p".toList ["grp".toList, "new".toList, "p".toList] :=
  .cons (c := "grp".toList) ⟨by decide, by decide⟩ (.lead (.cons (c := "new".toList) ⟨by decide, by decide⟩ (.single ⟨by decide, by decide⟩)))

theorem passable_dec {m : Map} {cs : List Name} (h : ∀ i, i < cs.length → 0 < i → value m (cs.take i) = none) : Passable m cs := by
  intro p q v t hpq hp hq hl
  have hlen := congrArg List.length hpq
  rw [List.length_append] at hlen
  have h1 := List.length_pos_of_ne_nil hp
  have h2 := List.length_pos_of_ne_nil hq
  have := h p.length (by omega) h1
  rw [hpq, List.take_left] at this
  unfold value at this
  rw [hl] at this
  cases this

example : Passable demo ["grp".toList, "new".toList, "p".toList] := passable_dec (by decide)
example : ∃ m', insertParameter 20 demo "grp//new/p".toList "7".toList = .ok m' ∧ value m' ["grp".toList, "new".toList, "p".toList] = some "7".toList ∧
    value m' ["grp".toList, "y".toList] = some "2".toList := ⟨_, rfl, by decide, by decide⟩
example : ¬ Passable demo ["x".toList, "y".toList] := fun h => h ["x".toList] ["y".toList] _ _ rfl (by decide) (by decide) rfl
example : insertParameter 20 demo "x/y".toList "7".toList matches .error .badCast := by decide
/-- `grp/sub/x` is not there, but `x` is found in an enclosing group. -/
example : get toStr 20 demo [] "grp/sub/x".toList = .ok "1".toList := by rfl
example : getDefault toStr "9".toList (fun _ => true) 20 demo [] "grp/sub/w".toList = .ok "9".toList := by rfl
example : has 20 demo "grp/sub/x".toList = .ok false := by rfl
example : SafeItems demo := by
  have sv : ∀ c : Char, c ≠ '=' → c ≠ '\n' → SafeVal [c] := by
    intro c h1 h2
    refine ⟨by simpa using h1.symm, ?_, by simpa using h2.symm⟩
    intro h
    have := h.length_le
    simp at this
  simp only [demo, SafeItems, SafeItem, SafeKey, Comp]
  refine ⟨by decide, by simp, ⟨by simp, by decide, by simp, ⟨by simp, by decide, by simp, sv '3' (by decide) (by decide), trivial⟩, by decide, by simp,
    sv '2' (by decide) (by decide), trivial⟩, by decide, by simp, sv '1' (by decide) (by decide), trivial⟩
example : (∃ cs, Spells "a//".toList cs) = False := by
  rw [spells_iff]; simp
example : ∃ m', parseCommandLine 20 (fun _ m => insertParameter 20 m "a/b".toList "file".toList) ["a/b=cmd".toList, "f.param".toList] [] = .ok m' ∧
    value m' ["a".toList, "b".toList] = some "cmd".toList := ⟨_, rfl, by decide⟩
example : writeParam demo = "/grp/sub/z=3\n/grp/y=2\n/x=1\n".toList := by decide

end Opm.Param
