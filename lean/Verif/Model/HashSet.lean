import Verif.Core.Mem
/-!
# Integer hash set

Models `opm/core/pressure/msmfem/hash_set.c`.  Memory allocation always succeeds, `size_t`
arithmetic does not wrap (table sizes stay below the word size), and the floating-point hash
`hash_set_idx` (`hash_set.c:70-77`) is a parameter `h` of the model: `h k m` is the slot number for key
`k` in a table of size `m`.
-/

namespace Opm.HashSet
open Opm

/-- `struct hash_set { size_t m; int *s; }`.  Models: `hash_set.h:31-34`. -/
structure Table where
  m : Nat
  s : List Int
  deriving DecidableEq, Repr

/-- `IS_POW2(x)`.  Models: `hash_set.c:33`. -/
def isPow2 (x : Nat) : Bool := x &&& (x - 1) == 0

/-- The `for (i = 1; i < CHAR_BIT * sizeof m; i <<= 1)` loop of `hash_set_size` on a 64-bit machine:
`i` takes the values `1, 2, 4, 8, 16, 32`.  Models: `hash_set.c:61-63`. -/
def smear (m : Nat) : Nat :=
  [1, 2, 4, 8, 16, 32].foldl (fun m i => m ||| (m >>> i)) m

/-- `hash_set_size(m)`.  Models: `hash_set.c:39-66`. -/
def hashSetSize (m : Nat) : Nat :=
  if m = 0 then 1
  else if isPow2 m then m
  else smear (m - 1) + 1

/-- The probing loop: at most `rem` further steps from slot `j`.  Models: `hash_set.c:102-105`. -/
def probe (k : Int) (m h2 : Nat) (s : List Int) : Nat → Nat → M Nat
  | 0, j => .ok j
  | rem + 1, j => do
    let x ← rd s j
    if x ≠ -1 ∧ x ≠ k then probe k m h2 s rem ((j + h2) &&& (m - 1)) else .ok j

/-- `hash_set_insert_core(k, m, s)`: returns the slot (or `m + 1`) and the table.
Models: `hash_set.c:82-114`. -/
def insertCore (h : Int → Nat → Nat) (k : Int) (m : Nat) (s : List Int) : M (Nat × List Int) := do
  check (decide (0 < m))
  check (isPow2 m)
  let h1 := h k m
  check (decide (h1 < m))
  let x ← rd s h1
  if x = -1 then do
    let s ← wr s h1 k
    .ok (h1, s)
  else if x = k then .ok (h1, s)
  else do
    let h2 := 2 * h k (max (m >>> 1) 1) + 1
    let j ← probe k m h2 s (m - 1) h1
    let y ← rd s j
    if y = -1 ∨ y = k then do
      let s ← wr s j k
      .ok (j, s)
    else .ok (m + 1, s)

/-- `hash_set_expand(m, t)`.  Models: `hash_set.c:119-151`. -/
def expand (h : Int → Nat → Nat) (m : Nat) (t : Table) : M Table := do
  check (decide (m > t.m))
  let s ← loop t.m (fun i s => do
    let k ← rd t.s i
    let r ← insertCore h k m s
    check (decide (r.1 < m))
    .ok r.2) (List.replicate m (-1))
  .ok { m := m, s := s }

/-- `hash_set_allocate(m)`.  Models: `hash_set.c:169-191`. -/
def allocate (m : Nat) : Table :=
  { m := hashSetSize m, s := List.replicate (hashSetSize m) (-1) }

/-- `hash_set_insert(k, t)`: returns the return value and the set.  Models: `hash_set.c:196-224`. -/
def insert (h : Int → Nat → Nat) (k : Int) (t : Table) : M (Int × Table) := do
  check (decide (k ≥ 0))
  check (isPow2 t.m)
  let r ← insertCore h k t.m t.s
  if r.1 = t.m + 1 then do
    let t' ← expand h (t.m <<< 1) t
    let r' ← insertCore h k t'.m t'.s
    check (decide (r'.1 < t'.m))
    .ok (k, { t' with s := r'.2 })
  else .ok (k, { t with s := r.2 })

/-- `hash_set_count_elms(set)`.  Models: `hash_set.c:228-240`. -/
def countElms (t : Table) : M Nat :=
  loop t.m (fun i n => do
    let x ← rd t.s i
    .ok (n + if x ≠ -1 then 1 else 0)) 0

/-- A sequence of insertions; collects the return values. -/
def insertAll (h : Int → Nat → Nat) : List Int → Table → M (List Int × Table)
  | [], t => .ok ([], t)
  | k :: ks, t => do
    let r ← insert h k t
    let rs ← insertAll h ks r.2
    .ok (r.1 :: rs.1, rs.2)

/-- `hash_set_idx(k, m)` with exact rational arithmetic instead of doubles: `fmod(k * GOLDEN_RAT, 1.0)`
scaled by `m` and rounded down.  Models: `hash_set.c:70-77`. -/
def hashIdx (k : Int) (m : Nat) : Nat :=
  let x : Rat := (k : Rat) * (6180339887498949 / 10000000000000000)
  ((m : Rat) * (x - (x.floor : Rat))).floor.toNat

end Opm.HashSet
