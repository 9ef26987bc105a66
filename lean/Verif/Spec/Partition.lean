/-!
# Vocabulary for partitions

Specification only; nothing here is part of the model.
-/

namespace Opm.Partition

/-- The `i`-th Cartesian index of the linear index `x` in a box of dimensions `dims` (first
dimension fastest). -/
def digit (dims : List Nat) (i x : Nat) : Nat :=
  x / (dims.take i).prod % dims.getD i 1

/-- `f` distributes the entities `0, …, size-1` over the bins `0, …, nbins-1`: in order, and every
bin gets `size / nbins` entities or one more. -/
structure Balanced (size nbins : Nat) (f : Nat → Nat) : Prop where
  range : ∀ i, i < size → f i < nbins
  mono : ∀ i j, i ≤ j → j < size → f i ≤ f j
  count : ∀ b, b < nbins → (List.range size).countP (fun i => f i = b) = size / nbins ∨
    (List.range size).countP (fun i => f i = b) = size / nbins + 1

end Opm.Partition
