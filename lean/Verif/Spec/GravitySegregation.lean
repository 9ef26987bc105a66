import Verif.Spec.Tof
/-!
# Gravity segregation in columns: specification
-/

namespace Opm

/-- The amounts `q` of the faces between cells `c` and `d`, counted from `c` to `d`. -/
def GridTopo.between (g : GridTopo) (q : List Rat) (c d : Nat) : Rat :=
  ∑ f ∈ Finset.range g.nf,
    if g.faceCells[2 * f]? = some (c : Int) ∧ g.faceCells[2 * f + 1]? = some (d : Int) then q.getD f 0
    else if g.faceCells[2 * f]? = some (d : Int) ∧ g.faceCells[2 * f + 1]? = some (c : Int) then -q.getD f 0
    else 0

/-- Cells `c` and `d` have at most one face in common. -/
def GridTopo.OneFace (g : GridTopo) (c d : Nat) : Prop :=
  ∀ f f', (g.Sides f (c : Int) (d : Int) ∨ g.Sides f (d : Int) (c : Int)) → (g.Sides f' (c : Int) (d : Int) ∨ g.Sides f' (d : Int) (c : Int)) → f = f'

/-- The mobility of two phases flowing through each other. -/
def counterMobility (w o : Rat) : Rat := w * o / (w + o)

/-- Water flowing from cell `c` at saturation `x` to cell `d` at saturation `y` because it is heavier (or lighter) than oil; the same volume of oil flows back.
`G < 0` drives water from `c` to `d`; the mobility of each phase is that of the cell it comes from. -/
def waterExchange (mob : Nat → Rat → Rat × Rat) (G : Rat) (c d : Nat) (x y : Rat) : Rat :=
  if G < 0 then -G * counterMobility (mob c x).1 (mob d y).2 else -(G * counterMobility (mob d y).1 (mob c x).2)

/-- What leaves the cell at position `p` of a column downwards. -/
def downwards (mob : Nat → Rat → Rat × Rat) (G : Nat → Nat → Rat) (cells : List Nat) (p : Nat) (x y : Nat → Rat) : Rat :=
  if p + 1 < cells.length then
    waterExchange mob (G (cells.getD p 0) (cells.getD (p + 1) 0)) (cells.getD p 0) (cells.getD (p + 1) 0) (x (cells.getD p 0)) (y (cells.getD (p + 1) 0))
  else 0

/-- What enters the cell at position `p` of a column from above. -/
def fromAbove (mob : Nat → Rat → Rat × Rat) (G : Nat → Nat → Rat) (cells : List Nat) (p : Nat) (x y : Nat → Rat) : Rat :=
  if 0 < p then
    waterExchange mob (G (cells.getD (p - 1) 0) (cells.getD p 0)) (cells.getD (p - 1) 0) (cells.getD p 0) (x (cells.getD (p - 1) 0)) (y (cells.getD p 0))
  else 0

/-- The implicit equation of segregation for the cell at position `p` of a column after a time step `dt`, as a residual in its saturation `s`: the change of the
saturation, plus (per pore volume) the water leaving downwards minus the water coming from above, with the saturations `y` in the cells above and below. -/
def segregationResidual (mob : Nat → Rat → Rat × Rat) (G : Nat → Nat → Rat) (pv : List Rat) (dt : Rat) (cells : List Nat) (p : Nat) (s0 : Rat) (y : Nat → Rat) (s : Rat) : Rat :=
  s - s0 + dt / pv.getD (cells.getD p 0) 0 * (downwards mob G cells p (fun _ => s) y - fromAbove mob G cells p y (fun _ => s))

/-- `s` is a zero of `R` as far as the tolerance tells: the residual is small, or `s` is in the middle of a tiny interval in which `R` changes its sign. -/
def NearZeroIn (lo hi tol : Rat) (R : Rat → Rat) (s : Rat) : Prop :=
  |R s| < tol + 1 / 2 ^ 52 * max |R lo| 1 ∨
    ∃ a b : Rat, (lo ≤ a ∧ a ≤ hi) ∧ (lo ≤ b ∧ b ≤ hi) ∧ R a * R b < 0 ∧ |b - a| < 1 / 10 ^ 9 * (tol + 1 / 2 ^ 52 * max (max |lo| |hi|) 1) ∧ s = (a + b) / 2

/-- The work of gravity per mass from the centre of cell `b` to that of cell `a`: negative if `b` is the lower cell. -/
def potentialDrop (dim : Nat) (grav centroids : List Rat) (a b : Nat) : Rat :=
  ∑ d ∈ Finset.range dim, grav.getD d 0 * (centroids.getD (dim * a + d) 0 - centroids.getD (dim * b + d) 0)

/-- The flows between neighbours depend on the saturations with Lipschitz constant `L`. -/
def LipschitzExchange (mob : Nat → Rat → Rat × Rat) (G : Nat → Nat → Rat) (lo hi : Nat → Rat) (L : Rat) (c d : Nat) : Prop :=
  ∀ x x' y y', lo c ≤ x → x ≤ hi c → lo c ≤ x' → x' ≤ hi c → lo d ≤ y → y ≤ hi d → lo d ≤ y' → y' ≤ hi d →
    |waterExchange mob (G c d) c d x y - waterExchange mob (G c d) c d x' y'| ≤ L * (|x - x'| + |y - y'|)

/-- In the `n` cells mobilities are not negative; water does not move at the smallest saturation and oil does not at the largest. -/
structure ProperMobilities (n : Nat) (mob : Nat → Rat → Rat × Rat) (lo hi : Nat → Rat) : Prop where
  order : ∀ c < n, lo c ≤ hi c
  nonneg : ∀ c < n, ∀ s, lo c ≤ s → s ≤ hi c → 0 ≤ (mob c s).1 ∧ 0 ≤ (mob c s).2
  water : ∀ c < n, (mob c (lo c)).1 = 0
  oil : ∀ c < n, (mob c (hi c)).2 = 0

end Opm
