import Verif.Spec.Geometry
import Mathlib.Algebra.Order.Field.Rat
import Mathlib.Tactic.Ring
import Mathlib.Tactic.Linarith
import Mathlib.Tactic.FieldSimp
import Mathlib.Tactic.Abel
import Mathlib.Tactic.LinearCombination
/-!
# Vectors, polygons and closed surfaces
-/

namespace Opm.Geometry
open Opm V3

namespace V3
variable (a b c : V3) (r s : Rat)
@[simp] theorem zero_x : (0 : V3).x = 0 := rfl
@[simp] theorem zero_y : (0 : V3).y = 0 := rfl
@[simp] theorem zero_z : (0 : V3).z = 0 := rfl
@[simp] theorem add_x : (a + b).x = a.x + b.x := rfl
@[simp] theorem add_y : (a + b).y = a.y + b.y := rfl
@[simp] theorem add_z : (a + b).z = a.z + b.z := rfl
@[simp] theorem sub_x : (a - b).x = a.x - b.x := rfl
@[simp] theorem sub_y : (a - b).y = a.y - b.y := rfl
@[simp] theorem sub_z : (a - b).z = a.z - b.z := rfl
@[simp] theorem neg_x : (-a).x = -a.x := rfl
@[simp] theorem neg_y : (-a).y = -a.y := rfl
@[simp] theorem neg_z : (-a).z = -a.z := rfl
@[simp] theorem smul_x : (smul r a).x = r * a.x := rfl
@[simp] theorem smul_y : (smul r a).y = r * a.y := rfl
@[simp] theorem smul_z : (smul r a).z = r * a.z := rfl
@[simp] theorem cross_x : (cross a b).x = a.y * b.z - a.z * b.y := rfl
@[simp] theorem cross_y : (cross a b).y = a.z * b.x - a.x * b.z := rfl
@[simp] theorem cross_z : (cross a b).z = a.x * b.y - a.y * b.x := rfl

instance : AddCommGroup V3 where
  add_assoc a b c := by ext <;> simp <;> ring
  zero_add a := by ext <;> simp
  add_zero a := by ext <;> simp
  add_comm a b := by ext <;> simp <;> ring
  neg_add_cancel a := by ext <;> simp
  sub_eq_add_neg a b := by ext <;> simp <;> ring
  nsmul := nsmulRec
  zsmul := zsmulRec

theorem smul_add' : smul r (a + b) = smul r a + smul r b := by ext <;> simp <;> ring
theorem smul_zero' : smul r 0 = 0 := by ext <;> simp
theorem smul_neg' : smul r (-a) = -smul r a := by ext <;> simp
theorem smul_smul' : smul r (smul s a) = smul (r * s) a := by ext <;> simp <;> ring
theorem one_smul' : smul 1 a = a := by ext <;> simp
theorem dot_add' : dot (a + b) c = dot a c + dot b c := by simp [dot]; ring
theorem dot_zero' : dot 0 c = 0 := by simp [dot]

/-- `smul` as a homomorphism. -/
def smulHom (r : Rat) : V3 →+ V3 := ⟨⟨smul r, smul_zero' r⟩, fun a b => smul_add' a b r⟩

theorem smul_sum (r : Rat) (l : List V3) : smul r l.sum = (l.map (smul r)).sum := map_list_sum (smulHom r) l

theorem dot_sum (c : V3) (l : List V3) : dot l.sum c = (l.map (fun a => dot a c)).sum := by
  induction l with
  | nil => exact dot_zero' c
  | cons a l ih => rw [List.sum_cons, dot_add', ih, List.map_cons, List.sum_cons]

end V3

theorem foldl_add (l : List V3) (s : V3) : l.foldl (· + ·) s = s + l.sum := by
  induction l generalizing s with
  | nil => simp
  | cons a l ih => rw [List.foldl_cons, ih, List.sum_cons, add_assoc]

theorem mean_eq {l : List V3} (h : l ≠ []) : mean l = .ok (centre l) := by
  unfold mean centre
  rw [if_neg (by simpa using h), foldl_add, zero_add]

theorem fan_map (f : V3 → V3) (u : V3) (l : List V3) : fan (f u) (l.map f) = (fan u l).map (fun e => (f e.1, f e.2)) := by
  induction l generalizing u with
  | nil => rfl
  | cons v l ih => rw [List.map_cons, fan, fan, List.map_cons, ih]

theorem fan_zip (u : V3) (l : List V3) : fan u l = (u :: l).zip l := by
  induction l generalizing u with
  | nil => rfl
  | cons v l ih => rw [fan, List.zip_cons_cons, ih]

theorem fan_edges {l : List V3} (h : l ≠ []) (x : V3) : fan (l.getLastD 0 - x) (l.map (· - x)) = (edges l).map (fun e => (e.1 - x, e.2 - x)) := by
  rw [fan_map (· - x), fan_zip, edges]
  cases e : l.getLast? with
  | none => exact absurd (List.getLast?_eq_none_iff.1 e) h
  | some p => rw [List.getLastD_eq_getLast?, e]; rfl

theorem fst_zip {α : Type} (u : α) (l : List α) : ((u :: l).zip l).map Prod.fst = (u :: l).take l.length := by
  induction l generalizing u with
  | nil => rfl
  | cons v l ih => rw [List.zip_cons_cons, List.map_cons, ih, List.length_cons, List.take_succ_cons]

/-- In a closed polygon each point is as often the beginning of a side as the end of one. -/
theorem edges_ends {α : Type} (l : List α) : ((edges l).map Prod.fst).Perm ((edges l).map Prod.snd) := by
  unfold edges
  cases e : l.getLast? with
  | none => exact List.Perm.nil
  | some p =>
    dsimp only
    rw [fst_zip, List.map_snd_zip (by simp)]
    obtain ⟨m, rfl⟩ := List.getLast?_eq_some_iff.1 e
    rw [List.length_append, List.length_singleton, List.take_succ_cons, List.take_left]
    exact (List.perm_append_singleton p m).symm

theorem sum_ends {β : Type} [AddCommGroup β] (l : List V3) (f : V3 → β) : ((edges l).map (fun e => f e.1)).sum = ((edges l).map (fun e => f e.2)).sum := by
  have := ((edges_ends l).map f).sum_eq
  rw [List.map_map, List.map_map] at this
  exact this

theorem sum_add_map {α β : Type} [AddCommGroup β] (l : List α) (f g : α → β) : (l.map (fun a => f a + g a)).sum = (l.map f).sum + (l.map g).sum := by
  induction l with
  | nil => simp
  | cons a l ih =>
    simp only [List.map_cons, List.sum_cons, ih]
    abel

theorem sum_neg_map {α β : Type} [AddCommGroup β] (l : List α) (f : α → β) : (l.map (fun a => -f a)).sum = -(l.map f).sum := by
  induction l with
  | nil => simp
  | cons a l ih =>
    simp only [List.map_cons, List.sum_cons, ih]
    abel

theorem sum_mul_map {α : Type} (l : List α) (r : Rat) (f : α → Rat) : (l.map (fun a => r * f a)).sum = r * (l.map f).sum := by
  induction l with
  | nil => simp
  | cons a l ih =>
    simp only [List.map_cons, List.sum_cons, ih]
    ring

/-- The vector area does not depend on the point from which the polygon is seen. -/
theorem sum_cross (l : List V3) (x : V3) : ((edges l).map (fun e => cross (e.1 - x) (e.2 - x))).sum = smul 2 (vectorArea l) := by
  have h : (fun e : V3 × V3 => cross (e.1 - x) (e.2 - x)) = fun e => cross e.1 e.2 + (cross x e.1 + -cross x e.2) := by
    funext e
    ext <;> simp <;> ring
  rw [h, sum_add_map, sum_add_map, sum_neg_map, sum_ends l (fun p => cross x p), vectorArea, V3.smul_smul', show (2 : Rat) * (1 / 2) = 1 by norm_num, V3.one_smul']
  abel

/-- Over the sides of a closed surface every antisymmetric function adds up to zero. -/
theorem Closed.sum_zero {fs : List CellFace} (h : Closed fs) {f : V3 × V3 → Rat} (ha : ∀ e, f e.swap = -f e) : ((outwardEdges fs).map f).sum = 0 := by
  have h1 := (h.map f).sum_eq
  rw [List.map_map] at h1
  have h2 : (f ∘ Prod.swap) = fun e => -f e := funext ha
  rw [h2, sum_neg_map] at h1
  linarith

theorem outward_sum {fs : List CellFace} {f : V3 × V3 → Rat} (ha : ∀ e, f e.swap = -f e) : ((outwardEdges fs).map f).sum = (fs.map (fun c => if c.first then ((edges c.pts).map f).sum else -((edges c.pts).map f).sum)).sum := by
  induction fs with
  | nil => rfl
  | cons c fs ih =>
    rw [outwardEdges, List.flatMap_cons, List.map_append, List.sum_append, List.map_cons, List.sum_cons, ← ih]
    congr 1
    cases c.first with
    | true => rfl
    | false =>
      simp only [Bool.false_eq_true, if_false]
      rw [List.map_map, ← sum_neg_map]
      congr 2
      funext e
      exact ha e

end Opm.Geometry
