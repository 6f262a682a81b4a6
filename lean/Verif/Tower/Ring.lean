import Verif.Tower.Fqn
import Mathlib.Tactic.Ring
import Mathlib.Tactic.LinearCombination

/-!
# The tower's operations form commutative rings (lemmas)
-/

namespace Kogarashi.Tower

variable {R : Type} [CommRing R]

namespace Fq2

@[simp] theorem zero_c0 : (0 : Fq2 R).c0 = 0 := rfl
@[simp] theorem zero_c1 : (0 : Fq2 R).c1 = 0 := rfl
@[simp] theorem one_c0 : (1 : Fq2 R).c0 = 1 := rfl
@[simp] theorem one_c1 : (1 : Fq2 R).c1 = 0 := rfl
@[simp] theorem add_c0 (a b : Fq2 R) : (a + b).c0 = a.c0 + b.c0 := rfl
@[simp] theorem add_c1 (a b : Fq2 R) : (a + b).c1 = a.c1 + b.c1 := rfl
@[simp] theorem neg_c0 (a : Fq2 R) : (-a).c0 = -a.c0 := rfl
@[simp] theorem neg_c1 (a : Fq2 R) : (-a).c1 = -a.c1 := rfl
@[simp] theorem sub_c0 (a b : Fq2 R) : (a - b).c0 = a.c0 - b.c0 := rfl
@[simp] theorem sub_c1 (a b : Fq2 R) : (a - b).c1 = a.c1 - b.c1 := rfl
@[simp] theorem mul_c0 (a b : Fq2 R) : (a * b).c0 = a.c0 * b.c0 - a.c1 * b.c1 := rfl
@[simp] theorem mul_c1 (a b : Fq2 R) : (a * b).c1 = a.c0 * b.c1 + a.c1 * b.c0 := rfl

instance : NatCast (Fq2 R) := ⟨fun n => ⟨n, 0⟩⟩
instance : IntCast (Fq2 R) := ⟨fun n => ⟨n, 0⟩⟩
@[simp] theorem natCast_c0 (n : Nat) : (n : Fq2 R).c0 = n := rfl
@[simp] theorem natCast_c1 (n : Nat) : (n : Fq2 R).c1 = 0 := rfl
@[simp] theorem intCast_c0 (n : Int) : (n : Fq2 R).c0 = n := rfl
@[simp] theorem intCast_c1 (n : Int) : (n : Fq2 R).c1 = 0 := rfl

instance : CommRing (Fq2 R) where
  add_assoc a b c := by ext <;> simp [add_assoc]
  zero_add a := by ext <;> simp
  add_zero a := by ext <;> simp
  add_comm a b := by ext <;> simp [add_comm]
  nsmul := nsmulRec
  zsmul := zsmulRec
  neg_add_cancel a := by ext <;> simp
  sub_eq_add_neg a b := by ext <;> simp [sub_eq_add_neg]
  left_distrib a b c := by ext <;> simp <;> ring
  right_distrib a b c := by ext <;> simp <;> ring
  zero_mul a := by ext <;> simp
  mul_zero a := by ext <;> simp
  mul_assoc a b c := by ext <;> simp <;> ring
  one_mul a := by ext <;> simp
  mul_one a := by ext <;> simp
  mul_comm a b := by ext <;> simp <;> ring
  natCast_zero := by ext <;> simp
  natCast_succ n := by ext <;> simp
  intCast_ofNat n := by ext <;> simp
  intCast_negSucc n := by ext <;> simp

/-- The non-residue `9 + u`. -/
def xi : Fq2 R := ⟨9, 1⟩

theorem double_eq (a : Fq2 R) : a.double = a + a := rfl
theorem square_eq (a : Fq2 R) : a.square = a * a := by ext <;> simp [square]; ring
theorem mulByNonres_eq (a : Fq2 R) : a.mulByNonres = xi * a := by
  ext <;> simp [mulByNonres, double, xi] <;> ring

/-- The embedding of the base ring. -/
def of : R →+* Fq2 R where
  toFun x := ⟨x, 0⟩
  map_one' := rfl
  map_zero' := rfl
  map_add' a b := by ext <;> simp
  map_mul' a b := by ext <;> simp

/-- `u`. -/
def u : Fq2 R := ⟨0, 1⟩

@[simp] theorem of_c0 (x : R) : (of x).c0 = x := rfl
@[simp] theorem of_c1 (x : R) : (of x).c1 = 0 := rfl
theorem eq_of (a : Fq2 R) : a = of a.c0 + of a.c1 * u := by ext <;> simp [u]
theorem u_sq : (u : Fq2 R) ^ 2 = -1 := by rw [pow_two]; ext <;> simp [u]
theorem xi_eq : (xi : Fq2 R) = 9 + u := by
  ext
  · have : ((9 : Fq2 R)).c0 = 9 := natCast_c0 9
    simp [xi, u, this]
  · have : ((9 : Fq2 R)).c1 = 0 := natCast_c1 9
    simp [xi, u, this]
theorem of_injective : Function.Injective (of : R → Fq2 R) := fun a b h => congrArg c0 h

end Fq2

namespace Fq6

@[simp] theorem zero_c0 : (0 : Fq6 R).c0 = 0 := rfl
@[simp] theorem zero_c1 : (0 : Fq6 R).c1 = 0 := rfl
@[simp] theorem zero_c2 : (0 : Fq6 R).c2 = 0 := rfl
@[simp] theorem one_c0 : (1 : Fq6 R).c0 = 1 := rfl
@[simp] theorem one_c1 : (1 : Fq6 R).c1 = 0 := rfl
@[simp] theorem one_c2 : (1 : Fq6 R).c2 = 0 := rfl
@[simp] theorem add_c0 (a b : Fq6 R) : (a + b).c0 = a.c0 + b.c0 := rfl
@[simp] theorem add_c1 (a b : Fq6 R) : (a + b).c1 = a.c1 + b.c1 := rfl
@[simp] theorem add_c2 (a b : Fq6 R) : (a + b).c2 = a.c2 + b.c2 := rfl
@[simp] theorem neg_c0 (a : Fq6 R) : (-a).c0 = -a.c0 := rfl
@[simp] theorem neg_c1 (a : Fq6 R) : (-a).c1 = -a.c1 := rfl
@[simp] theorem neg_c2 (a : Fq6 R) : (-a).c2 = -a.c2 := rfl
@[simp] theorem sub_c0 (a b : Fq6 R) : (a - b).c0 = a.c0 - b.c0 := rfl
@[simp] theorem sub_c1 (a b : Fq6 R) : (a - b).c1 = a.c1 - b.c1 := rfl
@[simp] theorem sub_c2 (a b : Fq6 R) : (a - b).c2 = a.c2 - b.c2 := rfl

open Fq2 (xi)

@[simp] theorem mul_c0 (a b : Fq6 R) : (a * b).c0 = a.c0 * b.c0 + xi * (a.c1 * b.c2 + a.c2 * b.c1) := by
  show (Fq6.mul a b).c0 = _
  simp only [Fq6.mul, Fq2.mulByNonres_eq]; ring
@[simp] theorem mul_c1 (a b : Fq6 R) : (a * b).c1 = a.c0 * b.c1 + a.c1 * b.c0 + xi * (a.c2 * b.c2) := by
  show (Fq6.mul a b).c1 = _
  simp only [Fq6.mul, Fq2.mulByNonres_eq]; ring
@[simp] theorem mul_c2 (a b : Fq6 R) : (a * b).c2 = a.c0 * b.c2 + a.c1 * b.c1 + a.c2 * b.c0 := by
  show (Fq6.mul a b).c2 = _
  simp only [Fq6.mul]; ring

instance : NatCast (Fq6 R) := ⟨fun n => ⟨n, 0, 0⟩⟩
instance : IntCast (Fq6 R) := ⟨fun n => ⟨n, 0, 0⟩⟩
@[simp] theorem natCast_c0 (n : Nat) : (n : Fq6 R).c0 = n := rfl
@[simp] theorem natCast_c1 (n : Nat) : (n : Fq6 R).c1 = 0 := rfl
@[simp] theorem natCast_c2 (n : Nat) : (n : Fq6 R).c2 = 0 := rfl
@[simp] theorem intCast_c0 (n : Int) : (n : Fq6 R).c0 = n := rfl
@[simp] theorem intCast_c1 (n : Int) : (n : Fq6 R).c1 = 0 := rfl
@[simp] theorem intCast_c2 (n : Int) : (n : Fq6 R).c2 = 0 := rfl

/-- Equality by coefficients (in `Fq2`). -/
theorem ext' {a b : Fq6 R} (h0 : a.c0 = b.c0) (h1 : a.c1 = b.c1) (h2 : a.c2 = b.c2) : a = b := Fq6.ext h0 h1 h2

instance : CommRing (Fq6 R) where
  add_assoc a b c := by apply ext' <;> simp [add_assoc]
  zero_add a := by apply ext' <;> simp
  add_zero a := by apply ext' <;> simp
  add_comm a b := by apply ext' <;> simp [add_comm]
  nsmul := nsmulRec
  zsmul := zsmulRec
  neg_add_cancel a := by apply ext' <;> simp
  sub_eq_add_neg a b := by apply ext' <;> simp [sub_eq_add_neg]
  left_distrib a b c := by apply ext' <;> simp <;> ring
  right_distrib a b c := by apply ext' <;> simp <;> ring
  zero_mul a := by apply ext' <;> simp
  mul_zero a := by apply ext' <;> simp
  mul_assoc a b c := by apply ext' <;> simp <;> ring
  one_mul a := by apply ext' <;> simp
  mul_one a := by apply ext' <;> simp
  mul_comm a b := by apply ext' <;> simp <;> ring
  natCast_zero := by apply ext' <;> simp
  natCast_succ n := by apply ext' <;> simp
  intCast_ofNat n := by apply ext' <;> simp
  intCast_negSucc n := by apply ext' <;> simp

/-- The embedding of `Fq2`. -/
def of : Fq2 R →+* Fq6 R where
  toFun x := ⟨x, 0, 0⟩
  map_one' := rfl
  map_zero' := rfl
  map_add' a b := by apply ext' <;> simp
  map_mul' a b := by apply ext' <;> simp

/-- `v`. -/
def v : Fq6 R := ⟨0, 1, 0⟩

@[simp] theorem of_c0 (x : Fq2 R) : (of x).c0 = x := rfl
@[simp] theorem of_c1 (x : Fq2 R) : (of x).c1 = 0 := rfl
@[simp] theorem of_c2 (x : Fq2 R) : (of x).c2 = 0 := rfl
@[simp] theorem v_c0 : (v : Fq6 R).c0 = 0 := rfl
@[simp] theorem v_c1 : (v : Fq6 R).c1 = 1 := rfl
@[simp] theorem v_c2 : (v : Fq6 R).c2 = 0 := rfl
theorem v_sq : (v : Fq6 R) ^ 2 = ⟨0, 0, 1⟩ := by rw [pow_two]; apply ext' <;> simp
theorem v_cube : (v : Fq6 R) ^ 3 = of xi := by rw [pow_succ, v_sq]; apply ext' <;> simp
theorem eq_of (a : Fq6 R) : a = of a.c0 + of a.c1 * v + of a.c2 * v ^ 2 := by
  rw [v_sq]; apply ext' <;> simp
theorem of_injective : Function.Injective (of : Fq2 R → Fq6 R) := fun a b h => congrArg c0 h

theorem double_eq (a : Fq6 R) : a.double = a + a := rfl
theorem square_eq (a : Fq6 R) : a.square = a * a := by
  apply ext' <;> simp [square, Fq2.square_eq, Fq2.double_eq, Fq2.mulByNonres_eq] <;> ring
theorem mulByNonres_eq (a : Fq6 R) : a.mulByNonres = v * a := by
  apply ext' <;> simp [mulByNonres, Fq2.mulByNonres_eq]
theorem mulBy1_eq (a : Fq6 R) (c1 : Fq2 R) : a.mulBy1 c1 = a * ⟨0, c1, 0⟩ := by
  apply ext' <;> simp [mulBy1, Fq2.mulByNonres_eq]
theorem mulBy01_eq (a : Fq6 R) (c0 c1 : Fq2 R) : a.mulBy01 c0 c1 = a * ⟨c0, c1, 0⟩ := by
  apply ext' <;> simp [mulBy01, Fq2.mulByNonres_eq] <;> ring

end Fq6

namespace Fq12

@[simp] theorem zero_c0 : (0 : Fq12 R).c0 = 0 := rfl
@[simp] theorem zero_c1 : (0 : Fq12 R).c1 = 0 := rfl
@[simp] theorem one_c0 : (1 : Fq12 R).c0 = 1 := rfl
@[simp] theorem one_c1 : (1 : Fq12 R).c1 = 0 := rfl
@[simp] theorem add_c0 (a b : Fq12 R) : (a + b).c0 = a.c0 + b.c0 := rfl
@[simp] theorem add_c1 (a b : Fq12 R) : (a + b).c1 = a.c1 + b.c1 := rfl
@[simp] theorem neg_c0 (a : Fq12 R) : (-a).c0 = -a.c0 := rfl
@[simp] theorem neg_c1 (a : Fq12 R) : (-a).c1 = -a.c1 := rfl
@[simp] theorem sub_c0 (a b : Fq12 R) : (a - b).c0 = a.c0 - b.c0 := rfl
@[simp] theorem sub_c1 (a b : Fq12 R) : (a - b).c1 = a.c1 - b.c1 := rfl

open Fq6 (v)

@[simp] theorem mul_c0 (a b : Fq12 R) : (a * b).c0 = a.c0 * b.c0 + v * (a.c1 * b.c1) := by
  show (Fq12.mul a b).c0 = _
  simp only [Fq12.mul, Fq6.mulByNonres_eq]; ring
@[simp] theorem mul_c1 (a b : Fq12 R) : (a * b).c1 = a.c0 * b.c1 + a.c1 * b.c0 := by
  show (Fq12.mul a b).c1 = _
  simp only [Fq12.mul]; ring

instance : NatCast (Fq12 R) := ⟨fun n => ⟨n, 0⟩⟩
instance : IntCast (Fq12 R) := ⟨fun n => ⟨n, 0⟩⟩
@[simp] theorem natCast_c0 (n : Nat) : (n : Fq12 R).c0 = n := rfl
@[simp] theorem natCast_c1 (n : Nat) : (n : Fq12 R).c1 = 0 := rfl
@[simp] theorem intCast_c0 (n : Int) : (n : Fq12 R).c0 = n := rfl
@[simp] theorem intCast_c1 (n : Int) : (n : Fq12 R).c1 = 0 := rfl

theorem ext' {a b : Fq12 R} (h0 : a.c0 = b.c0) (h1 : a.c1 = b.c1) : a = b := Fq12.ext h0 h1

instance : CommRing (Fq12 R) where
  add_assoc a b c := by apply ext' <;> simp [add_assoc]
  zero_add a := by apply ext' <;> simp
  add_zero a := by apply ext' <;> simp
  add_comm a b := by apply ext' <;> simp [add_comm]
  nsmul := nsmulRec
  zsmul := zsmulRec
  neg_add_cancel a := by apply ext' <;> simp
  sub_eq_add_neg a b := by apply ext' <;> simp [sub_eq_add_neg]
  left_distrib a b c := by apply ext' <;> simp <;> ring
  right_distrib a b c := by apply ext' <;> simp <;> ring
  zero_mul a := by apply ext' <;> simp
  mul_zero a := by apply ext' <;> simp
  mul_assoc a b c := by apply ext' <;> simp <;> ring
  one_mul a := by apply ext' <;> simp
  mul_one a := by apply ext' <;> simp
  mul_comm a b := by apply ext' <;> simp <;> ring
  natCast_zero := by apply ext' <;> simp
  natCast_succ n := by apply ext' <;> simp
  intCast_ofNat n := by apply ext' <;> simp
  intCast_negSucc n := by apply ext' <;> simp

/-- The embedding of `Fq6`. -/
def of : Fq6 R →+* Fq12 R where
  toFun x := ⟨x, 0⟩
  map_one' := rfl
  map_zero' := rfl
  map_add' a b := by apply ext' <;> simp
  map_mul' a b := by apply ext' <;> simp

/-- `w`. -/
def w : Fq12 R := ⟨0, 1⟩

@[simp] theorem of_c0 (x : Fq6 R) : (of x).c0 = x := rfl
@[simp] theorem of_c1 (x : Fq6 R) : (of x).c1 = 0 := rfl
@[simp] theorem w_c0 : (w : Fq12 R).c0 = 0 := rfl
@[simp] theorem w_c1 : (w : Fq12 R).c1 = 1 := rfl
theorem w_sq : (w : Fq12 R) ^ 2 = of v := by rw [pow_two]; apply ext' <;> simp
theorem eq_of (a : Fq12 R) : a = of a.c0 + of a.c1 * w := by apply ext' <;> simp
theorem of_injective : Function.Injective (of : Fq6 R → Fq12 R) := fun a b h => congrArg c0 h

theorem double_eq (a : Fq12 R) : a.double = a + a := rfl
theorem square_eq (a : Fq12 R) : a.square = a * a := by
  apply ext' <;> simp [square, Fq6.double_eq, Fq6.mulByNonres_eq] <;> ring
theorem mulBy034_eq (a : Fq12 R) (c0 c3 c4 : Fq2 R) :
    a.mulBy034 c0 c3 c4 = a * ⟨⟨c0, 0, 0⟩, ⟨c3, c4, 0⟩⟩ := by
  have e0 : (⟨a.c0.c0 * c0, a.c0.c1 * c0, a.c0.c2 * c0⟩ : Fq6 R) = a.c0 * Fq6.of c0 := by
    apply Fq6.ext' <;> simp
  have e1 : (⟨c0 + c3, c4, 0⟩ : Fq6 R) = Fq6.of c0 + ⟨c3, c4, 0⟩ := by apply Fq6.ext' <;> simp
  have e2 : (⟨c0, 0, 0⟩ : Fq6 R) = Fq6.of c0 := rfl
  simp only [mulBy034, Fq6.mulBy01_eq, e0, e1, e2, Fq6.mulByNonres_eq]
  generalize (⟨c3, c4, 0⟩ : Fq6 R) = s
  apply ext' <;> simp <;> ring

end Fq12

end Kogarashi.Tower
