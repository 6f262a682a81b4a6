import Verif.Curve.EdwardsGroup
import Verif.Field.Prime
import Verif.Spec.Field
import Mathlib.NumberTheory.LegendreSymbol.Basic

/-!
# The test curve (`zkstd/tests/jubjub.rs`)

The constants of the only twisted Edwards curve in the repository.
-/

namespace Kogarashi.Edwards

open Kogarashi Kogarashi.Field Limbs Spec

/-- `BlsScalar` (`zkstd/tests/jubjub.rs` lines 42-84): base field and scalar field of the test curve. -/
def blsScalar : FieldParams where
  m := 0x73eda753299d7d483339d80809a1d80553bda402fffe5bfeffffffff00000001
  p := ⟨0xffffffff00000001, 0x53bda402fffe5bfe, 0x3339d80809a1d805, 0x73eda753299d7d48⟩
  inv := 0xfffffffeffffffff
  r := ⟨0x00000001fffffffe, 0x5884b7fa00034802, 0x998c4fefecbc4ff5, 0x1824b159acc5056f⟩
  r2 := ⟨0xc999e990f3f29c6d, 0x2b6cedcb87925c23, 0x05d314967254398f, 0x0748d9d99f59ff11⟩
  r3 := ⟨0xc62c1807439b73af, 0x1b3e0d188cf06990, 0x73d13c71c7b5f418, 0x6e2a5bb9c8db33e9⟩

theorem blsScalar_valid : ValidParams blsScalar := by
  constructor <;> decide +kernel

theorem blsScalar_prime : blsScalar.m.Prime := by
  apply pratt _ 7 ([2, 3, 11, 19, 10177, 125527, 859267, 906349, 906349, 2508409, 2529403, 52437899, 254760293, 254760293] ++ List.replicate 31 2) _
    (by decide +kernel)
  intro q hq
  rw [List.mem_append, List.mem_replicate] at hq
  simp only [List.mem_cons, List.not_mem_nil, or_false, or_self, or_self_left] at hq
  rcases hq with hq | ⟨-, rfl⟩
  · rcases hq with rfl | rfl | rfl | rfl | rfl | rfl | rfl | rfl | rfl | rfl | rfl | rfl <;> norm_num
  · norm_num

instance : Fact blsScalar.m.Prime := ⟨blsScalar_prime⟩

/-- The base field of the test curve. -/
abbrev BlsV : Type := ZMod blsScalar.m

/-- `EDWARDS_D` (`zkstd/tests/jubjub.rs` lines 95-100). -/
def jubjubD : BlsV := ((0x2a9318e74bfa2b48f5fd9207e6bd7fd4292d7f6d37579d2601065fd6d6343eb1 : Nat) : BlsV)

/-- `X`, `Y` (`zkstd/tests/jubjub.rs` lines 102-114): `ADDITIVE_GENERATOR` of the affine type. -/
def jubjubGen : EAff BlsV := ⟨((0x3fd2814c43ac65a6f1fbf02d0fd6cce62e3ebb21fd6c54ed4df7b7ffec7beaca : Nat) : BlsV), ((0x12 : Nat) : BlsV)⟩

/-- `T` (`zkstd/tests/jubjub.rs` lines 116-121): with it, `ADDITIVE_GENERATOR` of the extended type. -/
def jubjubGenExt : EExt BlsV :=
  ⟨jubjubGen.x, jubjubGen.y, ((0x697235704b95be3336ae4ae2c669cfff4ebe6448d1acbcb87b6af007a0b6822b : Nat) : BlsV), 1⟩

theorem natCast_eq {m a b : Nat} (h : a % m = b % m) : ((a : Nat) : ZMod m) = ((b : Nat) : ZMod m) :=
  (ZMod.natCast_eq_natCast_iff a b m).mpr h

/-- A square root of `-1`. -/
def jubjubI : Nat := 0x8d51ccce760304d0ec030002760300000001000000000000

theorem bls_negOne : IsSquare (-1 : BlsV) := by
  refine ⟨(jubjubI : Nat), ?_⟩
  have h : ((jubjubI * jubjubI + 1 : Nat) : BlsV) = ((0 : Nat) : BlsV) := natCast_eq (by decide +kernel)
  push_cast at h
  linear_combination -h

theorem bls_two : (2 : BlsV) ≠ 0 := by
  intro h
  have := (ZMod.natCast_eq_zero_iff 2 blsScalar.m).mp (by exact_mod_cast h)
  revert this
  decide +kernel

theorem jubjub_nonsquare : ¬ IsSquare jubjubD := by
  have hd : jubjubD ^ ((blsScalar.m - 1) / 2) = -1 := by
    have e : powMod blsScalar.m 256 0x2a9318e74bfa2b48f5fd9207e6bd7fd4292d7f6d37579d2601065fd6d6343eb1 ((blsScalar.m - 1) / 2) = blsScalar.m - 1 := by
      decide +kernel
    rw [powMod_eq _ _ _ _ (by decide +kernel)] at e
    have h : ((0x2a9318e74bfa2b48f5fd9207e6bd7fd4292d7f6d37579d2601065fd6d6343eb1 ^ ((blsScalar.m - 1) / 2) : Nat) : BlsV) =
        ((blsScalar.m - 1 : Nat) : BlsV) := natCast_eq (by rw [e, Nat.mod_eq_of_lt (by decide +kernel)])
    rw [Nat.cast_pow, Nat.cast_sub (by decide +kernel), ZMod.natCast_self, Nat.cast_one, zero_sub] at h
    exact h
  have hpar : blsScalar.m / 2 = (blsScalar.m - 1) / 2 := by decide +kernel
  rintro ⟨s, hs⟩
  have s0 : s ≠ 0 := by
    rintro rfl
    rw [hs, mul_zero, zero_pow (by decide +kernel)] at hd
    exact one_ne_zero (neg_eq_zero.mp hd.symm)
  have h1 := ZMod.pow_card_sub_one_eq_one s0
  rw [hs, ← pow_two, ← pow_mul, show 2 * ((blsScalar.m - 1) / 2) = blsScalar.m - 1 by decide +kernel, h1] at hd
  exact bls_two (by linear_combination hd)

instance : Complete jubjubD := ⟨bls_two, bls_negOne, jubjub_nonsquare⟩

theorem jubjub_on : OnEdwards jubjubD (jubjubGen.x, jubjubGen.y) := by
  have h := natCast_eq (m := blsScalar.m) (a := 0x12 ^ 2)
    (b := 1 + 0x2a9318e74bfa2b48f5fd9207e6bd7fd4292d7f6d37579d2601065fd6d6343eb1 *
      0x3fd2814c43ac65a6f1fbf02d0fd6cce62e3ebb21fd6c54ed4df7b7ffec7beaca ^ 2 * 0x12 ^ 2 +
      0x3fd2814c43ac65a6f1fbf02d0fd6cce62e3ebb21fd6c54ed4df7b7ffec7beaca ^ 2) (by decide +kernel)
  unfold OnEdwards jubjubD jubjubGen
  dsimp only
  push_cast at h ⊢
  linear_combination h

theorem jubjub_t : jubjubGenExt.t = jubjubGen.x * jubjubGen.y := by
  have h := natCast_eq (m := blsScalar.m) (a := 0x697235704b95be3336ae4ae2c669cfff4ebe6448d1acbcb87b6af007a0b6822b)
    (b := 0x3fd2814c43ac65a6f1fbf02d0fd6cce62e3ebb21fd6c54ed4df7b7ffec7beaca * 0x12) (by decide +kernel)
  rw [Nat.cast_mul] at h
  exact h

end Kogarashi.Edwards
