import Verif.Curve.Random
import Verif.Nova.Ivc

/-!
# Generation of commitment keys (`nova/src/pedersen.rs`)
-/

namespace Kogarashi.Nova

open Limbs Curve Kogarashi.Field

/-- The upper end of the range `0..=1 << n` (`pedersen.rs:11`). The literal has no suffix, so it is an `i32`: the shift by 31
gives the smallest `i32`, a shift by more panics when overflows are checked and is reduced modulo 32 when they are not. -/
def keyEnd (overflowChecks : Bool) (n : Nat) : Option Int :=
  if 32 ≤ n ∧ overflowChecks then none
  else if n % 32 = 31 then some (-2 ^ 31)
  else some (2 ^ (n % 32))

/-- The number of values of the range `0..=e` of `i32`. -/
def rangeLength (e : Int) : Nat := (e + 1).toNat

/-- `PedersenCommitment::new` (`pedersen.rs:10-13`): as many random affine points as the range has values. `rand i` is the stream of
words the generator of random numbers returns to the `i`-th call. -/
def newKey {F : Type} [_root_.Field F] [DecidableEq F] (S : FieldParams) (b3 : F) (gen : Aff F) (overflowChecks : Bool) (n : Nat)
    (rand : Nat → Nat → Nat) : Option (List (Aff F)) := do
  let e ← keyEnd overflowChecks n
  (List.range (rangeLength e)).mapM fun i => randomAff S b3 gen (rand i)

end Kogarashi.Nova
