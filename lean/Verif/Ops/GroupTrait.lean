import Verif.Tower.G2
import Verif.Field.Params

/-!
# Model: the members of the algebra traits not modelled elsewhere

`zkstd/src/traits/algebra.rs` documents `Group` and `Ring`; here are the implementations of their constants and of `random` for the
fields, the extension fields and the target group.
-/

namespace Kogarashi.Ops

open Kogarashi Tower Limbs Kogarashi.Field Curve Props

/-- `Group::ADDITIVE_GENERATOR` of `Fr`: the limbs `GENERATOR` as they are (`zkstd/src/macros/field/group.rs` line 6,
`bn254/src/fr.rs` line 18). -/
def frGenerator : L4 := ⟨7, 0, 0, 0⟩

/-- `Group::ADDITIVE_GENERATOR` of `Fq` (`zkstd/src/macros/field/group.rs` line 6, `bn254/src/fq.rs` line 17). -/
def fqGenerator : L4 := ⟨3, 0, 0, 0⟩

/-- `Group::ADDITIVE_GENERATOR` of an extension field (`zkstd/src/macros/extension_field/group.rs` line 5). -/
def extGenerator {E : Type} [Zero E] : E := 0

/-- `Default::default()` of an extension field (`zkstd/src/macros/extension_field/ring.rs` lines 14-18). -/
def extDefault {E : Type} [One E] : E := 1

/-- `Fq::random` (`zkstd/src/macros/field/group.rs` lines 16-18) on the words from position `k` on. -/
def fqRandom (rand : Nat → Nat) (k : Nat) : FqV := Spec.denote fqParams (fqParams.random fun i => rand (k + i))

/-- `Fq2::random` (`zkstd/src/macros/extension_field/group.rs` lines 13-19): each coefficient reads eight words. -/
def fq2Random (rand : Nat → Nat) (k : Nat) : Fq2 FqV := ⟨fqRandom rand k, fqRandom rand (k + 8)⟩

/-- `Fq6::random` (`zkstd/src/macros/extension_field/group.rs` lines 13-19). -/
def fq6Random (rand : Nat → Nat) (k : Nat) : Fq6 FqV := ⟨fq2Random rand k, fq2Random rand (k + 16), fq2Random rand (k + 32)⟩

/-- `Fq12::random` (`zkstd/src/macros/extension_field/group.rs` lines 13-19). -/
def fq12Random (rand : Nat → Nat) : Fq12 FqV := ⟨fq6Random rand 0, fq6Random rand 48⟩

/-- `Gt::random` (`bn254/src/gt.rs` lines 18-20). -/
def gtRandom (rand : Nat → Nat) : Fq12 FqV := fq12Random rand

/-- `Gt::invert` (`bn254/src/gt.rs` lines 14-16): the outer `none` is the panic of `unimplemented!()`. -/
def gtInvert (_ : Fq12 FqV) : Option (Option (Fq12 FqV)) := none

end Kogarashi.Ops
