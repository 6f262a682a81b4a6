import Verif.Pallet.Pallet
import Verif.Nova.OnWire

/-!
# The gated call of the sample pallet on the bytes of an extrinsic

FRAME decodes the arguments of a call from the extrinsic and dispatches it.  The bytes here are those of the arguments: the two
bytes in front of them that select the pallet and the call, and the signature that makes the origin, are the runtime's.
-/

namespace Kogarashi.Pallet

open Kogarashi Limbs Scale Nova Nova.OnWire Field

/-- `u32` (parity-scale-codec: little endian). -/
def u32C : Codec Nat where
  enc n := some (leBytes 4 n)
  dec bs := (readN 4 bs).map fun p => (leNat p.1, p.2)

/-- The arguments of `set_thing_1` (`sample/src/lib.rs` lines 55-60) in the order of the declaration. -/
def setThing1C : Codec (Nat × WireProof × WireParams) := u32C.pair (proofC.pair paramsC)

/-- `RecursiveProof::verify` (`nova/src/proof.rs` lines 44-80) for the cycle of the library (`pallet/nova/src/lib.rs` lines 70-75:
`E1` is BN254, `E2` is Grumpkin), with the round constants `Mimc::default` derives (`nova/src/hash.rs` lines 19-31); `b2` is the
constant of Grumpkin. -/
def bnCheck (b2 : L4) (pp : WireParams) (pf : WireProof) : Option Bool :=
  verifyL frParams fqParams (Blake.mimcConstants frParams) (Blake.mimcConstants fqParams) b2 pp pf

/-- An extrinsic with the arguments `bs` of `set_thing_1`: `none` if they do not decode. -/
def submit {Account : Type} (check : WireParams → WireProof → Option Bool) (origin : Origin Account) (bs : List Byte) (st : State) :
    Option (Option (Except DispatchError Unit) × State) :=
  (setThing1C.dec bs).map fun p => dispatch check st (.setThing1 origin p.1.1 p.1.2.1 p.1.2.2)

end Kogarashi.Pallet
