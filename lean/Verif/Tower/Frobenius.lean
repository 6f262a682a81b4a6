import Verif.Tower.Inverse
import Verif.Props.Curve
import Mathlib.Algebra.CharP.Lemmas
import Mathlib.Algebra.CharP.Algebra

/-!
# Frobenius maps and their constants (`bn254/src/fqn.rs`, `bn254/src/params.rs`)
-/

namespace Kogarashi.Tower

open Limbs Field Spec Props

/-- `FROBENIUS_COEFF_FQ6_C1` (`bn254/src/params.rs` lines 76-152), as raw limbs. -/
def frobFq6C1Raw : List (Fq2 L4) := [
  ⟨⟨0xd35d438dc58f0d9d, 0xa78eb28f5c70b3d, 0x666ea36f7879462c, 0xe0a77c19a07df2f⟩, ⟨0x0, 0x0, 0x0, 0x0⟩⟩,
  ⟨⟨0xb5773b104563ab30, 0x347f91c8a9aa6454, 0x7a007127242e0991, 0x1956bcd8118214ec⟩, ⟨0x6e849f1ea0aa4757, 0xaa1c7b6d89f89141, 0xb6e713cdfae0ca3a, 0x26694fbb4e82ebc3⟩⟩,
  ⟨⟨0x3350c88e13e80b9c, 0x7dce557cdb5e56b9, 0x6001b4b8b615564a, 0x2682e617020217e0⟩, ⟨0x0, 0x0, 0x0, 0x0⟩⟩,
  ⟨⟨0xc9af22f716ad6bad, 0xb311782a4aa662b2, 0x19eeaf64e248c7f4, 0x20273e77e3439f82⟩, ⟨0xacc02860f7ce93ac, 0x3933d5817ba76b4c, 0x69e6188b446c8467, 0xa46036d4417cc55⟩⟩,
  ⟨⟨0x71930c11d782e155, 0xa6bb947cffbe3323, 0xaa303344d4741444, 0x2c3b3f0d26594943⟩, ⟨0x0, 0x0, 0x0, 0x0⟩⟩,
  ⟨⟨0xf91aba2654e8e3b1, 0x4771cb2fdc92ce12, 0xdcb16ae0fc8bdf35, 0x274aa195cd9d8be4⟩, ⟨0x5cfc50ae18811f8b, 0x4bb28433cb43988c, 0x4fd35f13c3b56219, 0x301949bd2fc8883a⟩⟩]

/-- `FROBENIUS_COEFF_FQ6_C2` (`bn254/src/params.rs` lines 154-230), as raw limbs. -/
def frobFq6C2Raw : List (Fq2 L4) := [
  ⟨⟨0xd35d438dc58f0d9d, 0xa78eb28f5c70b3d, 0x666ea36f7879462c, 0xe0a77c19a07df2f⟩, ⟨0x0, 0x0, 0x0, 0x0⟩⟩,
  ⟨⟨0x7361d77f843abe92, 0xa5bb2bd3273411fb, 0x9c941f314b3e2399, 0x15df9cddbb9fd3ec⟩, ⟨0x5dddfd154bd8c949, 0x62cb29a5a4445b60, 0x37bc870a0c7dd2b9, 0x24830a9d3171f0fd⟩⟩,
  ⟨⟨0x71930c11d782e155, 0xa6bb947cffbe3323, 0xaa303344d4741444, 0x2c3b3f0d26594943⟩, ⟨0x0, 0x0, 0x0, 0x0⟩⟩,
  ⟨⟨0x448a93a57b6762df, 0xbfd62df528fdeadf, 0xd858f5d00e9bd47a, 0x6b03d4d3476ec58⟩, ⟨0x2b19daf4bcc936d1, 0xa1a54e7a56f4299f, 0xb533eee05adeaef1, 0x170c812b84dda0b2⟩⟩,
  ⟨⟨0x3350c88e13e80b9c, 0x7dce557cdb5e56b9, 0x6001b4b8b615564a, 0x2682e617020217e0⟩, ⟨0x0, 0x0, 0x0, 0x0⟩⟩,
  ⟨⟨0x843420f1d8dadbd6, 0x31f010c9183fcdb2, 0x436330b527a76049, 0x13d47447f11adfe4⟩, ⟨0xef494023a857fa74, 0x2a925d02d5ab101a, 0x83b015829ba62f10, 0x2539111d0c13aea3⟩⟩]

/-- `FROBENIUS_COEFF_FQ12_C1` (`bn254/src/params.rs` lines 232-383), as raw limbs. -/
def frobFq12C1Raw : List (Fq2 L4) := [
  ⟨⟨0xd35d438dc58f0d9d, 0xa78eb28f5c70b3d, 0x666ea36f7879462c, 0xe0a77c19a07df2f⟩, ⟨0x0, 0x0, 0x0, 0x0⟩⟩,
  ⟨⟨0xaf9ba69633144907, 0xca6b1d7387afb78a, 0x11bded5ef08a2087, 0x2f34d751a1f3a7c⟩, ⟨0xa222ae234c492d72, 0xd00f02a4565de15b, 0xdc2ff3a253dfc926, 0x10a75716b3899551⟩⟩,
  ⟨⟨0xca8d800500fa1bf2, 0xf0c5d61468b39769, 0xe201271ad0d4418, 0x4290f65bad856e6⟩, ⟨0x0, 0x0, 0x0, 0x0⟩⟩,
  ⟨⟨0x365316184e46d97d, 0xaf7129ed4c96d9f, 0x659da72fca1009b5, 0x8116d8983a20d23⟩, ⟨0xb1df4af7c39c1939, 0x3d9f02878a73bf7f, 0x9b2220928caf0ae0, 0x26684515eff054a6⟩⟩,
  ⟨⟨0x3350c88e13e80b9c, 0x7dce557cdb5e56b9, 0x6001b4b8b615564a, 0x2682e617020217e0⟩, ⟨0x0, 0x0, 0x0, 0x0⟩⟩,
  ⟨⟨0x86b76f821b329076, 0x408bf52b4d19b614, 0x53dfb9d0d985e92d, 0x51e20146982d2a7⟩, ⟨0xfbc9cd47752ebc7, 0x6d8fffe33415de24, 0xbef22cf038cf41b9, 0x15c0edff3c66bf54⟩⟩,
  ⟨⟨0x68c3488912edefaa, 0x8d087f6872aabf4f, 0x51e1a24709081231, 0x2259d6b14729c0fa⟩, ⟨0x0, 0x0, 0x0, 0x0⟩⟩,
  ⟨⟨0x8c84e580a568b440, 0xcd164d1de0c21302, 0xa692585790f737d5, 0x2d7100fdc71265ad⟩, ⟨0x99fdddf38c33cfd5, 0xc77267ed1213e931, 0xdc2052142da18f36, 0x1fbcf75c2da80ad7⟩⟩,
  ⟨⟨0x71930c11d782e155, 0xa6bb947cffbe3323, 0xaa303344d4741444, 0x2c3b3f0d26594943⟩, ⟨0x0, 0x0, 0x0, 0x0⟩⟩,
  ⟨⟨0x5cd75fe8a3623ca, 0x8c8a57f293a85cee, 0x52b29e86b7714ea8, 0x2852e0e95d8f9306⟩, ⟨0x8a41411f14e0e40e, 0x59e26809ddfe0b0d, 0x1d2e2523f4d24d7d, 0x9fc095cf1414b83⟩⟩,
  ⟨⟨0x8cfc388c494f1ab, 0x19b315148d1373d4, 0x584e90fdcb6c0213, 0x9e1685bdf2f8849⟩, ⟨0x0, 0x0, 0x0, 0x0⟩⟩,
  ⟨⟨0xb5691c94bd4a6cd1, 0x56f575661b581478, 0x64708be5a7fb6f30, 0x2b462e5e77aecd82⟩, ⟨0x2c63ef42612a1180, 0x29f16aae345bec69, 0xf95e18c648b216a4, 0x1aa36073a4cae0d4⟩⟩]

/-- `FROBENIUS_COEFF_FQ2_C1` (`bn254/src/params.rs` lines 59-74), as raw limbs. -/
def frobFq2C1Raw : List L4 := [
  ⟨0xd35d438dc58f0d9d, 0xa78eb28f5c70b3d, 0x666ea36f7879462c, 0xe0a77c19a07df2f⟩,
  ⟨0x68c3488912edefaa, 0x8d087f6872aabf4f, 0x51e1a24709081231, 0x2259d6b14729c0fa⟩]

/-- The inverse of the Montgomery radix modulo `q`. -/
def radixInv : FqV := 20988524275117001072002809824448087578619730785600314334253784976379291040311

/-- The field element raw limbs denote. -/
def coeff (a : L4) : FqV := (a.val : FqV) * radixInv

theorem coeff_eq (a : L4) : coeff a = denote fqParams a := by
  have h : (montR : FqV) * radixInv = 1 := by unfold montR; decide +kernel
  have h2 := R_mul_inv fqParams_valid
  have : radixInv = (montR : FqV)⁻¹ := by
    calc radixInv = radixInv * ((montR : FqV) * (montR : FqV)⁻¹) := by rw [h2, mul_one]
      _ = ((montR : FqV) * radixInv) * (montR : FqV)⁻¹ := by ring
      _ = _ := by rw [h, one_mul]
  unfold coeff denote
  rw [this]

/-- The `Fq2` element raw limbs denote. -/
def coeff2 (a : Fq2 L4) : Fq2 FqV := ⟨coeff a.c0, coeff a.c1⟩

/-- `FROBENIUS_COEFF_FQ2_C1[i]` (`bn254/src/params.rs` lines 59-74); every index in the code is reduced modulo the length. -/
def frobFq2C1 (i : Nat) : FqV := coeff (frobFq2C1Raw.getD i ⟨0, 0, 0, 0⟩)
/-- `FROBENIUS_COEFF_FQ6_C1[i]` (`bn254/src/params.rs` lines 76-152). -/
def frobFq6C1 (i : Nat) : Fq2 FqV := coeff2 (frobFq6C1Raw.getD i ⟨⟨0, 0, 0, 0⟩, ⟨0, 0, 0, 0⟩⟩)
/-- `FROBENIUS_COEFF_FQ6_C2[i]` (`bn254/src/params.rs` lines 154-230). -/
def frobFq6C2 (i : Nat) : Fq2 FqV := coeff2 (frobFq6C2Raw.getD i ⟨⟨0, 0, 0, 0⟩, ⟨0, 0, 0, 0⟩⟩)
/-- `FROBENIUS_COEFF_FQ12_C1[i]` (`bn254/src/params.rs` from line 232). -/
def frobFq12C1 (i : Nat) : Fq2 FqV := coeff2 (frobFq12C1Raw.getD i ⟨⟨0, 0, 0, 0⟩, ⟨0, 0, 0, 0⟩⟩)

/-- `Fq2::frobenius_maps` (`bn254/src/fqn.rs` lines 394-399). -/
def Fq2.frobeniusMaps (a : Fq2 FqV) (power : Nat) : Fq2 FqV := ⟨a.c0, a.c1 * frobFq2C1 (power % 2)⟩

/-- `Fq6::frobenius_map` (`bn254/src/fqn.rs` lines 481-487). -/
def Fq6.frobeniusMap (a : Fq6 FqV) : Fq6 FqV :=
  ⟨a.c0.frobeniusMap, a.c1.frobeniusMap * frobFq6C1 1, a.c2.frobeniusMap * frobFq6C2 1⟩

/-- `Fq6::frobenius_maps` (`bn254/src/fqn.rs` lines 489-495). -/
def Fq6.frobeniusMaps (a : Fq6 FqV) (power : Nat) : Fq6 FqV :=
  ⟨a.c0.frobeniusMaps power, a.c1.frobeniusMaps power * frobFq6C1 (power % 6),
    a.c2.frobeniusMaps power * frobFq6C2 (power % 6)⟩

/-- `Fq12::frobenius_map` (`bn254/src/fqn.rs` lines 550-556). -/
def Fq12.frobeniusMap (a : Fq12 FqV) : Fq12 FqV :=
  ⟨a.c0.frobeniusMap, a.c1.frobeniusMap * ⟨frobFq12C1 1, 0, 0⟩⟩

/-- `Fq12::frobenius_maps` (`bn254/src/fqn.rs` lines 558-568). -/
def Fq12.frobeniusMaps (a : Fq12 FqV) (power : Nat) : Fq12 FqV :=
  let c0 := a.c0.frobeniusMaps power
  let c1 := a.c1.frobeniusMaps power
  ⟨c0, ⟨c1.c0 * frobFq12C1 (power % 12), c1.c1 * frobFq12C1 (power % 12), c1.c2 * frobFq12C1 (power % 12)⟩⟩

end Kogarashi.Tower
