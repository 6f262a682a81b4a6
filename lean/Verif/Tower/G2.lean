import Verif.Tower.AteProof
import Verif.Curve.Order

/-!
# G2, its constants, and its membership test; square roots in Fq2; the target group
-/

namespace Kogarashi.Tower

open Spec Curve WeierstrassCurve.Affine Kogarashi.Field Limbs Props

/-- `G2Affine::ADDITIVE_GENERATOR` (`bn254/src/params.rs` lines 15-47 through `g2.rs`; the limbs are converted by
`to_mont_form`). -/
def g2Gen : Aff (Fq2 FqV) :=
  ⟨⟨((⟨0x46debd5cd992f6ed, 0x674322d4f75edadd, 0x426a00665e5c4479, 0x1800deef121f1e76⟩ : L4).val : FqV),
    ((⟨0x97e485b7aef312c2, 0xf1aa493335a9e712, 0x7260bfb731fb5d25, 0x198e9393920d483a⟩ : L4).val : FqV)⟩,
   ⟨((⟨0x4ce6cc0166fa7daa, 0xe3d1e7690c43d37b, 0x4aab71808dcb408f, 0x12c85ea5db8c6deb⟩ : L4).val : FqV),
    ((⟨0x55acdadcd122975b, 0xbc4b313370b38ef3, 0xec9e99ad690c3395, 0x090689d0585ff075⟩ : L4).val : FqV)⟩, false⟩

/-- `psi_coeff_x` (`bn254/src/g2.rs` lines 110-118): raw limbs, read as the residue they denote. -/
def psiCoeffX : Fq2 FqV :=
  coeff2 ⟨⟨0, 0, 0, 0⟩, ⟨0x890dc9e4867545c3, 0x2af322533285a5d5, 0x50880866309b7e2c, 0xa20d1b8c7e881024⟩⟩

/-- `psi_coeff_y` (`bn254/src/g2.rs` lines 120-133). -/
def psiCoeffY : Fq2 FqV :=
  coeff2 ⟨⟨0x3e2f585da55c9ad1, 0x4294213d86c18183, 0x382844c88b623732, 0x92ad2afd19103e18⟩,
    ⟨0x7bcfa7a25aa30fda, 0xdc17dec12a927e7c, 0x2f088dd86b4ebef1, 0xd1ca2087da74d4a7⟩⟩

/-- `G2Projective::psi` (`bn254/src/g2.rs` lines 108-143). -/
def psiMap (p : Proj (Fq2 FqV)) : Proj (Fq2 FqV) :=
  ⟨p.x.frobeniusMap * psiCoeffX, p.y.frobeniusMap * psiCoeffY, p.z.frobeniusMap⟩

/-- `G2Affine::is_torsion_free` (`bn254/src/g2.rs` lines 26-34); `mul_by_x` (lines 86-106) has the same text as that
of G1. -/
def isTorsionFreeG2 (p : Aff (Fq2 FqV)) : Bool :=
  (psiMap p.toExtended).eq (mulByX (g2B + g2B + g2B) p.toExtended)

theorem g2Gen_ns : (curve g2B).Nonsingular g2Gen.x g2Gen.y := by
  apply nonsingular_of_eq fq2_two fq2_three g2B_ne
  rw [pow_two, pow_succ, pow_two]
  decide +kernel

/-- The generator of G2 as a point. -/
noncomputable def g2Point : (curve g2B).Point := .some _ _ g2Gen_ns

theorem g2Gen_rep : AffRep g2B g2Gen g2Point := ⟨rfl, rfl, rfl⟩

theorem g2_order : frParams.m • g2Point = 0 :=
  smul_eq_zero_of_run (ds := orderNaf) fq2_two (toExtended_rep g2Gen_rep) (by decide +kernel) (by decide +kernel)

theorem g2Gen_not_free : isTorsionFreeG2 g2Gen = false := by decide +kernel

/-! ### Square roots in Fq2 -/

section
variable {R : Type} [CommRing R]

/-- The bits of an exponent, most significant first, as `pow_vartime` visits them
(`bn254/src/fqn.rs` lines 312-314). -/
def expBits (e : L4) : List Bool :=
  [e.l3, e.l2, e.l1, e.l0].flatMap fun w => (List.range 64).reverse.map fun i => decide (w / 2 ^ i % 2 = 1)

/-- `Fq2::pow_vartime` (`bn254/src/fqn.rs` lines 310-322). -/
def Fq2.powVartime (a : Fq2 R) (e : L4) : Fq2 R :=
  (expBits e).foldl (fun res b => let res := res.square; if b then res * a else res) 1

variable [DecidableEq R]

/-- The candidate root of `Fq2::sqrt` (`bn254/src/fqn.rs` lines 275-300). -/
def Fq2.sqrtCandidate (a : Fq2 R) : Fq2 R :=
  let a1 := a.powVartime ⟨0x4f082305b61f3f51, 0x65e05aa45a1c72a3, 0x6e14116da0605617, 0x0c19139cb84c680a⟩
  let alpha := a1.square * a
  let x0 := a1 * a
  if alpha = -1 then ⟨-x0.c1, x0.c0⟩
  else (alpha + 1).powVartime ⟨0x9e10460b6c3e7ea3, 0xcbc0b548b438e546, 0xdc2822db40c0ac2e, 0x183227397098d014⟩ * x0

/-- `Fq2::sqrt` (`bn254/src/fqn.rs` lines 266-305). -/
def Fq2.sqrt (a : Fq2 R) : Option (Fq2 R) :=
  if a.isZero then some 0
  else if a.sqrtCandidate.square = a then some a.sqrtCandidate else none

end

theorem bits_fold {R : Type} [CommRing R] (a res : Fq2 R) (w n : Nat) :
    (((List.range n).reverse.map fun i => decide (w / 2 ^ i % 2 = 1)).foldl
      (fun res b => let res := res.square; if b then res * a else res) res) = res ^ 2 ^ n * a ^ (w % 2 ^ n) := by
  induction n generalizing res with
  | zero => simp [Nat.mod_one]
  | succ n ih =>
    rw [List.range_succ, List.reverse_append, List.reverse_singleton, List.singleton_append, List.map_cons,
      List.foldl_cons, ih, Nat.mod_pow_succ]
    have hsq : res.square = res ^ 2 := by rw [pow_two]; exact Fq2.square_eq res
    rcases Nat.mod_two_eq_zero_or_one (w / 2 ^ n) with h | h
    · simp only [h, hsq]
      simp only [Nat.zero_ne_one, decide_false, Bool.false_eq_true, if_false, mul_zero, add_zero, ← pow_mul]
      rw [pow_succ, mul_comm 2]
    · simp only [h, hsq, decide_true, if_true, mul_one]
      rw [mul_pow, ← pow_mul, pow_succ 2 n, mul_comm 2, pow_add, mul_assoc, mul_comm (a ^ 2 ^ n)]

theorem powVartime_eq {R : Type} [CommRing R] (a : Fq2 R) {e : L4} (he : e.Wf) : a.powVartime e = a ^ e.val := by
  obtain ⟨h0, h1, h2, h3⟩ := he
  have e0 : e.l0 % 2 ^ 64 = e.l0 := Nat.mod_eq_of_lt h0
  have e1 : e.l1 % 2 ^ 64 = e.l1 := Nat.mod_eq_of_lt h1
  have e2 : e.l2 % 2 ^ 64 = e.l2 := Nat.mod_eq_of_lt h2
  have e3 : e.l3 % 2 ^ 64 = e.l3 := Nat.mod_eq_of_lt h3
  unfold Fq2.powVartime expBits
  simp only [List.flatMap_cons, List.flatMap_nil, List.append_nil, List.foldl_append, bits_fold, e0, e1, e2, e3, one_pow,
    one_mul]
  simp only [← pow_mul, ← pow_add]
  refine congrArg (fun n => a ^ n) ?_
  unfold L4.val
  ring

theorem sqrt_sound {a s : Fq2 FqV} (h : a.sqrt = some s) : s ^ 2 = a := by
  unfold Fq2.sqrt at h
  by_cases ha : a.isZero = true
  · rw [if_pos ha] at h
    rw [← Option.some.inj h, Fq2.isZero_iff.mp ha]; simp
  · rw [if_neg ha] at h
    by_cases hc : a.sqrtCandidate.square = a
    · rw [if_pos hc] at h
      rw [← Option.some.inj h, pow_two, ← Fq2.square_eq]
      exact hc
    · rw [if_neg hc] at h
      exact absurd h (by simp)

theorem Fq2.pow_order {a : Fq2 FqV} (h : a ≠ 0) : a ^ (qN ^ 2 - 1) = 1 := by
  have h1 : a ^ (qN ^ 2) = a := by
    rw [← Fq2.frobeniusMaps_eq, Fq2.frobeniusMaps_succ, Fq2.frobeniusMaps_succ, Fq2.frobeniusMaps_zero,
      Fq2.frobeniusMap_twice]
  have e : a ^ (qN ^ 2 - 1) * a = 1 * a := by
    rw [← pow_succ, one_mul]
    exact (congrArg (fun n => a ^ n) (show qN ^ 2 - 1 + 1 = qN ^ 2 by decide +kernel)).trans h1
  exact mul_right_cancel₀ h e

/-- The candidate is a root of every non-zero square. -/
theorem sqrtCandidate_sq {s : Fq2 FqV} (hs : s ≠ 0) : (s ^ 2).sqrtCandidate ^ 2 = s ^ 2 := by
  have ha0 : s ^ 2 ≠ 0 := pow_ne_zero _ hs
  have hk : (s ^ 2) ^ ((qN ^ 2 - 1) / 2) = 1 := by
    rw [← pow_mul]
    exact (congrArg (fun n => s ^ n) (show 2 * ((qN ^ 2 - 1) / 2) = qN ^ 2 - 1 by decide +kernel)).trans
      (Fq2.pow_order hs)
  generalize s ^ 2 = a at *
  unfold Fq2.sqrtCandidate
  simp only
  rw [powVartime_eq _ (by decide +kernel)]
  rw [powVartime_eq _ (by decide +kernel), Fq2.square_eq]
  have v1 : a ^ (⟨0x4f082305b61f3f51, 0x65e05aa45a1c72a3, 0x6e14116da0605617, 0x0c19139cb84c680a⟩ : L4).val =
      a ^ (qN / 4) := congrArg (fun n => a ^ n) (by decide +kernel)
  rw [v1]
  have halpha : a ^ (qN / 4) * a ^ (qN / 4) * a = a ^ ((qN - 1) / 2) := by
    rw [← pow_add, ← pow_succ]
    exact congrArg (fun n => a ^ n) (by decide +kernel)
  have hx0 : (a ^ (qN / 4) * a) ^ 2 = a ^ ((qN - 1) / 2) * a := by
    rw [← halpha]; ring
  have hord : (a ^ ((qN - 1) / 2)) ^ (qN + 1) = 1 := by
    rw [← pow_mul]
    exact (congrArg (fun n => a ^ n) (show (qN - 1) / 2 * (qN + 1) = (qN ^ 2 - 1) / 2 by decide +kernel)).trans hk
  rw [halpha]
  generalize a ^ (qN / 4) * a = x0 at *
  generalize a ^ ((qN - 1) / 2) = α at *
  have v2 : (α + 1) ^ (⟨0x9e10460b6c3e7ea3, 0xcbc0b548b438e546, 0xdc2822db40c0ac2e, 0x183227397098d014⟩ : L4).val =
      (α + 1) ^ ((qN - 1) / 2) := congrArg (fun n => (α + 1) ^ n) (by decide +kernel)
  rw [v2]
  clear v1 v2 halpha hk
  by_cases h1 : α = -1
  · rw [if_pos h1]
    have e : (⟨-x0.c1, x0.c0⟩ : Fq2 FqV) = x0 * Fq2.u := by ext <;> simp [Fq2.u]
    have hu : (Fq2.u : Fq2 FqV) ^ 2 = -1 := by rw [pow_two]; decide +kernel
    rw [e, mul_pow, hx0, hu, h1]; ring
  · rw [if_neg h1]
    have hne : α + 1 ≠ 0 := fun h => h1 (by linear_combination h)
    have hα : α ≠ 0 := by
      rintro rfl
      rw [pow_succ, mul_zero] at hord
      exact zero_ne_one hord
    have f1 : ((α + 1) ^ ((qN - 1) / 2)) ^ 2 * (α + 1) = (α + 1) ^ qN := by
      rw [← pow_mul, ← pow_succ]
      exact congrArg (fun n => (α + 1) ^ n) (by decide +kernel)
    have f2 : (α + 1) ^ qN = α ^ qN + 1 := by rw [add_pow_char, one_pow]
    rw [f2] at f1
    clear f2
    rw [pow_succ] at hord
    rw [mul_pow, hx0]
    generalize (α + 1) ^ ((qN - 1) / 2) = t at *
    generalize α ^ qN = β at *
    apply mul_right_cancel₀ hne
    linear_combination α * a * f1 + a * hord

theorem sqrt_complete {a : Fq2 FqV} (h : ∃ s, s ^ 2 = a) : a.sqrt.isSome = true := by
  obtain ⟨s, rfl⟩ := h
  unfold Fq2.sqrt
  by_cases ha : (s ^ 2).isZero = true
  · rw [if_pos ha]; rfl
  · rw [if_neg ha, if_pos]
    · rfl
    · rw [Fq2.square_eq, ← pow_two]
      apply sqrtCandidate_sq
      rintro rfl
      exact ha (Fq2.isZero_iff.mpr (by simp))

/-! ### The target group -/

/-- `Gt + Gt` and `Gt * Gt` (`bn254/src/gt.rs` lines 38-64, 141-147). -/
def gtAdd (a b : Fq12 FqV) : Fq12 FqV := a * b
/-- `-Gt` (`bn254/src/gt.rs` lines 78-92). -/
def gtNeg (a : Fq12 FqV) : Fq12 FqV := a.conjugate
/-- `Gt - Gt` (`bn254/src/gt.rs` lines 94-124). -/
def gtSub (a b : Fq12 FqV) : Fq12 FqV := gtAdd a (gtNeg b)
/-- `Gt::double` (`bn254/src/gt.rs` lines 155-159). -/
def gtDouble (a : Fq12 FqV) : Fq12 FqV := a.square
/-- `Gt::ADDITIVE_IDENTITY` (`bn254/src/gt.rs` line 12). -/
def gtIdentity : Fq12 FqV := 1
/-- `Gt::zero()` (`bn254/src/gt.rs` lines 23-27). -/
def gtZero : Fq12 FqV := 0
/-- `Gt::ADDITIVE_GENERATOR` (`bn254/src/gt.rs` line 11, `bn254/src/fqn.rs` lines 150-242). -/
def gtGenerator : Fq12 FqV :=
  ⟨⟨coeff2 ⟨⟨0xc556f62b2a98671d, 0x23a59ac167bcf363, 0x5ef208445f5f6f37, 0x12adf27ccb29382a⟩,
      ⟨0x2e02a64acbd60549, 0xd618018ea58e4add, 0x14d585f1a45ba647, 0x1832226987c434fc⟩⟩,
    coeff2 ⟨⟨0x2306e4312363b991, 0x465f6072d4023bf4, 0xa2ff062a4a77e736, 0x76ea6f18435864a⟩,
      ⟨0x172d1f257a4d598e, 0xddf5bc7b7ffb5ac0, 0xae0b22c0bbb0f602, 0x1B158F3C2FAE9B18⟩⟩,
    coeff2 ⟨⟨0x5cf9cc917da86724, 0xc799dc487a0b2753, 0xdf2027bf1de17a7, 0x197cda6cc3e20636⟩,
      ⟨0xf16c96d081754cdb, 0xce0394312bceeb55, 0x644e4dcf1f01ff0a, 0xcbea85ee0b236cc⟩⟩⟩,
   ⟨coeff2 ⟨⟨0x1bb0ce0def1b82a1, 0x4c4c9fe1cadefa95, 0x746d9990cb12b27e, 0x13495c08e5d415c5⟩,
      ⟨0x9458abcb56d24998, 0xb17540bd2a9e5adb, 0x9a9983c82e401a9f, 0x1614817a84c16291⟩⟩,
    coeff2 ⟨⟨0x8975b68a2bab1f9c, 0x2fdd826b796e0f35, 0x6a90a35fa03dfaa5, 0x1ffef4581607fc37⟩,
      ⟨0x7002907c28ebfe11, 0x7b0591d3d080da67, 0xde7e5aa2181f138e, 0x210e437dfc43d951⟩⟩,
    coeff2 ⟨⟨0x988ae2485b36cf53, 0x5091cc0581334e54, 0xda7903229312ca0f, 0x2a2341538eaee95c⟩,
      ⟨0xd34bab373157aa84, 0x3511ed44fd0d8598, 0x67e42a0bc2ced972, 0x2b8f1d5dfd20c55b⟩⟩⟩⟩

theorem gtNeg_spec {a : Fq12 FqV} (h : a ^ frParams.m = 1) : gtAdd a (gtNeg a) = 1 := by
  unfold gtAdd gtNeg
  rw [Fq12.conjugate_eq]
  have e : a * a ^ qN ^ 6 = a ^ (qN ^ 6 + 1) := by rw [pow_succ a, mul_comm]
  rw [e]
  have e2 : a ^ (qN ^ 6 + 1) = (a ^ frParams.m) ^ ((qN ^ 6 + 1) / frParams.m) := by
    rw [← pow_mul]
    exact congrArg (fun n => a ^ n) (by decide +kernel)
  rw [e2, h, one_pow]

end Kogarashi.Tower
