import Verif.Tower.PairingProof

/-!
# Properties C14–C19 and C28: the extension tower and the Miller loop

`val2`, `val6`, `val12` (`Verif/Spec/Tower.lean`) are the elements of the quotient rings
`R[u]/(u² + 1)`, `R[u][v]/(v³ - (9 + u))`, `R[u][v][w]/(w² - v)` that coefficient vectors stand for. `FqV` is the
field of residues modulo the order `q` of Fq.
-/

namespace Kogarashi.Props

open Kogarashi Spec Tower Field Curve

variable {R : Type} [CommRing R]

/-! ### C14 -/

/-- **C14.** Every element of the quotient ring is written in exactly one way. -/
theorem C14_representation [Nontrivial R] :
    Function.Bijective (val2 : Fq2 R → Quad R) ∧ Function.Bijective (val6 : Fq6 R → Sext R) ∧
      Function.Bijective (val12 : Fq12 R → Dodec R) :=
  ⟨val2_bijective, val6_bijective, val12_bijective⟩

/-- **C14**, Fq2: `zero`, `one`, `+`, `-`, `*`, negation, doubling, squaring and multiplication by `9 + u`. -/
theorem C14_fq2 (a b : Fq2 R) :
    val2 (Fq2.zero : Fq2 R) = 0 ∧ val2 (Fq2.one : Fq2 R) = 1 ∧ val2 (a.add b) = val2 a + val2 b ∧
      val2 (a.sub b) = val2 a - val2 b ∧ val2 a.neg = -val2 a ∧ val2 (a.mul b) = val2 a * val2 b ∧
      val2 a.double = 2 * val2 a ∧ val2 a.square = val2 a ^ 2 ∧ val2 a.mulByNonres = (9 + quadU R) * val2 a :=
  ⟨val2_zero, val2_one, val2_add a b, val2_sub a b, val2_neg a, val2_mul a b,
    by rw [Fq2.double_eq, val2_add, two_mul], by rw [Fq2.square_eq, val2_mul]; exact (pow_two _).symm,
    by rw [Fq2.mulByNonres_eq, val2_mul, val2_xi]⟩

/-- **C14**, Fq6. -/
theorem C14_fq6 (a b : Fq6 R) :
    val6 (Fq6.zero : Fq6 R) = 0 ∧ val6 (Fq6.one : Fq6 R) = 1 ∧ val6 (a.add b) = val6 a + val6 b ∧
      val6 (a.sub b) = val6 a - val6 b ∧ val6 a.neg = -val6 a ∧ val6 (a.mul b) = val6 a * val6 b ∧
      val6 a.double = 2 * val6 a ∧ val6 a.square = val6 a ^ 2 ∧ val6 a.mulByNonres = sextV R * val6 a :=
  ⟨val6_zero, val6_one, val6_add a b, val6_sub a b, val6_neg a, val6_mul a b,
    by rw [Fq6.double_eq, val6_add, two_mul], by rw [Fq6.square_eq, val6_mul]; exact (pow_two _).symm,
    by rw [Fq6.mulByNonres_eq, val6_mul, val6_v]⟩

/-- **C14**, Fq12. -/
theorem C14_fq12 (a b : Fq12 R) :
    val12 (Fq12.zero : Fq12 R) = 0 ∧ val12 (Fq12.one : Fq12 R) = 1 ∧ val12 (a.add b) = val12 a + val12 b ∧
      val12 (a.sub b) = val12 a - val12 b ∧ val12 a.neg = -val12 a ∧ val12 (a.mul b) = val12 a * val12 b ∧
      val12 a.double = 2 * val12 a ∧ val12 a.square = val12 a ^ 2 :=
  ⟨val12_zero, val12_one, val12_add a b, val12_sub a b, val12_neg a, val12_mul a b,
    by rw [Fq12.double_eq, val12_add, two_mul], by rw [Fq12.square_eq, val12_mul]; exact (pow_two _).symm⟩

/-- In `ℤ[u]/(u² + 1)`: `(2 + 3u)(5 - u) = 13 + 13u`. -/
example : (⟨2, 3⟩ : Fq2 ℤ).mul ⟨5, -1⟩ = ⟨13, 13⟩ := by decide

/-! ### C15 -/

/-- **C15 is false of the code**, Fq2: the by-reference subtraction multiplies (`2 - 3` gives `6`), the
by-reference multiplication adds (`2 * 3` gives `5`), and `a + &b`, `a += &b` never return. -/
theorem C15_fq2_refuted :
    (∃ a b : Fq2 FqV, a.subRef b ≠ a - b) ∧ (∃ a b : Fq2 FqV, a.mulRef b ≠ a * b) ∧
      ∀ (a b : Fq2 FqV) (fuel : Nat), Fq2.addRef fuel a b = none := by
  refine ⟨⟨⟨2, 0⟩, ⟨3, 0⟩, by decide +kernel⟩, ⟨⟨2, 0⟩, ⟨3, 0⟩, by decide +kernel⟩, fun a b fuel => ?_⟩
  induction fuel with
  | zero => rfl
  | succ n ih => exact ih

/-- **C15 is false of the code**, Fq6. -/
theorem C15_fq6_refuted :
    (∃ a b : Fq6 FqV, a.subRef b ≠ a - b) ∧ (∃ a b : Fq6 FqV, a.mulRef b ≠ a * b) ∧
      ∀ (a b : Fq6 FqV) (fuel : Nat), Fq6.addRef fuel a b = none := by
  refine ⟨⟨⟨⟨2, 0⟩, 0, 0⟩, ⟨⟨3, 0⟩, 0, 0⟩, by decide +kernel⟩, ⟨⟨⟨2, 0⟩, 0, 0⟩, ⟨⟨3, 0⟩, 0, 0⟩, by decide +kernel⟩,
    fun a b fuel => ?_⟩
  induction fuel with
  | zero => rfl
  | succ n ih => exact ih

/-- **C15 is false of the code**, Fq12. -/
theorem C15_fq12_refuted :
    (∃ a b : Fq12 FqV, a.subRef b ≠ a - b) ∧ (∃ a b : Fq12 FqV, a.mulRef b ≠ a * b) ∧
      ∀ (a b : Fq12 FqV) (fuel : Nat), Fq12.addRef fuel a b = none := by
  refine ⟨⟨⟨⟨⟨2, 0⟩, 0, 0⟩, 0⟩, ⟨⟨⟨3, 0⟩, 0, 0⟩, 0⟩, by decide +kernel⟩,
    ⟨⟨⟨⟨2, 0⟩, 0, 0⟩, 0⟩, ⟨⟨⟨3, 0⟩, 0, 0⟩, 0⟩, by decide +kernel⟩, fun a b fuel => ?_⟩
  induction fuel with
  | zero => rfl
  | succ n ih => exact ih

/-- **C15, what the by-reference operators do compute**, for every element: `&a - &b` is the product, `&a * &b` is
the sum, and only `a -= &b` is right. -/
theorem C15_actual_partial (a b : Fq2 R) (c d : Fq6 R) (e f : Fq12 R) :
    (a.subRef b = a * b ∧ a.mulRef b = a + b ∧ a.subAssignRef b = a - b) ∧
      (c.subRef d = c * d ∧ c.mulRef d = c + d ∧ c.subAssignRef d = c - d) ∧
      (e.subRef f = e * f ∧ e.mulRef f = e + f ∧ e.subAssignRef f = e - f) :=
  ⟨⟨rfl, rfl, rfl⟩, ⟨rfl, rfl, rfl⟩, ⟨rfl, rfl, rfl⟩⟩

/-! ### C16 -/

/-- **C16**, Fq2: inversion never panics, returns `None` exactly for zero, and otherwise an inverse. -/
theorem C16_fq2 (a : Fq2 FqV) :
    (a = 0 → a.getInvert = some none) ∧ (a ≠ 0 → ∃ b, a.getInvert = some (some b) ∧ a * b = 1) := by
  rw [Fq2.getInvert_eq]
  exact ⟨fun h => by rw [if_pos h], fun h => ⟨a⁻¹, by rw [if_neg h], mul_inv_cancel₀ h⟩⟩

/-- **C16**, Fq6. -/
theorem C16_fq6 (a : Fq6 FqV) :
    (a = 0 → a.getInvert = some none) ∧ (a ≠ 0 → ∃ b, a.getInvert = some (some b) ∧ a * b = 1) := by
  rw [Fq6.getInvert_eq]
  exact ⟨fun h => by rw [if_pos h], fun h => ⟨a⁻¹, by rw [if_neg h], mul_inv_cancel₀ h⟩⟩

/-- **C16**, Fq12. -/
theorem C16_fq12 (a : Fq12 FqV) :
    (a = 0 → a.getInvert = some none) ∧ (a ≠ 0 → ∃ b, a.getInvert = some (some b) ∧ a * b = 1) := by
  rw [Fq12.getInvert_eq]
  exact ⟨fun h => by rw [if_pos h], fun h => ⟨a⁻¹, by rw [if_neg h], mul_inv_cancel₀ h⟩⟩

example : (⟨⟨⟨1, 2⟩, ⟨3, 4⟩, 0⟩, ⟨⟨0, 1⟩, 0, 0⟩⟩ : Fq12 FqV) ≠ 0 := by decide +kernel

/-! ### C17 -/

/-- **C17.** The sparse multiplications are full multiplications by sparse elements. -/
theorem C17_sparse (a : Fq6 R) (f : Fq12 R) (c0 c1 c3 c4 : Fq2 R) :
    a.mulBy1 c1 = a.mul ⟨0, c1, 0⟩ ∧ a.mulBy01 c0 c1 = a.mul ⟨c0, c1, 0⟩ ∧
      f.mulBy034 c0 c3 c4 = f.mul ⟨⟨c0, 0, 0⟩, ⟨c3, c4, 0⟩⟩ :=
  ⟨Fq6.mulBy1_eq a c1, Fq6.mulBy01_eq a c0 c1, Fq12.mulBy034_eq f c0 c3 c4⟩

example : (⟨⟨⟨1, 2⟩, ⟨3, 4⟩, 0⟩, ⟨⟨0, 1⟩, 0, ⟨1, 1⟩⟩⟩ : Fq12 ℤ).mulBy034 ⟨1, 1⟩ ⟨2, 0⟩ ⟨0, 1⟩ ≠ 0 := by decide

/-! ### C18 -/

/-- **C18.** `frobenius_map` raises to the power `q`. -/
theorem C18_frobenius_map (a : Fq2 FqV) (b : Fq6 FqV) (c : Fq12 FqV) :
    a.frobeniusMap = a ^ fqParams.m ∧ b.frobeniusMap = b ^ fqParams.m ∧ c.frobeniusMap = c ^ fqParams.m :=
  ⟨a.frobeniusMap_eq, b.frobeniusMap_eq, c.frobeniusMap_eq⟩

/-- **C18.** `frobenius_maps(k)` raises to the power `q^k`, for every `k`. -/
theorem C18_frobenius_maps (a : Fq2 FqV) (b : Fq6 FqV) (c : Fq12 FqV) (k : Nat) :
    a.frobeniusMaps k = a ^ fqParams.m ^ k ∧ b.frobeniusMaps k = b ^ fqParams.m ^ k ∧
      c.frobeniusMaps k = c ^ fqParams.m ^ k :=
  ⟨a.frobeniusMaps_eq k, b.frobeniusMaps_eq k, c.frobeniusMaps_eq k⟩

/-- **C18.** `conjugate` of Fq12 raises to the power `q^6`; `conjugate` of Fq2 to the power `q`. -/
theorem C18_conjugate (a : Fq2 FqV) (c : Fq12 FqV) :
    a.conjugate = a ^ fqParams.m ∧ c.conjugate = c ^ fqParams.m ^ 6 :=
  ⟨a.frobeniusMap_eq, c.conjugate_eq⟩

/-- The Frobenius map moves `u`, `v` and `w`. -/
example : (⟨0, 1⟩ : Fq2 FqV).frobeniusMap = ⟨0, -1⟩ ∧ (Fq6.v : Fq6 FqV).frobeniusMap ≠ Fq6.v ∧
    (Fq12.w : Fq12 FqV).frobeniusMap ≠ Fq12.w := by decide +kernel

/-! ### C19 -/

/-- **C19.** Squaring in the cyclotomic subgroup, the elements with `x ^ (q⁴ - q² + 1) = 1`. -/
theorem C19_cyclotomic_square (x : Fq12 FqV) (h : x ^ (fqParams.m ^ 4 - fqParams.m ^ 2 + 1) = 1) :
    cyclotomicSquare x = x ^ 2 ∧ cyclotomicExp x = x ^ Tower.BN_X := by
  have hc : Cyclo x := by
    unfold Cyclo
    have e : qN ^ 4 + 1 = (fqParams.m ^ 4 - fqParams.m ^ 2 + 1) + qN ^ 2 := by decide +kernel
    have e2 : x ^ (qN ^ 4 + 1) = x ^ (fqParams.m ^ 4 - fqParams.m ^ 2 + 1) * x ^ qN ^ 2 := by
      rw [← pow_add]; exact congrArg (fun n => x ^ n) e
    rw [e2, h, one_mul]
  exact ⟨hc.square, cyclotomicExp_eq hc⟩

/-- **C19.** The final exponentiation panics exactly on zero and otherwise raises to the power `(q¹² - 1)/r`, where
`r` is the order of Fr. -/
theorem C19_final_exp (f : Fq12 FqV) :
    (f = 0 → finalExp f = none) ∧ (f ≠ 0 → finalExp f = some (f ^ ((fqParams.m ^ 12 - 1) / frParams.m))) := by
  rw [finalExp_eq]
  exact ⟨fun h => by rw [if_pos h], fun h => by rw [if_neg h]⟩

/-- **C19.** The result of the final exponentiation is an `r`-th root of unity. -/
theorem C19_torsion (f g : Fq12 FqV) (h : finalExp f = some g) : g ^ frParams.m = 1 := by
  rw [finalExp_eq] at h
  by_cases hf : f = 0
  · rw [if_pos hf] at h; exact absurd h (by simp)
  · rw [if_neg hf] at h
    rw [← Option.some.inj h, ← pow_mul, Nat.div_mul_cancel order_dvd]
    exact Fq12.pow_order hf

/-- A non-trivial element of the cyclotomic subgroup: the easy part of the exponentiation applied to `1 + w`. -/
example : ∃ x : Fq12 FqV, x ≠ 1 ∧ x ^ (fqParams.m ^ 4 - fqParams.m ^ 2 + 1) = 1 := by
  have hf : (⟨1, 1⟩ : Fq12 FqV) ≠ 0 := by decide +kernel
  refine ⟨(⟨1, 1⟩ : Fq12 FqV) ^ ((qN ^ 6 - 1) * (qN ^ 2 + 1)), ?_, ?_⟩
  · intro h
    have e : (⟨1, 1⟩ : Fq12 FqV) ^ ((qN ^ 6 - 1) * (qN ^ 2 + 1)) * ((⟨1, 1⟩ : Fq12 FqV) * (⟨1, 1⟩ : Fq12 FqV) ^ qN ^ 2) =
        (⟨1, 1⟩ : Fq12 FqV) ^ qN ^ 6 * (⟨1, 1⟩ : Fq12 FqV) ^ (qN ^ 6 * qN ^ 2) := by
      rw [← pow_succ', ← pow_add, ← pow_add]
      exact congrArg (fun n => (⟨1, 1⟩ : Fq12 FqV) ^ n) (by decide +kernel)
    rw [h, one_mul, pow_mul, ← Fq12.conjugate_eq, ← Fq12.frobeniusMaps_eq, ← Fq12.frobeniusMaps_eq] at e
    exact absurd e (by decide +kernel)
  · rw [← pow_mul, ← pow_zero (⟨1, 1⟩ : Fq12 FqV)]
    apply pow_congr_mod hf
    decide +kernel

/-! ### C28 -/

/-- **C28.** For every list of pairs of affine points, the Miller loop with prepared coefficients does not panic and
is the product of one factor for each pair; a pair with an identity contributes the factor one. -/
theorem C28_miller_loop :
    ∃ factor : Aff FqV → Aff (Fq2 FqV) → Fq12 FqV,
      (∀ p q, p.inf = true ∨ q.inf = true → factor p q = 1) ∧
      ∀ pairs : List (Aff FqV × Aff (Fq2 FqV)),
        multiMillerLoop (pairs.map fun pq => (pq.1, prepare pq.2)) =
          some (pairs.map fun pq => factor pq.1 pq.2).prod := by
  refine ⟨fun p q => if p.inf = true ∨ q.inf = true then 1 else single fullSchedule 1 p (prepare q).coeffs,
    fun p q h => by simp only [if_pos h], fun pairs => ?_⟩
  rw [multiMillerLoop_eq]
  · simp only [List.map_map, Function.comp_def, prepare_inf]
  · intro pq hpq _ h
    obtain ⟨pq', -, rfl⟩ := List.mem_map.1 hpq
    rw [prepare_inf] at h
    exact (prepare_length _ h).2

/-- **C28.** With a coefficient list of any other length the loop panics; with one of the right length it consumes
it exactly. -/
theorem C28_exact (p : Aff R) (hp : p.inf = false) (cs : List (PairingCoeff R)) :
    (multiMillerLoop [(p, (⟨cs, false⟩ : G2Pairing R))]).isSome ↔ cs.length = passes fullSchedule := by
  constructor
  · intro h
    have e0 : ∀ ps : List (Aff R × List (PairingCoeff R)), (do
        let (acc, pairs) ← millerMain true loopDigits 1 ps
        let (acc, pairs) ← pass acc pairs
        let (acc, pairs) ← pass acc pairs
        if pairs.all fun pc => pc.2.isEmpty then some acc else none) =
        (runSchedule fullSchedule 1 ps).bind fun r =>
          if r.2.all fun pc => pc.2.isEmpty then some r.1 else none := by
      intro ps
      rw [millerMain_eq, fullSchedule, runSchedule_append]
      cases runSchedule (schedule true loopDigits) 1 ps with
      | none => rfl
      | some r =>
        simp only [Option.bind_eq_bind, Option.bind_some, runSchedule]
        cases pass r.1 r.2 with
        | none => rfl
        | some r =>
          simp only [Option.bind_some]
          cases pass r.1 r.2 with
          | none => rfl
          | some r => rfl
    have len : ∀ (s : List Bool) (acc : Fq12 R) (cs : List (PairingCoeff R)) r,
        runSchedule s acc [(p, cs)] = some r → ∃ cs', r.2 = [(p, cs')] ∧ cs.length = passes s + cs'.length := by
      intro s
      induction s with
      | nil =>
        intro acc cs r hr
        simp only [runSchedule, Option.some.injEq] at hr
        exact ⟨cs, by rw [← hr], by simp [passes]⟩
      | cons b s ih =>
        intro acc cs r hr
        cases b
        · obtain ⟨cs', h1, h2⟩ := ih _ _ _ hr
          exact ⟨cs', h1, by simpa [passes] using h2⟩
        · cases cs with
          | nil => simp [runSchedule, pass] at hr
          | cons c cs =>
            have hr' : runSchedule s (untwist acc c p) [(p, cs)] = some r := hr
            obtain ⟨cs', h1, h2⟩ := ih _ _ _ hr'
            refine ⟨cs', h1, ?_⟩
            simp only [passes, List.count_cons_self, List.length_cons] at h2 ⊢
            omega
    have hm : multiMillerLoop [(p, (⟨cs, false⟩ : G2Pairing R))] =
        (runSchedule fullSchedule 1 [(p, cs)]).bind fun r =>
          if r.2.all fun pc => pc.2.isEmpty then some r.1 else none := by
      rw [← e0]
      simp [multiMillerLoop, hp]
    rw [hm] at h
    cases hr : runSchedule fullSchedule 1 [(p, cs)] with
    | none => rw [hr] at h; simp at h
    | some r =>
      rw [hr] at h
      obtain ⟨cs', h1, h2⟩ := len _ _ _ _ hr
      simp only [Option.bind_some, h1, List.all_cons, List.all_nil, Bool.and_true] at h
      have : cs' = [] := by
        cases cs' with
        | nil => rfl
        | cons c cs' => simp at h
      rw [h2, this]; simp
  · intro h
    rw [multiMillerLoop_eq]
    · simp
    · intro pq hpq _ _
      rw [List.mem_singleton] at hpq
      rw [hpq]; exact h

/-- The prepared lists have 91 coefficients. -/
example : passes fullSchedule = 91 := by decide +kernel

end Kogarashi.Props
