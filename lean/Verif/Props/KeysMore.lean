import Verif.Props.OtherCircuit
import Verif.Props.AffineCut

/-!
# Properties C114 and C117 for every number of constraints

`setup` keeps as many terms of the column polynomials as there are constraints.  A wire that occurs keeps a non-zero
polynomial after the cut, because the column polynomials vanish on the padding of the domain.
-/

namespace Kogarashi.Props

open Kogarashi Spec Groth16 Polynomial Kogarashi.Field

section
variable {F : Type} [_root_.Field F] [DecidableEq F]

omit [DecidableEq F] in
theorem firstTerms_cut (u : F[X]) (m : Nat) (x : F) : firstTerms u m x = (cutPoly m u).eval x := (eval_cutPoly m u x).symm

omit [DecidableEq F] in
theorem cutPoly_coeff (m : Nat) (u : F[X]) (i : Nat) : (cutPoly m u).coeff i = if i < m then u.coeff i else 0 := by
  unfold cutPoly
  rw [finsetSum_coeff]
  simp only [coeff_C_mul, coeff_X_pow, mul_ite, mul_one, mul_zero]
  rw [Finset.sum_ite_eq]
  simp

/-- A polynomial of degree below `n` that vanishes at all but the first `m` of `n` points and whose first `m` coefficients vanish is zero. -/
theorem zero_of_cut {w : F} {n m : Nat} (hp : IsPrimitiveRoot w n) (hmn : m ≤ n) {u : F[X]} (hd : u.degree < n)
    (hv : ∀ j, m ≤ j → j < n → u.eval (w ^ j) = 0) (hc : cutPoly m u = 0) : u = 0 := by
  have hlow : ∀ i < m, u.coeff i = 0 := by
    intro i hi
    have := congrArg (fun p => p.coeff i) hc
    simp only [cutPoly_coeff, if_pos hi, coeff_zero] at this
    exact this
  obtain ⟨v, rfl⟩ := X_pow_dvd_iff.mpr hlow
  by_cases hv0 : v = 0
  · rw [hv0, mul_zero]
  exfalso
  have hn : n ≠ 0 := by
    rintro rfl
    rw [Nat.cast_zero, degree_eq_natDegree (mul_ne_zero (pow_ne_zero _ X_ne_zero) hv0)] at hd
    exact absurd hd (by simp)
  have hw : w ≠ 0 := hp.ne_zero hn
  have hdv : v.natDegree < n - m := by
    have h1 : (X ^ m * v).natDegree < n := (natDegree_lt_iff_degree_lt (mul_ne_zero (pow_ne_zero _ X_ne_zero) hv0)).mpr hd
    rw [natDegree_mul (pow_ne_zero _ X_ne_zero) hv0, natDegree_X_pow] at h1
    omega
  have hroots : ∀ j, m ≤ j → j < n → v.eval (w ^ j) = 0 := by
    intro j h1 h2
    have := hv j h1 h2
    rw [eval_mul, eval_pow, eval_X] at this
    exact (mul_eq_zero.mp this).resolve_left (pow_ne_zero _ (pow_ne_zero _ hw))
  have hcard : ((Finset.Ico m n).image (w ^ ·)).card = n - m := by
    rw [Finset.card_image_of_injOn, Nat.card_Ico]
    intro a ha b hb h
    exact hp.pow_inj (Finset.mem_Ico.mp (Finset.mem_coe.mp ha)).2 (Finset.mem_Ico.mp (Finset.mem_coe.mp hb)).2 h
  have hle : ((Finset.Ico m n).image (w ^ ·)).card ≤ v.natDegree := by
    refine card_le_degree_of_subset_roots ?_
    intro x hx
    obtain ⟨j, hj, rfl⟩ := Finset.mem_image.mp (Finset.mem_val.mp hx)
    rw [mem_roots hv0]
    exact hroots j (Finset.mem_Ico.mp hj).1 (Finset.mem_Ico.mp hj).2
  omega

end

variable {F G1 G2 GT : Type} [_root_.Field F] [DecidableEq F]
variable [AddCommGroup G1] [Module F G1] [AddCommGroup G2] [Module F G2] [AddCommGroup GT] [Module F GT]
variable [DecidableEq G1] [DecidableEq G2] [DecidableEq GT]
variable {S : Nat} {root gen : F} {g1 : G1} {g2 : G2} {e : G1 →ₗ[F] G2 →ₗ[F] GT}

/-- The bounds of the logarithm of the domain. -/
theorem clog_bounds {m S : Nat} (h2 : 2 ≤ m) (hS : m ≤ 2 ^ S) : 1 ≤ Nat.clog 2 m ∧ Nat.clog 2 m ≤ S :=
  ⟨Nat.clog_pos (by norm_num) h2, Nat.clog_le_of_le_pow hS⟩

/-- **C114, infinity among the entries of the wires, every number of constraints.** A wire that occurs in the matrix of the left
(right) operands has a point at infinity in `a` (`b_g1`, `b_g2`) for less than `m` values of `τ`, `m` the number of constraints, a power of
two or not; one that does not occur has one for every `τ` (`C114_unused_refuted`). -/
theorem C114_wire_any (env : Env S root gen) (n1 : g1 ≠ 0) (n2 : g2 ≠ 0) (cs : CS F) (h2m : 2 ≤ cs.m) (hS : cs.m ≤ 2 ^ S)
    (i : Nat) (hi : i < cs.x.length + cs.w.length) (wr : Wire)
    (hw : wr = if i < cs.x.length then .inst i else .wit (i - cs.x.length)) :
    ((∃ r ∈ cs.matA, coeffOf r wr ≠ 0) → ∃ bad : Finset F, bad.card < cs.m ∧ ∀ t p (vk : PVKey G1 G2 GT),
      setup S root gen g1 g2 e t cs = some (.ok (p, vk)) → (p.a[i]? = some 0 ↔ t.tau ∈ bad)) ∧
    ((∃ r ∈ cs.matB, coeffOf r wr ≠ 0) → ∃ bad : Finset F, bad.card < cs.m ∧ ∀ t p (vk : PVKey G1 G2 GT),
      setup S root gen g1 g2 e t cs = some (.ok (p, vk)) →
      (p.bG1[i]? = some 0 ↔ t.tau ∈ bad) ∧ (p.bG2[i]? = some 0 ↔ t.tau ∈ bad)) := by
  obtain ⟨hk, hkS⟩ := clog_bounds h2m hS
  have hml : cs.m ≤ 2 ^ Nat.clog 2 cs.m := Nat.le_pow_clog (by norm_num) _
  obtain ⟨f, hf⟩ := (C40_new S root gen env.small env.two env.rootOk env.genOk _).mpr ⟨hk, hkS⟩
  have d := env.domain hf
  have s1 : ∀ c : F, c • g1 = 0 ↔ c = 0 := fun c => by rw [smul_eq_zero, or_iff_left n1]
  have s2 : ∀ c : F, c • g2 = 0 ↔ c = 0 := fun c => by rw [smul_eq_zero, or_iff_left n2]
  obtain ⟨u, hu, -⟩ := wirePoly_unique env hk hkS (M := cs.matA) wr
  obtain ⟨v, hv, -⟩ := wirePoly_unique env hk hkS (M := cs.matB) wr
  obtain ⟨w, hww, -⟩ := wirePoly_unique env hk hkS (M := cs.matC) wr
  have ent : ∀ t p (vk : PVKey G1 G2 GT), setup S root gen g1 g2 e t cs = some (.ok (p, vk)) →
      p.a[i]? = some ((cutPoly cs.m u).eval t.tau • g1) ∧ p.bG1[i]? = some ((cutPoly cs.m v).eval t.tau • g1) ∧
      p.bG2[i]? = some ((cutPoly cs.m v).eval t.tau • g2) := by
    intro t p vk h
    obtain ⟨h1, h2⟩ := C114_entries env h
    by_cases hlt : i < cs.x.length
    · rw [if_pos hlt] at hw
      subst hw
      obtain ⟨a1, a2, a3, -⟩ := h1 i u v w hlt hu hv hww
      rw [firstTerms_cut] at a1 a2 a3
      exact ⟨a1, a2, a3⟩
    · rw [if_neg hlt] at hw
      subst hw
      obtain ⟨a1, a2, a3, -⟩ := h2 (i - cs.x.length) u v w (by omega) hu hv hww
      rw [Nat.add_sub_cancel' (by omega), firstTerms_cut] at a1 a2 a3
      exact ⟨a1, a2, a3⟩
  have nz : ∀ {M : List (Row F)} {q : F[X]}, M.length = cs.m → WirePoly S root (Nat.clog 2 cs.m) M wr q → (∃ r ∈ M, coeffOf r wr ≠ 0) →
      cutPoly cs.m q ≠ 0 ∧ (cutPoly cs.m q).roots.toFinset.card < cs.m := by
    intro M q hM hq ⟨r, hr, hc⟩
    obtain ⟨j, hj⟩ := List.mem_iff_getElem?.mp hr
    have hjl : j < cs.m := by rw [← hM]; exact (List.getElem?_eq_some_iff.mp hj).1
    have hq0 : q ≠ 0 := by
      rintro rfl
      have := hq.val j (by omega)
      rw [hj, eval_zero] at this
      exact hc this.symm
    have hcut : cutPoly cs.m q ≠ 0 := by
      intro h0
      refine hq0 (zero_of_cut (C40_domain d) hml hq.deg (fun l h1 h2 => ?_) h0)
      rw [hq.val l h2, List.getElem?_eq_none (by omega)]
      rfl
    refine ⟨hcut, lt_of_le_of_lt (Multiset.toFinset_card_le _) (lt_of_le_of_lt (card_roots' _) ?_)⟩
    have := natDegree_cutPoly cs.m q
    omega
  constructor
  · intro hex
    obtain ⟨q0, qc⟩ := nz (by simp [CS.matA, CS.m]) hu hex
    refine ⟨_, qc, fun t p vk h => ?_⟩
    rw [(ent t p vk h).1, Option.some.injEq, s1, Multiset.mem_toFinset, mem_roots q0]
    rfl
  · intro hex
    obtain ⟨q0, qc⟩ := nz (by simp [CS.matB, CS.m]) hv hex
    refine ⟨_, qc, fun t p vk h => ?_⟩
    rw [(ent t p vk h).2.1, (ent t p vk h).2.2, Option.some.injEq, Option.some.injEq, s1, s2, Multiset.mem_toFinset, mem_roots q0]
    exact ⟨Iff.rfl, Iff.rfl⟩

/-- **C114, when the entries are the polynomials' values**, for every circuit and wire. Where the polynomial `u` of the wire in the matrix of
the left operands has degree below the number of constraints, the entry of `a` is `u(τ)·G1` under every key; where it has not, it is another
point for all but fewer than `n` values of `τ`, `n` the size of the domain. -/
theorem C114_qap_exact (env : Env S root gen) (n1 : g1 ≠ 0) (cs : CS F) (h2m : 2 ≤ cs.m) (hS : cs.m ≤ 2 ^ S)
    (i : Nat) (hi : i < cs.x.length + cs.w.length) (wr : Wire)
    (hw : wr = if i < cs.x.length then .inst i else .wit (i - cs.x.length)) (u : F[X])
    (hu : WirePoly S root (Nat.clog 2 cs.m) cs.matA wr u) :
    (u.degree < cs.m → ∀ t p (vk : PVKey G1 G2 GT), setup S root gen g1 g2 e t cs = some (.ok (p, vk)) →
      p.a[i]? = some (u.eval t.tau • g1)) ∧
    (¬ u.degree < cs.m → ∃ bad : Finset F, bad.card < 2 ^ Nat.clog 2 cs.m ∧ ∀ t p (vk : PVKey G1 G2 GT),
      setup S root gen g1 g2 e t cs = some (.ok (p, vk)) → (p.a[i]? = some (u.eval t.tau • g1) ↔ t.tau ∈ bad)) := by
  obtain ⟨hk, hkS⟩ := clog_bounds h2m hS
  obtain ⟨v, hv, -⟩ := wirePoly_unique env hk hkS (M := cs.matB) wr
  obtain ⟨w, hww, -⟩ := wirePoly_unique env hk hkS (M := cs.matC) wr
  have ent : ∀ t p (vk : PVKey G1 G2 GT), setup S root gen g1 g2 e t cs = some (.ok (p, vk)) →
      p.a[i]? = some (firstTerms u cs.m t.tau • g1) := by
    intro t p vk h
    obtain ⟨h1, h2⟩ := C114_entries env h
    by_cases hlt : i < cs.x.length
    · rw [if_pos hlt] at hw
      subst hw
      exact (h1 i u v w hlt hu hv hww).1
    · rw [if_neg hlt] at hw
      subst hw
      have := (h2 (i - cs.x.length) u v w (by omega) hu hv hww).1
      rwa [Nat.add_sub_cancel' (by omega)] at this
  constructor
  · intro hd t p vk h
    rw [ent t p vk h, firstTerms_eval hd]
  · intro hd
    have hD0 : cutPoly cs.m u - u ≠ 0 := by
      intro h0
      apply hd
      rw [degree_lt_iff_coeff_zero]
      intro j hj
      rw [← sub_eq_zero.mp h0, cutPoly_coeff, if_neg (by omega)]
    have hml : cs.m ≤ 2 ^ Nat.clog 2 cs.m := Nat.le_pow_clog (by norm_num) _
    have hdeg : (cutPoly cs.m u - u).degree < (2 ^ Nat.clog 2 cs.m : Nat) := by
      rw [degree_lt_iff_coeff_zero]
      intro j hj
      have h1 := (degree_lt_iff_coeff_zero u _).mp hu.deg j hj
      rw [coeff_sub, cutPoly_coeff, h1, if_neg (by omega), sub_zero]
    refine ⟨(cutPoly cs.m u - u).roots.toFinset, lt_of_le_of_lt (Multiset.toFinset_card_le _)
      (lt_of_le_of_lt (card_roots' _) ((natDegree_lt_iff_degree_lt hD0).mpr hdeg)), fun t p vk h => ?_⟩
    rw [ent t p vk h, Option.some.injEq, ← sub_eq_zero, ← sub_smul, smul_eq_zero, or_iff_left n1, Multiset.mem_toFinset, mem_roots hD0,
      IsRoot.def, eval_sub, firstTerms_cut]

/-- **C117, keys of circuits with any number of constraints.** Proofs made for any other circuit are rejected, whatever the inputs, for all but
`(2n + 6)·|F|⁴` of the `|F|⁵` values of the toxic waste (`n` the size of the domain), unless the witness of that circuit makes the cut column
polynomials of the circuit of the key multiply on the domain. -/
theorem C117_rejected_any [Fintype F] (env : Env S root gen) (he : e g1 g2 ≠ 0) {cs0 : CS F} (cs : CS F)
    (r s : F) (x : List F) (hno : ¬ CutHolds (omega S root (domainLog cs0.m)) (2 ^ domainLog cs0.m) (assign x cs.w) cs0) :
    Nat.card {t // Confused S root gen g1 g2 e cs0 cs r s x t} ≤ (2 * 2 ^ domainLog cs0.m + 6) * Nat.card F ^ 4 := by
  obtain ⟨P, hl, hP⟩ := C117_combination_partial (S := S) (root := root) (gen := gen) (G1 := G1) (G2 := G2) cs r s
  by_contra hcon
  apply hno
  rw [← hl]
  refine C102_cut env he P x ((not_le.mp hcon).trans_le ?_)
  have : Finite (Trapdoor F) := by
    refine Finite.of_injective (fun t => (t.alpha, t.beta, t.gamma, t.delta, t.tau)) ?_
    rintro ⟨⟩ ⟨⟩ h
    simp only [Prod.mk.injEq] at h
    obtain ⟨rfl, rfl, rfl, rfl, rfl⟩ := h
    rfl
  refine Nat.card_le_card_of_injective (fun t => ⟨t.1, ?_⟩) ?_
  · obtain ⟨p, vk, π, a, b, c⟩ := t.2
    rw [hP g1 g2 p π b] at c
    exact ⟨p, vk, a, c⟩
  · intro a b h
    simp only [Subtype.mk.injEq] at h
    exact Subtype.ext h

/-- **C117 is false of every pair of circuits**: with the key of one circuit, `create_proof` returns a proof for every other circuit that has between
two and `2^S` constraints and no more public inputs than the first has wires. -/
theorem C117_every_pair_refuted (env : Env S root gen) (h1 : g1 ≠ 0) (h2 : g2 ≠ 0) {t : Trapdoor F} {cs0 cs : CS F} (wf : Wf cs)
    (hm : 2 ≤ cs.m) (hS : cs.m ≤ 2 ^ S) (hx : cs.x.length ≤ cs0.x.length + cs0.w.length) {p : Params G1 G2} {vk : PVKey G1 G2 GT}
    (hs : setup S root gen g1 g2 e t cs0 = some (.ok (p, vk))) (r s : F) : ∃ π, createProof S root gen p r s cs = some (.ok π) := by
  obtain ⟨a, b⟩ := C117_run_partial env h1 h2 wf hs r s
  cases hc : createProof S root gen p r s cs with
  | none => rcases a.mp hc with h | h | h <;> omega
  | some y =>
    cases y with
    | error err => exact absurd hc (b err)
    | ok π => exact ⟨π, rfl⟩

/-! ### The statements apply to circuits -/

/-- Three constraints: wire one occurs in every row. -/
example := C114_wire_any (e := LinearMap.mul (ZMod 97) (ZMod 97)) demoEnv (one_ne_zero : (1 : ZMod 97) ≠ 0) (one_ne_zero : (1 : ZMod 97) ≠ 0)
  (ones3 : CS (ZMod 97)) (by decide) (by decide) 0 (by decide) (.inst 0) (by decide)
example : ∃ r ∈ (ones3 : CS (ZMod 97)).matA, coeffOf r (.inst 0) ≠ 0 := by decide

/-- Three constraints: the polynomial of wire one. -/
example : ∃ u, WirePoly 5 (28 : ZMod 97) (Nat.clog 2 (ones3 : CS (ZMod 97)).m) (ones3 : CS (ZMod 97)).matA (.inst 0) u := by
  obtain ⟨hk, hkS⟩ := clog_bounds (m := (ones3 : CS (ZMod 97)).m) (S := 5) (by decide) (by decide)
  exact (wirePoly_unique demoEnv hk hkS _).exists

/-- A key for two constraints and five wires, and a proof for three constraints and one wire. -/
example : ∃ t p vk, setup 5 (28 : ZMod 97) 5 (1 : ZMod 97) (1 : ZMod 97) (LinearMap.mul (ZMod 97) (ZMod 97)) t demoG = some (.ok (p, vk)) ∧
    ∀ r s, ∃ π, createProof 5 (28 : ZMod 97) 5 p r s ones3 = some (.ok π) := by
  obtain ⟨t, p, vk, h⟩ := demo_setup demoG (demoG_wf [2, 3] rfl) (by decide) (by decide)
  exact ⟨t, p, vk, h, C117_every_pair_refuted demoEnv one_ne_zero one_ne_zero (consts3_wf _ _ _) (by decide) (by decide) (by decide) h⟩

end Kogarashi.Props
