import Verif.Groth16.ProtocolProof

/-! # Groth16: what setup, prover and verifier compute -/

namespace Kogarashi.Groth16

open Spec Polynomial

section Field
variable {F : Type} [Field F] [DecidableEq F]

/-- Weighted sum of the rows of a matrix, the wires carrying `x` and `w`. -/
def rd (φ : Nat → F) (M : List (Row F)) (x w : List F) : F := rowsDot φ (readD x w) 0 M

theorem rowsDot_add (φ : Nat → F) (z z' : Assignment F) (M : List (Row F)) (i : Nat) :
    rowsDot φ (fun e => z e + z' e) i M = rowsDot φ z i M + rowsDot φ z' i M := by
  induction M generalizing i with
  | nil => simp [rowsDot]
  | cons r rs ih =>
    have : rowVal (fun e => z e + z' e) r = rowVal z r + rowVal z' r := by
      unfold rowVal
      induction r with
      | nil => simp
      | cons e r ih2 => simp only [List.map_cons, List.sum_cons, ih2]; ring
    simp only [rowsDot, ih, this]; ring

theorem rd_split (φ : Nat → F) (M : List (Row F)) (x w : List F) : rd φ M x w = rd φ M x [] + rd φ M [] w := by
  unfold rd
  rw [← rowsDot_add]
  congr 1
  funext e
  cases e <;> simp [readD]

theorem rowsDot_sum (φ : Nat → F) (z : Assignment F) (M : List (Row F)) (i n : Nat) (h : M.length ≤ n) :
    rowsDot φ z i M = ∑ j ∈ Finset.range n, (M.map (rowVal z)).getD j 0 * φ (i + j) := by
  induction M generalizing i n with
  | nil => simp [rowsDot]
  | cons r rs ih =>
    obtain ⟨n, rfl⟩ : ∃ k, n = k + 1 := ⟨n - 1, by simp at h; omega⟩
    rw [rowsDot, ih (i + 1) n (by simpa using h), Finset.sum_range_succ']
    simp only [List.map_cons, List.getD_cons_succ, List.getD_cons_zero, add_zero]
    rw [add_comm]
    congr 1
    apply Finset.sum_congr rfl; intro j _; rw [show i + 1 + j = i + (j + 1) by ring]

theorem rd_pub {φ : Nat → F} {M : List (Row F)} {l n : Nat} {X W : List (List (F × Nat))} (h : Matrix.xAndW M l n = some (X, W))
    (x : List F) : dot x (X.map (colVal φ)) = rd φ M x [] := by
  have := (xAndW_spec h).2.2.2 φ x []
  rw [dot_map_colVal, rd, ← this]; simp [dotCols]

theorem rd_aux {φ : Nat → F} {M : List (Row F)} {l n : Nat} {X W : List (List (F × Nat))} (h : Matrix.xAndW M l n = some (X, W))
    (w : List F) : dot w (W.map (colVal φ)) = rd φ M [] w := by
  have := (xAndW_spec h).2.2.2 φ [] w
  rw [dot_map_colVal, rd, ← this]; simp [dotCols]

/-- The part of `H(τ)` the key covers. -/
def qEval (m : Nat) (q : List F) (tau : F) : F := ∑ i ∈ Finset.range (m - 1), q.getD i 0 * tau ^ i

theorem dot_powers (q : List F) (g c : F) : ∀ (n : Nat) (u : F),
    dot q ((powersFrom g n u).map (fun p => p * c)) = u * c * ∑ i ∈ Finset.range n, q.getD i 0 * g ^ i := by
  unfold dot
  induction q with
  | nil => intro n u; simp
  | cons a as ih =>
    intro n u
    cases n with
    | zero => simp [powersFrom]
    | succ n =>
      simp only [powersFrom, List.map_cons, List.zipWith_cons_cons, List.sum_cons]
      rw [ih n (u * g), Finset.sum_range_succ']
      simp only [List.getD_cons_succ, List.getD_cons_zero, pow_zero, mul_one, Finset.mul_sum, mul_add]
      rw [add_comm]
      congr 1
      · apply Finset.sum_congr rfl; intro i _; rw [pow_succ]; ring
      · ring

theorem powersFrom_take (g : F) (n m : Nat) (u : F) (h : n ≤ m) : (powersFrom g m u).take n = powersFrom g n u := by
  induction n generalizing m u with
  | zero => simp [powersFrom]
  | succ n ih =>
    obtain ⟨m, rfl⟩ : ∃ k, m = k + 1 := ⟨m - 1, by omega⟩
    simp only [powersFrom, List.take_succ_cons, ih m (u * g) (by omega)]

variable {f : Fft F} {k : Nat} {w : F}

/-- The trimmed transform of the powers of `τ` pairs with a value vector to give the first `m` terms of its
interpolation polynomial at `τ`. -/
theorem lagrange_dot (ok : FftOk f k w) (tau : F) {m : Nat} (hm : m ≤ 2 ^ (k + 1)) (v : List F) :
    ∑ j ∈ Finset.range (2 ^ (k + 1)), v.getD j 0 * (idft f (powersFrom tau m 1)).getD j 0 =
      ∑ i ∈ Finset.range m, (polyOf (idft f v)).coeff i * tau ^ i := by
  have e1 : ∀ j ∈ Finset.range (2 ^ (k + 1)), v.getD j 0 * (idft f (powersFrom tau m 1)).getD j 0 =
      ∑ i ∈ Finset.range m, v.getD j 0 * (tau ^ i * w⁻¹ ^ (j * i)) * ((2 ^ (k + 1) : Nat) : F)⁻¹ := by
    intro j hj
    rw [← coeff_polyOf (idft f _), coeff_idft ok _ (Finset.mem_range.mp hj), Finset.sum_mul, Finset.mul_sum]
    rw [← Finset.sum_subset (Finset.range_subset_range.mpr hm)]
    · apply Finset.sum_congr rfl
      intro i hi
      rw [powersFrom_eq, getD_map_range (Finset.mem_range.mp hi)]; ring
    · intro i _ hi
      rw [List.getD_eq_default (powersFrom tau m 1) _ (by rw [powersFrom_length]; simpa using hi)]; ring
  rw [Finset.sum_congr rfl e1, Finset.sum_comm]
  apply Finset.sum_congr rfl
  intro i hi
  have hi' : i < 2 ^ (k + 1) := lt_of_lt_of_le (Finset.mem_range.mp hi) hm
  rw [coeff_idft ok _ hi', Finset.sum_mul, Finset.sum_mul]
  apply Finset.sum_congr rfl
  intro j _
  rw [mul_comm j i]; ring

theorem stored_eq_readD (cs : CS F) : stored cs = readD cs.x cs.w := by
  funext e
  cases e <;> simp [stored, CS.get, Row.readWire, readD, List.getD_eq_getElem?_getD]

theorem evaluate_eq_some {cs : CS F} (wf : Wf cs) : cs.evaluate = some (cs.matA.map (rowVal (stored cs)),
    cs.matB.map (rowVal (stored cs)), cs.matC.map (rowVal (stored cs))) := by
  have h : ∀ (g : Constraint F → Row F), (∀ c ∈ cs.cons, RowOk cs (g c)) →
      Matrix.evaluateWithZ (cs.cons.map g) cs.x cs.w = some ((cs.cons.map g).map (rowVal (stored cs))) := by
    intro g hg
    apply Matrix.evaluateWithZ_eq
    intro r hr e he
    obtain ⟨c, hc, rfl⟩ := List.mem_map.mp hr
    exact (hg c hc).allocated e he
  unfold CS.evaluate CS.matA CS.matB CS.matC
  rw [h _ (fun c hc => (wf.rows c hc).a), h _ (fun c hc => (wf.rows c hc).b), h _ (fun c hc => (wf.rows c hc).c)]
  rfl

end Field

variable {F G1 G2 GT : Type} [Field F] [DecidableEq F]
variable [AddCommGroup G1] [Module F G1] [AddCommGroup G2] [Module F G2] [AddCommGroup GT] [Module F GT]
variable [DecidableEq G1] [DecidableEq G2] [DecidableEq GT]
variable {S : Nat} {root gen : F} {g1 : G1} {g2 : G2} {e : G1 →ₗ[F] G2 →ₗ[F] GT} {t : Trapdoor F}

/-- Lagrange coefficients at `τ` as the key uses them. -/
def lag (f : Fft F) (tau : F) (m : Nat) : Nat → F := fun j => (idft f (powersFrom tau m 1)).getD j 0

/-- What a key made by `setup` for the matrices of `cs` computes. -/
structure KeyOk (g1 : G1) (g2 : G2) (e : G1 →ₗ[F] G2 →ₗ[F] GT) (t : Trapdoor F) (f : Fft F) (cs : CS F) (p : Params G1 G2)
    (vk : PVKey G1 G2 GT) : Prop where
  gamma : t.gamma ≠ 0
  delta : t.delta ≠ 0
  a : ∀ x, x.length = cs.l → msmSum p.a x = rd (lag f t.tau cs.m) cs.matA x [] • g1
  b1 : ∀ x, x.length = cs.l → msmSum p.bG1 x = rd (lag f t.tau cs.m) cs.matB x [] • g1
  b2 : ∀ x, x.length = cs.l → msmSum p.bG2 x = rd (lag f t.tau cs.m) cs.matB x [] • g2
  aw : ∃ v, sliceFrom p.a cs.l = some v ∧ ∀ w, msmSum v w = rd (lag f t.tau cs.m) cs.matA [] w • g1
  bw1 : ∃ v, sliceFrom p.bG1 cs.l = some v ∧ ∀ w, msmSum v w = rd (lag f t.tau cs.m) cs.matB [] w • g1
  bw2 : ∃ v, sliceFrom p.bG2 cs.l = some v ∧ ∀ w, msmSum v w = rd (lag f t.tau cs.m) cs.matB [] w • g2
  l : ∀ w, msmSum p.l w = ((rd (lag f t.tau cs.m) cs.matA [] w * t.beta + rd (lag f t.tau cs.m) cs.matB [] w * t.alpha +
    rd (lag f t.tau cs.m) cs.matC [] w) * t.delta⁻¹) • g1
  h : ∀ q, msmSum p.h q = ((f.z t.tau * t.delta⁻¹) * qEval cs.m q t.tau) • g1
  icLen : vk.ic.length = cs.l
  ic : ∀ inputs : List F, inputs.length + 1 = cs.l → icAcc vk.ic inputs =
    ((rd (lag f t.tau cs.m) cs.matA (1 :: inputs) [] * t.beta + rd (lag f t.tau cs.m) cs.matB (1 :: inputs) [] * t.alpha +
      rd (lag f t.tau cs.m) cs.matC (1 :: inputs) []) * t.gamma⁻¹) • g1
  vkAlpha : p.vk.alphaG1 = t.alpha • g1
  vkBeta1 : p.vk.betaG1 = t.beta • g1
  vkBeta2 : p.vk.betaG2 = t.beta • g2
  vkDelta1 : p.vk.deltaG1 = t.delta • g1
  vkDelta2 : p.vk.deltaG2 = t.delta • g2
  pAlphaBeta : vk.alphaBeta = (t.alpha * t.beta) • e g1 g2
  pGamma : vk.negGamma = -(t.gamma • g2)
  pDelta : vk.negDelta = -(t.delta • g2)

theorem setup_keys {cs : CS F} {p : Params G1 G2} {vk : PVKey G1 G2 GT}
    (h : setup S root gen g1 g2 e t cs = some (.ok (p, vk))) :
    ∃ f, Fft.new S root gen (domainLog cs.m) = some f ∧ KeyOk g1 g2 e t f cs p vk := by
  simp only [setup, Option.bind_eq_bind, Option.bind_eq_some_iff] at h
  obtain ⟨f, hf, h⟩ := h
  refine ⟨f, hf, ?_⟩
  split at h
  · simp at h
  rename_i hg
  split at h
  · simp at h
  rename_i hd
  simp only [Option.bind_eq_some_iff, Option.some.injEq, Except.ok.injEq, Prod.mk.injEq] at h
  obtain ⟨⟨ax, aw⟩, hA, ⟨bx, bw⟩, hB, ⟨cx, cw⟩, hC, inputs, hi, aux, ha, rfl, rfl⟩ := h
  obtain ⟨us, vs, ws, e1, e2, e3, e4, e5, e6, e7, e8, e9⟩ := evalCols_eq hi
  obtain ⟨us', vs', ws', e1', e2', e3', e4', e5', e6', e7', e8', e9'⟩ := evalCols_eq ha
  obtain ⟨lA, lA', -, -⟩ := xAndW_spec hA
  have lu : us.length = cs.l := by rw [e1, List.length_map, lA]
  have gx : ∀ x, dot x us = rd (lag f t.tau cs.m) cs.matA x [] := fun x => by rw [e1]; exact rd_pub hA x
  have gy : ∀ x, dot x vs = rd (lag f t.tau cs.m) cs.matB x [] := fun x => by rw [e2]; exact rd_pub hB x
  have gz : ∀ x, dot x ws = rd (lag f t.tau cs.m) cs.matC x [] := fun x => by rw [e3]; exact rd_pub hC x
  have gx' : ∀ x, dot x us' = rd (lag f t.tau cs.m) cs.matA [] x := fun x => by rw [e1']; exact rd_aux hA x
  have gy' : ∀ x, dot x vs' = rd (lag f t.tau cs.m) cs.matB [] x := fun x => by rw [e2']; exact rd_aux hB x
  have gz' : ∀ x, dot x ws' = rd (lag f t.tau cs.m) cs.matC [] x := fun x => by rw [e3']; exact rd_aux hC x
  refine ⟨hg, hd, ?_, ?_, ?_, ?_, ?_, ?_, ?_, ?_, ?_, ?_, rfl, rfl, rfl, rfl, rfl, ?_, rfl, rfl⟩
  · intro x hx
    dsimp only
    rw [e6, e6', ← List.map_append, msmSum_smul, dot_append_left _ _ _ (by omega), gx]
  · intro x hx
    dsimp only
    rw [e7, e7', ← List.map_append, msmSum_smul, dot_append_left _ _ _ (by omega), gy]
  · intro x hx
    dsimp only
    rw [e8, e8', ← List.map_append, msmSum_smul, dot_append_left _ _ _ (by omega), gy]
  · refine ⟨us'.map (· • g1), ?_, fun w => by rw [msmSum_smul, gx']⟩
    dsimp only
    rw [e6, e6', ← List.map_append]
    unfold sliceFrom
    rw [if_pos (by simp; omega), ← List.map_drop, List.drop_left' lu]
  · refine ⟨vs'.map (· • g1), ?_, fun w => by rw [msmSum_smul, gy']⟩
    dsimp only
    rw [e7, e7', ← List.map_append]
    unfold sliceFrom
    rw [if_pos (by simp; omega), ← List.map_drop, List.drop_left' (by omega)]
  · refine ⟨vs'.map (· • g2), ?_, fun w => by rw [msmSum_smul, gy']⟩
    dsimp only
    rw [e8, e8', ← List.map_append]
    unfold sliceFrom
    rw [if_pos (by simp; omega), ← List.map_drop, List.drop_left' (by omega)]
  · intro w
    rw [e9', msmSum_smul, dot_ext _ _ _ _ _ _ _ e4' e5', gx', gy', gz']
  · intro q
    rw [show (fun p => (p * (f.z t.tau * t.delta⁻¹)) • g1) = (fun c : F => c • g1) ∘ (fun p => p * (f.z t.tau * t.delta⁻¹)) from rfl,
      ← List.map_map, msmSum_smul, powersFrom_take _ _ _ _ (by omega), dot_powers, one_mul]
    rfl
  · simp only [VKey.prepare]
    rw [e9]; simp; omega
  · intro inp hin
    simp only [VKey.prepare]
    rw [e9]
    have hl : (List.zipWith (fun p w => (p + w) * t.gamma⁻¹) (List.zipWith (fun u v => u * t.beta + v * t.alpha) us vs) ws).length = cs.l := by
      simp; omega
    have := dot_ext (1 :: inp) us vs ws t.alpha t.beta t.gamma⁻¹ e4 e5
    rw [gx, gy, gz] at this
    rw [← this]
    generalize List.zipWith (fun p w => (p + w) * t.gamma⁻¹) (List.zipWith (fun u v => u * t.beta + v * t.alpha) us vs) ws = ex at *
    cases ex with
    | nil => simp at hl; omega
    | cons v ex => exact icAcc_eq g1 v ex inp
  · simp only [VKey.prepare, map_smul, LinearMap.smul_apply, smul_smul]
    rw [mul_comm]

theorem setup_run {cs : CS F} (wf : ∀ c ∈ cs.cons, ConstraintOk cs c) {f : Fft F} (hf : Fft.new S root gen (domainLog cs.m) = some f)
    (hg : t.gamma ≠ 0) (hd : t.delta ≠ 0) (hL : cs.m ≤ (idft f (powersFrom t.tau cs.m 1)).length) :
    ∃ p vk, setup S root gen g1 g2 e t cs = some (.ok (p, vk)) := by
  have alloc : ∀ (g : Constraint F → Row F), (∀ c ∈ cs.cons, RowOk cs (g c)) → ∀ r ∈ cs.cons.map g, ∀ x ∈ r, Allocated cs x.1 := by
    intro g hg r hr x hx
    obtain ⟨c, hc, rfl⟩ := List.mem_map.mp hr
    exact (hg c hc).allocated x hx
  obtain ⟨ax, aw, hA⟩ := xAndW_run (cs := cs) (rows := cs.matA) (alloc _ (fun c hc => (wf c hc).a))
  obtain ⟨bx, bw, hB⟩ := xAndW_run (cs := cs) (rows := cs.matB) (alloc _ (fun c hc => (wf c hc).b))
  obtain ⟨cx, cw, hC⟩ := xAndW_run (cs := cs) (rows := cs.matC) (alloc _ (fun c hc => (wf c hc).c))
  obtain ⟨a1, a2, a3, -⟩ := xAndW_spec hA
  obtain ⟨b1, b2, b3, -⟩ := xAndW_spec hB
  obtain ⟨c1, c2, c3, -⟩ := xAndW_spec hC
  have la : cs.matA.length = cs.m := by simp [CS.matA, CS.m]
  have lb : cs.matB.length = cs.m := by simp [CS.matB, CS.m]
  have lc : cs.matC.length = cs.m := by simp [CS.matC, CS.m]
  obtain ⟨qi, hi⟩ := evalCols_run (g1 := g1) (g2 := g2) (pt := idft f (powersFrom t.tau cs.m 1)) (inv := t.gamma⁻¹) (alpha := t.alpha)
    (beta := t.beta) (A := ax) (B := bx) (C := cx) (by omega) (by omega) (by
      intro col hc x hx
      simp only [List.mem_append] at hc
      rcases hc with (hc | hc) | hc
      · have := a3 col (by simp [hc]) x hx; omega
      · have := b3 col (by simp [hc]) x hx; omega
      · have := c3 col (by simp [hc]) x hx; omega)
  obtain ⟨qa, ha⟩ := evalCols_run (g1 := g1) (g2 := g2) (pt := idft f (powersFrom t.tau cs.m 1)) (inv := t.delta⁻¹) (alpha := t.alpha)
    (beta := t.beta) (A := aw) (B := bw) (C := cw) (by omega) (by omega) (by
      intro col hc x hx
      simp only [List.mem_append] at hc
      rcases hc with (hc | hc) | hc
      · have := a3 col (by simp [hc]) x hx; omega
      · have := b3 col (by simp [hc]) x hx; omega
      · have := c3 col (by simp [hc]) x hx; omega)
  unfold setup
  simp only [hf, if_neg hg, if_neg hd, hA, hB, hC, hi, ha, Option.bind_eq_bind, Option.bind_some]
  exact ⟨_, _, rfl⟩

/-- Scalars of the proof. -/
structure Scalars (F : Type) where
  a : F
  b : F
  c : F

/-- The proof `create_proof` computes, in terms of the column sums. -/
def proofScalars (f : Fft F) (t : Trapdoor F) (r s : F) (cs : CS F) (q : List F) : Scalars F :=
  let u := rd (lag f t.tau cs.m) cs.matA cs.x cs.w
  let v := rd (lag f t.tau cs.m) cs.matB cs.x cs.w
  { a := r * t.delta + t.alpha + u
    b := s * t.delta + t.beta + v
    c := s * (r * t.delta) + s * t.alpha + r * t.beta + s * u + r * v + ((f.z t.tau * t.delta⁻¹) * qEval cs.m q t.tau +
      (rd (lag f t.tau cs.m) cs.matA [] cs.w * t.beta + rd (lag f t.tau cs.m) cs.matB [] cs.w * t.alpha +
        rd (lag f t.tau cs.m) cs.matC [] cs.w) * t.delta⁻¹) }

theorem createProof_eq {cs0 cs : CS F} (sh : SameShape cs0 cs) (wf : Wf cs) {f : Fft F}
    (hf : Fft.new S root gen (domainLog cs.m) = some f) {p : Params G1 G2} {vk : PVKey G1 G2 GT}
    (key : KeyOk g1 g2 e t f cs0 p vk) (h1 : g1 ≠ 0) (h2 : g2 ≠ 0) (r s : F) {q : List F}
    (hq : quotient f (cs.matA.map (rowVal (stored cs))) (cs.matB.map (rowVal (stored cs))) (cs.matC.map (rowVal (stored cs))) = some q) :
    createProof S root gen p r s cs = some (.ok
      { a := (proofScalars f t r s cs q).a • g1, b := (proofScalars f t r s cs q).b • g2, c := (proofScalars f t r s cs q).c • g1 }) := by
  have hA : cs0.matA = cs.matA := by unfold CS.matA; rw [sh.cons]
  have hB : cs0.matB = cs.matB := by unfold CS.matB; rw [sh.cons]
  have hC : cs0.matC = cs.matC := by unfold CS.matC; rw [sh.cons]
  have hm : cs0.m = cs.m := by unfold CS.m; rw [sh.cons]
  have hl : cs0.l = cs.l := sh.x
  obtain ⟨kg, kd, ka, kb1, kb2, ⟨av, a1, a2⟩, ⟨bv, b1, b2⟩, ⟨dv, d1, d2⟩, kl, kh, -, -, v1, v2, v3, v4, v5, -, -, -⟩ := key
  rw [hl] at ka kb1 kb2 a1 b1 d1
  rw [hm, hA] at ka a2
  rw [hm, hB] at kb1 kb2 b2 d2
  rw [hm, hA, hB, hC] at kl
  rw [hm] at kh
  have n1 : ¬ (t.delta • g1 = 0 ∨ t.delta • g2 = 0) := by
    rintro (h | h)
    · rcases smul_eq_zero.mp h with h | h
      · exact kd h
      · exact h1 h
    · rcases smul_eq_zero.mp h with h | h
      · exact kd h
      · exact h2 h
  simp only [createProof, hf, evaluate_eq_some wf, hq, a1, b1, d1, Option.bind_eq_bind, Option.bind_some, v1, v2, v3, v4, v5, if_neg n1,
    ka cs.x rfl, kb1 cs.x rfl, kb2 cs.x rfl, a2, b2, d2, kl, kh]
  simp only [Option.some.injEq, Except.ok.injEq, Proof.mk.injEq, proofScalars]
  rw [rd_split _ cs.matA cs.x cs.w, rd_split _ cs.matB cs.x cs.w]
  refine ⟨?_, ?_, ?_⟩
  · module
  · module
  · module

theorem verify_ok_iff {vk : PVKey G1 G2 GT} {π : Proof G1 G2} {inputs : List F} : verify e vk π inputs = .ok () ↔
    inputs.length + 1 = vk.ic.length ∧ e π.a π.b + e (icAcc vk.ic inputs) vk.negGamma + e π.c vk.negDelta = vk.alphaBeta := by
  unfold verify
  split
  · rename_i h; simp only [reduceCtorEq, false_iff]; tauto
  · rename_i h
    simp only
    split
    · rename_i h2; simp only [reduceCtorEq, false_iff]; tauto
    · rename_i h2; simp only [true_iff]; exact ⟨not_not.mp h, not_not.mp h2⟩

/-- The verifier's decision on an honestly computed proof. -/
theorem accept_iff {cs0 cs : CS F} (sh : SameShape cs0 cs) (wf : Wf cs) {f : Fft F} {p : Params G1 G2} {vk : PVKey G1 G2 GT}
    (key : KeyOk g1 g2 e t f cs0 p vk) (r s : F) (q : List F) :
    verify e vk { a := (proofScalars f t r s cs q).a • g1, b := (proofScalars f t r s cs q).b • g2, c := (proofScalars f t r s cs q).c • g1 }
      cs.x.tail = .ok () ↔
    (rd (lag f t.tau cs.m) cs.matA cs.x cs.w * rd (lag f t.tau cs.m) cs.matB cs.x cs.w - rd (lag f t.tau cs.m) cs.matC cs.x cs.w
      - f.z t.tau * qEval cs.m q t.tau) • e g1 g2 = 0 := by
  have hA : cs0.matA = cs.matA := by unfold CS.matA; rw [sh.cons]
  have hB : cs0.matB = cs.matB := by unfold CS.matB; rw [sh.cons]
  have hC : cs0.matC = cs.matC := by unfold CS.matC; rw [sh.cons]
  have hm : cs0.m = cs.m := by unfold CS.m; rw [sh.cons]
  have hl : cs0.l = cs.l := sh.x
  obtain ⟨kg, kd, -, -, -, -, -, -, -, -, il, ki, -, -, -, -, -, p1, p2, p3⟩ := key
  have hx : cs.x = 1 :: cs.x.tail := by
    have := wf.one
    cases hcx : cs.x with
    | nil => rw [hcx] at this; simp at this
    | cons a as => rw [hcx] at this; simp at this; rw [this]; rfl
  have hlen : cs.x.tail.length + 1 = cs.l := by
    unfold CS.l; conv_rhs => rw [hx]
    simp
  rw [verify_ok_iff, il, hl, ki _ (by omega), p1, p2, p3, hm, hA, hB, hC, ← hx]
  simp only [hlen, true_and]
  simp only [map_smul, map_neg, LinearMap.smul_apply, smul_smul, proofScalars]
  rw [rd_split _ cs.matA cs.x cs.w, rd_split _ cs.matB cs.x cs.w, rd_split _ cs.matC cs.x cs.w]
  generalize rd (lag f t.tau cs.m) cs.matA cs.x [] = ux
  generalize rd (lag f t.tau cs.m) cs.matB cs.x [] = vx
  generalize rd (lag f t.tau cs.m) cs.matC cs.x [] = wx
  generalize rd (lag f t.tau cs.m) cs.matA [] cs.w = uw
  generalize rd (lag f t.tau cs.m) cs.matB [] cs.w = vw
  generalize rd (lag f t.tau cs.m) cs.matC [] cs.w = ww
  generalize f.z t.tau = z
  generalize qEval cs.m q t.tau = Q
  rw [← sub_eq_zero]
  apply Eq.congr_left
  match_scalars
  field_simp
  ring

end Kogarashi.Groth16
