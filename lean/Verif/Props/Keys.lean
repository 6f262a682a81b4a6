import Verif.Props.SetupPanics
import Verif.Props.Completeness

/-!
# Property C114: what the Groth16 keys contain

The comments of `groth16/src/params.rs` and `groth16/src/verifier.rs` say how long the vectors of the keys are, what
their entries are, and that no entry is the point at infinity.  The lengths and the entries are proved here; the
claims about infinity are refuted where they fail.
-/

namespace Kogarashi.Props

open Kogarashi Spec Groth16 Polynomial Field

/-! ### Vocabulary -/

section Vocabulary
variable {F : Type} [Field F] [DecidableEq F]

/-- The coefficient of a wire in a row. -/
def coeffOf (r : Row F) (w : Wire) : F := ((r.filter (fun e => e.1 = w)).map Prod.snd).sum

/-- `u` is the polynomial of wire `w` in the matrix `M`: its values on the domain of `2^k` points are the coefficients of
the wire in the rows, zero beyond the last row. -/
structure WirePoly (S : Nat) (root : F) (k : Nat) (M : List (Row F)) (w : Wire) (u : F[X]) : Prop where
  deg : u.degree < (2 ^ k : Nat)
  val : ∀ j, j < 2 ^ k → u.eval (omega S root k ^ j) = ((M[j]?).map (coeffOf · w)).getD 0

/-- The value at `x` of the first `m` terms of `u`. -/
noncomputable def firstTerms (u : F[X]) (m : Nat) (x : F) : F := ∑ i ∈ Finset.range m, u.coeff i * x ^ i

theorem firstTerms_eval {u : F[X]} {m : Nat} (h : u.degree < (m : Nat)) (x : F) : firstTerms u m x = u.eval x := by
  unfold firstTerms
  by_cases hu : u = 0
  · simp [hu]
  · exact (eval_eq_sum_range' (by rwa [natDegree_lt_iff_degree_lt hu]) x).symm

/-- The list that is one at position `i` and zero elsewhere. -/
private def unit (i : Nat) : List F := List.replicate i 0 ++ [1]

private theorem dot_unit (i : Nat) (vs : List F) : dot (unit i) vs = vs.getD i 0 := by
  unfold dot unit
  induction i generalizing vs with
  | zero => cases vs <;> simp
  | succ i ih =>
    cases vs with
    | nil => simp
    | cons v vs =>
      rw [List.replicate_succ, List.cons_append, List.zipWith_cons_cons, List.sum_cons, ih]
      simp

private theorem unit_getD (i j : Nat) : (unit (F := F) i).getD j 0 = if j = i then 1 else 0 := by
  unfold unit
  rw [List.getD_eq_getElem?_getD, List.getElem?_append]
  split
  · rename_i h
    rw [List.length_replicate] at h
    rw [List.getElem?_replicate, if_pos h, if_neg (by omega)]; rfl
  · rename_i h
    rw [List.length_replicate] at h ⊢
    by_cases hj : j = i
    · subst hj; simp
    · rw [if_neg hj, List.getElem?_eq_none (by simp; omega)]; rfl

private theorem coeffOf_eq (r : Row F) (w : Wire) : coeffOf r w = rowVal (fun e => if e = w then 1 else 0) r := by
  unfold coeffOf rowVal
  induction r with
  | nil => simp
  | cons e r ih =>
    rw [List.filter_cons]
    by_cases h : e.1 = w
    · simp [h, ih]
    · simp [h, ih]

private theorem readD_unit_inst (i : Nat) : readD (unit (F := F) i) [] = fun e => if e = Wire.inst i then 1 else 0 := by
  funext e
  cases e with
  | inst j => simp only [readD, unit_getD, Wire.inst.injEq]
  | wit j => simp [readD]

private theorem readD_unit_wit (i : Nat) : readD [] (unit (F := F) i) = fun e => if e = Wire.wit i then 1 else 0 := by
  funext e
  cases e with
  | inst j => simp [readD]
  | wit j => simp only [readD, unit_getD, Wire.wit.injEq]

variable {S k : Nat} {root gen : F} {f : Fft F}

/-- The weighted sum of a column is the truncated polynomial of the wire. -/
private theorem column_sum (d : Domain S root gen k f) (tau : F) {M : List (Row F)} {m : Nat} (hM : M.length = m)
    (hm : m ≤ 2 ^ k) {w : Wire} {u : F[X]} (hu : WirePoly S root k M w u) :
    rowsDot (lag f tau m) (fun e => if e = w then 1 else 0) 0 M = firstTerms u m tau := by
  obtain ⟨j, rfl, ok, -⟩ := d.ok
  have hval : ∀ i, ((M.map (rowVal (fun e => if e = w then (1 : F) else 0))).getD i 0) = ((M[i]?).map (coeffOf · w)).getD 0 := by
    intro i
    rw [List.getD_eq_getElem?_getD, List.getElem?_map]
    cases M[i]? with
    | none => rfl
    | some r => simp only [Option.map_some, Option.getD_some, coeffOf_eq]
  rw [rowsDot_sum _ _ _ _ (2 ^ (j + 1)) (by omega)]
  simp only [zero_add]
  unfold lag
  rw [lagrange_dot ok tau hm]
  have : u = polyOf (idft f (M.map (rowVal (fun e => if e = w then (1 : F) else 0)))) := by
    have pr := prim ok
    refine eq_of_degrees_lt_of_eval_index_eq (s := Finset.range (2 ^ (j + 1))) (v := fun i => omega S root (j + 1) ^ i) ?_ ?_ ?_ ?_
    · intro a ha b hb hab
      rw [Finset.coe_range, Set.mem_Iio] at ha hb
      exact pr.pow_inj ha hb hab
    · rw [Finset.card_range]; exact_mod_cast hu.deg
    · rw [Finset.card_range]
      exact lt_of_lt_of_le (degree_polyOf_lt _) (by exact_mod_cast idft_length ok _)
    · intro i hi
      have hi := Finset.mem_range.mp hi
      rw [hu.val i hi, ← hval i, ← eval_idft ok _ hi]
  rw [← this]
  rfl

end Vocabulary

/-! ### The keys -/

variable {F G1 G2 GT : Type} [Field F] [DecidableEq F]
variable [AddCommGroup G1] [Module F G1] [AddCommGroup G2] [Module F G2] [AddCommGroup GT] [Module F GT]
variable [DecidableEq G1] [DecidableEq G2] [DecidableEq GT]
variable {S : Nat} {root gen : F} {g1 : G1} {g2 : G2} {e : G1 →ₗ[F] G2 →ₗ[F] GT} {t : Trapdoor F}
variable {cs : CS F} {p : Params G1 G2} {vk : PVKey G1 G2 GT}

/-- **C114, lengths.** `h` has one entry less than there are constraints, `ic` one per public wire (with the constant one),
`l` one per witness, and `a`, `b_g1`, `b_g2` one per wire. -/
theorem C114_lengths (h : setup S root gen g1 g2 e t cs = some (.ok (p, vk))) :
    p.h.length = cs.m - 1 ∧ p.vk.ic.length = cs.x.length ∧ p.l.length = cs.w.length ∧
    p.a.length = cs.x.length + cs.w.length ∧ p.bG1.length = cs.x.length + cs.w.length ∧
    p.bG2.length = cs.x.length + cs.w.length := by
  simp only [setup, Option.bind_eq_bind, Option.bind_eq_some_iff] at h
  obtain ⟨f, hf, h⟩ := h
  split at h
  · simp at h
  split at h
  · simp at h
  simp only [Option.bind_eq_some_iff, Option.some.injEq, Except.ok.injEq, Prod.mk.injEq] at h
  obtain ⟨⟨ax, aw⟩, hA, ⟨bx, bw⟩, hB, ⟨cx, cw⟩, hC, inputs, hi, aux, ha, rfl, rfl⟩ := h
  obtain ⟨us, vs, ws, e1, e2, e3, e4, e5, e6, e7, e8, e9⟩ := evalCols_eq hi
  obtain ⟨us', vs', ws', e1', e2', e3', e4', e5', e6', e7', e8', e9'⟩ := evalCols_eq ha
  obtain ⟨lA, lA', -, -⟩ := xAndW_spec hA
  have lu : us.length = cs.x.length := by rw [e1, List.length_map, lA]; rfl
  have lu' : us'.length = cs.w.length := by rw [e1', List.length_map, lA']
  have li : inputs.length = us.length := by have := congrArg List.length e6; simpa using this
  have la : aux.length = us'.length := by have := congrArg List.length e6'; simpa using this
  refine ⟨?_, ?_, ?_, ?_, ?_, ?_⟩
  · simp [powersFrom_length]
  all_goals simp; try omega

/-- **C114, the entries for the wires**, for every number of constraints. With `u`, `v`, `w` the polynomials of a wire in the
three matrices, cut after as many terms as there are constraints, the keys hold `u(τ)·G1`, `v(τ)·G1`, `v(τ)·G2` and
`(β·u(τ) + α·v(τ) + w(τ))/γ·G1` for a public wire, `/δ` for a witness. -/
theorem C114_entries (env : Env S root gen) (h : setup S root gen g1 g2 e t cs = some (.ok (p, vk))) :
    (∀ i u v w, i < cs.x.length → WirePoly S root (Nat.clog 2 cs.m) cs.matA (.inst i) u →
      WirePoly S root (Nat.clog 2 cs.m) cs.matB (.inst i) v → WirePoly S root (Nat.clog 2 cs.m) cs.matC (.inst i) w →
      p.a[i]? = some (firstTerms u cs.m t.tau • g1) ∧ p.bG1[i]? = some (firstTerms v cs.m t.tau • g1) ∧
      p.bG2[i]? = some (firstTerms v cs.m t.tau • g2) ∧
      p.vk.ic[i]? = some (((t.beta * firstTerms u cs.m t.tau + t.alpha * firstTerms v cs.m t.tau + firstTerms w cs.m t.tau) /
        t.gamma) • g1)) ∧
    (∀ i u v w, i < cs.w.length → WirePoly S root (Nat.clog 2 cs.m) cs.matA (.wit i) u →
      WirePoly S root (Nat.clog 2 cs.m) cs.matB (.wit i) v → WirePoly S root (Nat.clog 2 cs.m) cs.matC (.wit i) w →
      p.a[cs.x.length + i]? = some (firstTerms u cs.m t.tau • g1) ∧
      p.bG1[cs.x.length + i]? = some (firstTerms v cs.m t.tau • g1) ∧
      p.bG2[cs.x.length + i]? = some (firstTerms v cs.m t.tau • g2) ∧
      p.l[i]? = some (((t.beta * firstTerms u cs.m t.tau + t.alpha * firstTerms v cs.m t.tau + firstTerms w cs.m t.tau) /
        t.delta) • g1)) := by
  simp only [setup, Option.bind_eq_bind, Option.bind_eq_some_iff] at h
  obtain ⟨f, hf, h⟩ := h
  split at h
  · simp at h
  split at h
  · simp at h
  simp only [Option.bind_eq_some_iff, Option.some.injEq, Except.ok.injEq, Prod.mk.injEq] at h
  obtain ⟨⟨ax, aw⟩, hA, ⟨bx, bw⟩, hB, ⟨cx, cw⟩, hC, inputs, hi, aux, ha, rfl, rfl⟩ := h
  obtain ⟨us, vs, ws, e1, e2, e3, e4, e5, e6, e7, e8, e9⟩ := evalCols_eq hi
  obtain ⟨us', vs', ws', e1', e2', e3', e4', e5', e6', e7', e8', e9'⟩ := evalCols_eq ha
  obtain ⟨lA, lA', -, -⟩ := xAndW_spec hA
  have lu : us.length = cs.x.length := by rw [e1, List.length_map, lA]; rfl
  have lu' : us'.length = cs.w.length := by rw [e1', List.length_map, lA']
  have d := env.domain hf
  have hml : cs.m ≤ 2 ^ domainLog cs.m := Nat.le_pow_clog (by norm_num) _
  have sum : ∀ {M : List (Row F)} {wr : Wire} {u : F[X]}, M.length = cs.m → WirePoly S root (Nat.clog 2 cs.m) M wr u →
      rowsDot (lag f t.tau cs.m) (fun e => if e = wr then 1 else 0) 0 M = firstTerms u cs.m t.tau :=
    fun hM hu => column_sum d t.tau hM hml hu
  have lMA : cs.matA.length = cs.m := by simp [CS.matA, CS.m]
  have lMB : cs.matB.length = cs.m := by simp [CS.matB, CS.m]
  have lMC : cs.matC.length = cs.m := by simp [CS.matC, CS.m]
  have pub : ∀ {M : List (Row F)} {X W : List (List (F × Nat))} (_ : Matrix.xAndW M cs.l cs.w.length = some (X, W)) {i : Nat}
      {u : F[X]}, M.length = cs.m → i < cs.x.length → WirePoly S root (Nat.clog 2 cs.m) M (.inst i) u →
      (X.map (colVal (fun j => (idft f (powersFrom t.tau cs.m 1)).getD j 0)))[i]? = some (firstTerms u cs.m t.tau) := by
    intro M X W hM i u hl hi hu
    have h1 := rd_pub (φ := lag f t.tau cs.m) hM (unit i)
    rw [dot_unit, rd, readD_unit_inst, sum hl hu] at h1
    have hlen : i < (X.map (colVal (lag f t.tau cs.m))).length := by
      rw [List.length_map, (xAndW_spec hM).1]; exact hi
    rw [List.getD_eq_getElem _ _ hlen] at h1
    rw [← h1]
    exact List.getElem?_eq_getElem hlen
  have prv : ∀ {M : List (Row F)} {X W : List (List (F × Nat))} (_ : Matrix.xAndW M cs.l cs.w.length = some (X, W)) {i : Nat}
      {u : F[X]}, M.length = cs.m → i < cs.w.length → WirePoly S root (Nat.clog 2 cs.m) M (.wit i) u →
      (W.map (colVal (fun j => (idft f (powersFrom t.tau cs.m 1)).getD j 0)))[i]? = some (firstTerms u cs.m t.tau) := by
    intro M X W hM i u hl hi hu
    have h1 := rd_aux (φ := lag f t.tau cs.m) hM (unit i)
    rw [dot_unit, rd, readD_unit_wit, sum hl hu] at h1
    have hlen : i < (W.map (colVal (lag f t.tau cs.m))).length := by
      rw [List.length_map, (xAndW_spec hM).2.1]; exact hi
    rw [List.getD_eq_getElem _ _ hlen] at h1
    rw [← h1]
    exact List.getElem?_eq_getElem hlen
  constructor
  · intro i u v w hi' hu hv hw
    have gu := pub hA lMA hi' hu
    have gv := pub hB lMB hi' hv
    have gw := pub hC lMC hi' hw
    rw [← e1] at gu; rw [← e2] at gv; rw [← e3] at gw
    refine ⟨?_, ?_, ?_, ?_⟩
    · dsimp only
      rw [e6, List.getElem?_append_left (by simp; omega), List.getElem?_map, gu]; rfl
    · dsimp only
      rw [e7, List.getElem?_append_left (by simp; omega), List.getElem?_map, gv]; rfl
    · dsimp only
      rw [e8, List.getElem?_append_left (by simp; omega), List.getElem?_map, gv]; rfl
    · dsimp only
      rw [e9, List.getElem?_map, List.getElem?_zipWith, List.getElem?_zipWith, gu, gv, gw]
      simp only [Option.map_some, div_eq_mul_inv, mul_comm]
  · intro i u v w hi' hu hv hw
    have gu := prv hA lMA hi' hu
    have gv := prv hB lMB hi' hv
    have gw := prv hC lMC hi' hw
    rw [← e1'] at gu; rw [← e2'] at gv; rw [← e3'] at gw
    refine ⟨?_, ?_, ?_, ?_⟩
    · dsimp only
      rw [e6, e6', List.getElem?_append_right (by simp; omega), List.getElem?_map, List.length_map, lu, Nat.add_sub_cancel_left, gu]; rfl
    · dsimp only
      rw [e7, e7', List.getElem?_append_right (by simp; omega), List.getElem?_map, List.length_map, ← e4, lu, Nat.add_sub_cancel_left, gv]; rfl
    · dsimp only
      rw [e8, e8', List.getElem?_append_right (by simp; omega), List.getElem?_map, List.length_map, ← e4, lu, Nat.add_sub_cancel_left, gv]; rfl
    · dsimp only
      rw [e9', List.getElem?_map, List.getElem?_zipWith, List.getElem?_zipWith, gu, gv, gw]
      simp only [Option.map_some, div_eq_mul_inv, mul_comm]

/-- Every wire has exactly one polynomial in every matrix. -/
theorem wirePoly_unique (env : Env S root gen) {k : Nat} (hk : 1 ≤ k) (hkS : k ≤ S) {M : List (Row F)} (w : Wire) :
    ∃! u, WirePoly S root k M w u := by
  obtain ⟨f, hf⟩ := (C40_new S root gen env.small env.two env.rootOk env.genOk k).mpr ⟨hk, hkS⟩
  obtain ⟨j, rfl, ok, -⟩ := (env.domain hf).ok
  refine ⟨polyOf (idft f (M.map (coeffOf · w))), ⟨?_, ?_⟩, ?_⟩
  · exact lt_of_lt_of_le (degree_polyOf_lt _) (by exact_mod_cast idft_length ok _)
  · intro i hi
    rw [eval_idft ok _ hi, List.getD_eq_getElem?_getD, List.getElem?_map]
  · intro u hu
    refine eq_of_degrees_lt_of_eval_index_eq (s := Finset.range (2 ^ (j + 1))) (v := fun i => omega S root (j + 1) ^ i) ?_ ?_ ?_ ?_
    · intro a ha b hb hab
      rw [Finset.coe_range, Set.mem_Iio] at ha hb
      exact (prim ok).pow_inj ha hb hab
    · rw [Finset.card_range]; exact_mod_cast hu.deg
    · rw [Finset.card_range]
      exact lt_of_lt_of_le (degree_polyOf_lt _) (by exact_mod_cast idft_length ok _)
    · intro i hi
      have hi := Finset.mem_range.mp hi
      rw [hu.val i hi, eval_idft ok _ hi, List.getD_eq_getElem?_getD, List.getElem?_map]


/-- **C114, the entries for the wires** when the number of constraints is a power of two: nothing is cut off, the keys hold the
values of the polynomials at `τ`, as documented. Missing: the other numbers of constraints, for which this is false. -/
theorem C114_qap_partial (env : Env S root gen) (h : setup S root gen g1 g2 e t cs = some (.ok (p, vk))) {k : Nat}
    (hm : cs.m = 2 ^ k) :
    (∀ i u v w, i < cs.x.length → WirePoly S root k cs.matA (.inst i) u → WirePoly S root k cs.matB (.inst i) v →
      WirePoly S root k cs.matC (.inst i) w →
      p.a[i]? = some (u.eval t.tau • g1) ∧ p.bG1[i]? = some (v.eval t.tau • g1) ∧ p.bG2[i]? = some (v.eval t.tau • g2) ∧
      p.vk.ic[i]? = some (((t.beta * u.eval t.tau + t.alpha * v.eval t.tau + w.eval t.tau) / t.gamma) • g1)) ∧
    (∀ i u v w, i < cs.w.length → WirePoly S root k cs.matA (.wit i) u → WirePoly S root k cs.matB (.wit i) v →
      WirePoly S root k cs.matC (.wit i) w →
      p.a[cs.x.length + i]? = some (u.eval t.tau • g1) ∧ p.bG1[cs.x.length + i]? = some (v.eval t.tau • g1) ∧
      p.bG2[cs.x.length + i]? = some (v.eval t.tau • g2) ∧
      p.l[i]? = some (((t.beta * u.eval t.tau + t.alpha * v.eval t.tau + w.eval t.tau) / t.delta) • g1)) := by
  have hc : Nat.clog 2 cs.m = k := by rw [hm]; exact Nat.clog_pow 2 k (by norm_num)
  obtain ⟨h1, h2⟩ := C114_entries env h
  rw [hc] at h1 h2
  have cut : ∀ {M : List (Row F)} {wr : Wire} {u : F[X]}, WirePoly S root k M wr u → firstTerms u cs.m t.tau = u.eval t.tau := by
    intro M wr u hu
    rw [hm]
    exact firstTerms_eval hu.deg _
  constructor
  · intro i u v w hi hu hv hw
    have := h1 i u v w hi hu hv hw
    rwa [cut hu, cut hv, cut hw] at this
  · intro i u v w hi hu hv hw
    have := h2 i u v w hi hu hv hw
    rwa [cut hu, cut hv, cut hw] at this

/-- **C114, the powers.** Entry `i` of `h` is `τ^i·(τ^n - 1)/δ·G1`, `n` the size of the domain. -/
theorem C114_powers (env : Env S root gen) (h : setup S root gen g1 g2 e t cs = some (.ok (p, vk))) (i : Nat)
    (hi : i < cs.m - 1) : p.h[i]? = some ((t.tau ^ i * (t.tau ^ 2 ^ Nat.clog 2 cs.m - 1) / t.delta) • g1) := by
  simp only [setup, Option.bind_eq_bind, Option.bind_eq_some_iff] at h
  obtain ⟨f, hf, h⟩ := h
  split at h
  · simp at h
  split at h
  · simp at h
  simp only [Option.bind_eq_some_iff, Option.some.injEq, Except.ok.injEq, Prod.mk.injEq] at h
  obtain ⟨⟨ax, aw⟩, hA, ⟨bx, bw⟩, hB, ⟨cx, cw⟩, hC, inputs, hi', aux, ha, rfl, rfl⟩ := h
  dsimp only
  rw [powersFrom_take _ _ _ _ (by omega), List.getElem?_map, powersFrom_eq, List.getElem?_map, List.getElem?_range hi,
    z_eq (env.domain hf)]
  simp only [Option.map_some, one_mul, div_eq_mul_inv, mul_assoc]
  rfl

/-- **C114, the fixed points** of the verifying key. -/
theorem C114_fixed (h : setup S root gen g1 g2 e t cs = some (.ok (p, vk))) :
    p.vk.alphaG1 = t.alpha • g1 ∧ p.vk.betaG1 = t.beta • g1 ∧ p.vk.betaG2 = t.beta • g2 ∧ p.vk.gammaG2 = t.gamma • g2 ∧
    p.vk.deltaG1 = t.delta • g1 ∧ p.vk.deltaG2 = t.delta • g2 ∧ vk = p.vk.prepare e ∧ t.gamma ≠ 0 ∧ t.delta ≠ 0 := by
  simp only [setup, Option.bind_eq_bind, Option.bind_eq_some_iff] at h
  obtain ⟨f, hf, h⟩ := h
  split at h
  · simp at h
  rename_i hg
  split at h
  · simp at h
  rename_i hd
  simp only [Option.bind_eq_some_iff, Option.some.injEq, Except.ok.injEq, Prod.mk.injEq] at h
  obtain ⟨⟨ax, aw⟩, hA, ⟨bx, bw⟩, hB, ⟨cx, cw⟩, hC, inputs, hi', aux, ha, rfl, rfl⟩ := h
  exact ⟨rfl, rfl, rfl, rfl, rfl, rfl, rfl, hg, hd⟩

/-- **C114, infinity among the fixed points and the powers.** `γ` and `δ` never give the point at infinity; `α` and `β` do exactly
when they are zero; `h` contains it exactly when `τ` is in the domain, or `τ = 0` and there are at least three
constraints. -/
theorem C114_infinity_partial (env : Env S root gen) (n1 : g1 ≠ 0) (n2 : g2 ≠ 0)
    (h : setup S root gen g1 g2 e t cs = some (.ok (p, vk))) :
    p.vk.gammaG2 ≠ 0 ∧ p.vk.deltaG1 ≠ 0 ∧ p.vk.deltaG2 ≠ 0 ∧ (p.vk.alphaG1 = 0 ↔ t.alpha = 0) ∧
    (p.vk.betaG1 = 0 ↔ t.beta = 0) ∧ (p.vk.betaG2 = 0 ↔ t.beta = 0) ∧
    ((0 : G1) ∈ p.h ↔ t.tau ^ 2 ^ Nat.clog 2 cs.m = 1 ∨ t.tau = 0 ∧ 3 ≤ cs.m) := by
  obtain ⟨h1, h2, h3, h4, h5, h6, -, hg, hd⟩ := C114_fixed h
  have s1 : ∀ c : F, c • g1 = 0 ↔ c = 0 := fun c => by rw [smul_eq_zero, or_iff_left n1]
  have s2 : ∀ c : F, c • g2 = 0 ↔ c = 0 := fun c => by rw [smul_eq_zero, or_iff_left n2]
  refine ⟨by rw [h4, Ne, s2]; exact hg, by rw [h5, Ne, s1]; exact hd, by rw [h6, Ne, s2]; exact hd, by rw [h1, s1], by rw [h2, s1],
    by rw [h3, s2], ?_⟩
  have len := (C114_lengths h).1
  have m2 : 2 ≤ cs.m := by
    by_contra hlt
    rw [C44_small_refuted cs (by omega)] at h
    cases h
  have key : (0 : G1) ∈ p.h ↔ ∃ i, i < cs.m - 1 ∧ t.tau ^ i * (t.tau ^ 2 ^ Nat.clog 2 cs.m - 1) / t.delta = 0 := by
    rw [List.mem_iff_getElem?]
    constructor
    · rintro ⟨i, hi⟩
      have hlt : i < cs.m - 1 := by rw [← len]; exact (List.getElem?_eq_some_iff.mp hi).1
      refine ⟨i, hlt, ?_⟩
      rw [C114_powers env h i hlt, Option.some.injEq, s1] at hi
      exact hi
    · rintro ⟨i, hlt, hz⟩
      exact ⟨i, by rw [C114_powers env h i hlt, hz, zero_smul]⟩
  rw [key]
  constructor
  · rintro ⟨i, hlt, hz⟩
    rw [div_eq_zero_iff, or_iff_left hd, mul_eq_zero, sub_eq_zero] at hz
    rcases hz with hz | hz
    · have h0 : i ≠ 0 := by rintro rfl; rw [pow_zero] at hz; exact one_ne_zero hz
      exact .inr ⟨pow_eq_zero_iff h0 |>.mp hz, by omega⟩
    · exact .inl hz
  · rintro (hz | ⟨hz, h3⟩)
    · exact ⟨0, by omega, by rw [hz, sub_self, mul_zero, zero_div]⟩
    · exact ⟨1, by omega, by rw [hz, pow_one, zero_mul, zero_div]⟩

/-- **C114, infinity among the entries of the wires**, a power of two constraints: a wire that occurs in the matrix of the left
(right) operands has a point at infinity in `a` (`b_g1`, `b_g2`) for less than `m` values of `τ`. -/
theorem C114_wire_partial (env : Env S root gen) (n1 : g1 ≠ 0) (n2 : g2 ≠ 0) {k : Nat} (hk : 1 ≤ k) (hkS : k ≤ S) (cs : CS F)
    (hm : cs.m = 2 ^ k) (i : Nat) (hi : i < cs.x.length + cs.w.length) (wr : Wire)
    (hw : wr = if i < cs.x.length then .inst i else .wit (i - cs.x.length)) :
    ((∃ r ∈ cs.matA, coeffOf r wr ≠ 0) → ∃ bad : Finset F, bad.card < cs.m ∧ ∀ t p (vk : PVKey G1 G2 GT),
      setup S root gen g1 g2 e t cs = some (.ok (p, vk)) → (p.a[i]? = some 0 ↔ t.tau ∈ bad)) ∧
    ((∃ r ∈ cs.matB, coeffOf r wr ≠ 0) → ∃ bad : Finset F, bad.card < cs.m ∧ ∀ t p (vk : PVKey G1 G2 GT),
      setup S root gen g1 g2 e t cs = some (.ok (p, vk)) →
      (p.bG1[i]? = some 0 ↔ t.tau ∈ bad) ∧ (p.bG2[i]? = some 0 ↔ t.tau ∈ bad)) := by
  have s1 : ∀ c : F, c • g1 = 0 ↔ c = 0 := fun c => by rw [smul_eq_zero, or_iff_left n1]
  have s2 : ∀ c : F, c • g2 = 0 ↔ c = 0 := fun c => by rw [smul_eq_zero, or_iff_left n2]
  obtain ⟨u, hu, -⟩ := wirePoly_unique env hk hkS (M := cs.matA) wr
  obtain ⟨v, hv, -⟩ := wirePoly_unique env hk hkS (M := cs.matB) wr
  obtain ⟨w, hww, -⟩ := wirePoly_unique env hk hkS (M := cs.matC) wr
  have ent : ∀ t p (vk : PVKey G1 G2 GT), setup S root gen g1 g2 e t cs = some (.ok (p, vk)) →
      p.a[i]? = some (u.eval t.tau • g1) ∧ p.bG1[i]? = some (v.eval t.tau • g1) ∧ p.bG2[i]? = some (v.eval t.tau • g2) := by
    intro t p vk h
    obtain ⟨h1, h2⟩ := C114_qap_partial env h hm
    by_cases hlt : i < cs.x.length
    · rw [if_pos hlt] at hw
      subst hw
      obtain ⟨a1, a2, a3, -⟩ := h1 i u v w hlt hu hv hww
      exact ⟨a1, a2, a3⟩
    · rw [if_neg hlt] at hw
      subst hw
      obtain ⟨a1, a2, a3, -⟩ := h2 (i - cs.x.length) u v w (by omega) hu hv hww
      rw [Nat.add_sub_cancel' (by omega)] at a1 a2 a3
      exact ⟨a1, a2, a3⟩
  have nz : ∀ {M : List (Row F)} {q : F[X]}, M.length = cs.m → WirePoly S root k M wr q → (∃ r ∈ M, coeffOf r wr ≠ 0) →
      q ≠ 0 ∧ q.roots.toFinset.card < cs.m := by
    intro M q hM hq ⟨r, hr, hc⟩
    obtain ⟨j, hj⟩ := List.mem_iff_getElem?.mp hr
    have hjl : j < 2 ^ k := by rw [← hm, ← hM]; exact (List.getElem?_eq_some_iff.mp hj).1
    have hq0 : q ≠ 0 := by
      rintro rfl
      have := hq.val j hjl
      rw [hj, eval_zero] at this
      exact hc this.symm
    refine ⟨hq0, lt_of_le_of_lt (Multiset.toFinset_card_le _) (lt_of_le_of_lt (card_roots' q) ?_)⟩
    rw [natDegree_lt_iff_degree_lt hq0, hm]
    exact hq.deg
  constructor
  · intro hex
    obtain ⟨q0, qc⟩ := nz (by simp [CS.matA, CS.m]) hu hex
    refine ⟨u.roots.toFinset, qc, fun t p vk h => ?_⟩
    rw [(ent t p vk h).1, Option.some.injEq, s1, Multiset.mem_toFinset, mem_roots q0]
    rfl
  · intro hex
    obtain ⟨q0, qc⟩ := nz (by simp [CS.matB, CS.m]) hv hex
    refine ⟨v.roots.toFinset, qc, fun t p vk h => ?_⟩
    rw [(ent t p vk h).2.1, (ent t p vk h).2.2, Option.some.injEq, Option.some.injEq, s1, s2, Multiset.mem_toFinset, mem_roots q0]
    exact ⟨Iff.rfl, Iff.rfl⟩

private theorem zero_wirePoly {k : Nat} {M : List (Row F)} {w : Wire} (h : ∀ r ∈ M, coeffOf r w = 0) : WirePoly S root k M w 0 := by
  refine ⟨by rw [degree_zero]; exact WithBot.bot_lt_coe _, fun j _ => ?_⟩
  rw [eval_zero]
  cases hj : M[j]? with
  | none => rfl
  | some r => exact (h r (List.mem_of_getElem? hj)).symm

/-- **C114 is false: the keys contain points at infinity.** A wire that does not occur in a matrix is not omitted: its entry is
kept and is the point at infinity, whatever the secrets; so is the entry in `ic` (`l`) of an input (witness) no
constraint mentions, because no dummy constraint is added. -/
theorem C114_unused_refuted (env : Env S root gen) (h : setup S root gen g1 g2 e t cs = some (.ok (p, vk))) :
    (∀ i, i < cs.x.length → (∀ r ∈ cs.matA, coeffOf r (.inst i) = 0) → (∀ r ∈ cs.matB, coeffOf r (.inst i) = 0) →
      (∀ r ∈ cs.matC, coeffOf r (.inst i) = 0) →
      p.a[i]? = some 0 ∧ p.bG1[i]? = some 0 ∧ p.bG2[i]? = some 0 ∧ p.vk.ic[i]? = some 0) ∧
    (∀ i, i < cs.w.length → (∀ r ∈ cs.matA, coeffOf r (.wit i) = 0) → (∀ r ∈ cs.matB, coeffOf r (.wit i) = 0) →
      (∀ r ∈ cs.matC, coeffOf r (.wit i) = 0) →
      p.a[cs.x.length + i]? = some 0 ∧ p.bG1[cs.x.length + i]? = some 0 ∧ p.bG2[cs.x.length + i]? = some 0 ∧
      p.l[i]? = some 0) := by
  obtain ⟨h1, h2⟩ := C114_entries env h
  have z : firstTerms (0 : F[X]) cs.m t.tau = 0 := by simp [firstTerms]
  constructor
  · intro i hi a b c
    have := h1 i 0 0 0 hi (zero_wirePoly a) (zero_wirePoly b) (zero_wirePoly c)
    simpa only [z, mul_zero, add_zero, zero_div, zero_smul] using this
  · intro i hi a b c
    have := h2 i 0 0 0 hi (zero_wirePoly a) (zero_wirePoly b) (zero_wirePoly c)
    simpa only [z, mul_zero, add_zero, zero_div, zero_smul] using this

/-- **C114 is false: zero secrets are accepted.** For every circuit of three or more constraints `setup` returns keys for
`α = β = τ = 0`, with points at infinity in place of `alpha`, `beta` and in `h`. -/
theorem C114_zero_refuted (env : Env S root gen) (cs : CS F) (wf : Wf cs) (h3 : 3 ≤ cs.m) (hS : cs.m ≤ 2 ^ S) :
    ∃ p vk, setup S root gen g1 g2 e ⟨0, 0, 1, 1, 0⟩ cs = some (.ok (p, vk)) ∧
      p.vk.alphaG1 = 0 ∧ p.vk.betaG1 = 0 ∧ p.vk.betaG2 = 0 ∧ (0 : G1) ∈ p.h := by
  obtain ⟨o1, o2⟩ := ((C44_outcome (g1 := g1) (g2 := g2) (e := e) env cs wf ⟨0, 0, 1, 1, 0⟩).2 (by omega) hS).2
    one_ne_zero one_ne_zero
  obtain ⟨p, vk, h⟩ := o2 (by
    rw [Ne, o1]
    rintro ⟨j, men, hz⟩
    have hj : j < cs.m := by
      obtain ⟨c, h, -⟩ := men
      exact (List.getElem?_eq_some_iff.mp h).1
    have := hz j le_rfl (lt_of_lt_of_le hj (Nat.le_pow_clog (by norm_num) _))
    obtain ⟨m, hm⟩ : ∃ m, cs.m = m + 1 := ⟨cs.m - 1, by omega⟩
    rw [hm, Finset.sum_range_succ'] at this
    simp at this)
  obtain ⟨a1, a2, a3, -⟩ := C114_fixed h
  refine ⟨p, vk, h, by rw [a1, zero_smul], by rw [a2, zero_smul], by rw [a3, zero_smul], ?_⟩
  have := C114_powers env h 1 (by omega)
  simp only [pow_one, zero_mul, zero_div, zero_smul] at this
  exact List.mem_of_getElem? this

/-- **C114 is false: the entries are not the polynomials' values** when the number of constraints is not a power of two. In the
circuit `clash m` of `m + 2` constraints the first entry of `a` differs from `u(τ)·G1`, `u` the polynomial of wire one, for
all but fewer than `2^⌈log₂ (m + 2)⌉` values of `τ`. -/
theorem C114_qap_refuted (env : Env S root gen) (n1 : g1 ≠ 0) (m : Nat) (hm : ∀ k, m + 2 ≠ 2 ^ k) (hS : m + 2 ≤ 2 ^ S) :
    ∃ u, WirePoly S root (Nat.clog 2 (m + 2)) (clash m : CS F).matA Wire.ONE u ∧
    ∃ bad : Finset F, bad.card < 2 ^ Nat.clog 2 (m + 2) ∧ ∀ (t : Trapdoor F) p (vk : PVKey G1 G2 GT), t.tau ∉ bad →
      setup S root gen g1 g2 e t (clash m) = some (.ok (p, vk)) → p.a[0]? ≠ some (u.eval t.tau • g1) := by
  have s1 : ∀ c : F, c • g1 = 0 ↔ c = 0 := fun c => by rw [smul_eq_zero, or_iff_left n1]
  have hcm : (clash m : CS F).m = m + 2 := by simp [clash, consts, CS.m]
  have hk1 : 1 ≤ Nat.clog 2 (m + 2) := Nat.clog_pos (by norm_num) (by omega)
  have hkS : Nat.clog 2 (m + 2) ≤ S := (Nat.clog_le_iff_le_pow (by norm_num)).mpr hS
  obtain ⟨f, hf⟩ := (C40_new S root gen env.small env.two env.rootOk env.genOk _).mpr ⟨hk1, hkS⟩
  have d := env.domain hf
  set n := 2 ^ Nat.clog 2 (m + 2) with hn
  have hmn : m + 2 < n := lt_of_le_of_ne (Nat.le_pow_clog (by norm_num) _) (hm _)
  have vals : (clash m : CS F).matA.map (coeffOf · Wire.ONE) = 1 :: 0 :: List.replicate m 0 := by
    simp [clash, consts, constRow, CS.matA, coeffOf]
  obtain ⟨u, hu, huniq⟩ := wirePoly_unique env hk1 hkS (M := (clash m : CS F).matA) Wire.ONE
  obtain ⟨v, hv, -⟩ := wirePoly_unique env hk1 hkS (M := (clash m : CS F).matB) Wire.ONE
  obtain ⟨w, hw, -⟩ := wirePoly_unique env hk1 hkS (M := (clash m : CS F).matC) Wire.ONE
  have hui : u = interp f (1 :: 0 :: List.replicate m 0) := by
    obtain ⟨j, hj, ok, -⟩ := d.ok
    symm
    apply huniq
    rw [interp, ← vals]
    refine ⟨lt_of_lt_of_le (degree_polyOf_lt _) (by rw [hj]; exact_mod_cast idft_length ok _), fun i hi => ?_⟩
    rw [hj] at hi
    rw [eval_idft ok _ hi, List.getD_eq_getElem?_getD, List.getElem?_map]
  have cu : ∀ j, j < n → u.coeff j = (n : F)⁻¹ := by
    intro j hj
    have := interp_delta d (i := 0) (by positivity) (v := (1 : F) :: 0 :: List.replicate m 0) (by
      intro j; rcases j with _ | _ | j <;> simp [List.getD, List.getElem?_replicate]; split <;> rfl) hj
    rw [mul_zero, pow_zero, one_mul, ← hn] at this
    rw [hui, this]
  have hn0 : (n : F) ≠ 0 := by rw [hn]; push_cast; exact pow_ne_zero _ env.two
  let D : F[X] := u - headPoly (m + 2) u
  have hD : D.coeff (m + 2) ≠ 0 := by
    simp only [D, coeff_sub, headPoly_coeff, lt_irrefl, if_false, sub_zero]
    rw [cu _ hmn]
    exact inv_ne_zero hn0
  have hD0 : D ≠ 0 := by intro h; rw [h] at hD; exact hD (coeff_zero _)
  have hDd : D.natDegree < n := by
    rw [natDegree_lt_iff_degree_lt hD0]
    refine lt_of_le_of_lt (degree_sub_le _ _) (max_lt hu.deg ?_)
    rw [degree_lt_iff_coeff_zero]
    intro i hi
    rw [headPoly_coeff, if_neg (by omega)]
  refine ⟨u, hu, D.roots.toFinset, lt_of_le_of_lt (Multiset.toFinset_card_le _) (lt_of_le_of_lt (card_roots' D) hDd), ?_⟩
  intro t p vk ht h
  have h1 := (C114_entries env h).1 0 u v w (by simp [clash, consts]) (by rw [hcm]; exact hu) (by rw [hcm]; exact hv) (by rw [hcm]; exact hw)
  rw [h1.1, hcm, Ne, Option.some.injEq, ← sub_eq_zero, ← sub_smul, s1]
  intro h0
  apply ht
  rw [Multiset.mem_toFinset, mem_roots hD0, IsRoot.def, eval_sub, headPoly_eval]
  rw [← neg_eq_zero, neg_sub] at h0
  exact h0

/-! ### The statements apply to a circuit -/

/-- The demonstration circuit has a key; its second input is not used, hence gives a point at infinity. -/
example : ∃ t p vk, setup 5 (28 : ZMod 97) 5 (1 : ZMod 97) (1 : ZMod 97) (LinearMap.mul (ZMod 97) (ZMod 97)) t demoG = some (.ok (p, vk)) ∧
    p.h.length = 1 ∧ p.a.length = 5 ∧ p.vk.ic[2]? = some 0 ∧ p.a[2]? = some 0 ∧ p.vk.gammaG2 ≠ 0 := by
  obtain ⟨t, p, vk, h⟩ := demo_setup demoG (demoG_wf [2, 3] rfl) (by decide) (by decide)
  have hu := (C114_unused_refuted demoEnv h).1 2 (by decide) (by decide) (by decide) (by decide)
  exact ⟨t, p, vk, h, (C114_lengths h).1, (C114_lengths h).2.2.2.1, hu.2.2.2, hu.1,
    (C114_infinity_partial demoEnv one_ne_zero one_ne_zero h).1⟩

example := C114_wire_partial (e := LinearMap.mul (ZMod 97) (ZMod 97)) demoEnv (one_ne_zero : (1 : ZMod 97) ≠ 0) (one_ne_zero : (1 : ZMod 97) ≠ 0)
  (k := 1) (by norm_num) (by norm_num) demoG rfl 3 (by decide) (.wit 0) (by decide)

example := C114_zero_refuted (g1 := (1 : ZMod 97)) (g2 := (1 : ZMod 97)) (e := LinearMap.mul (ZMod 97) (ZMod 97)) demoEnv (clash 1)
  (consts_wf _) (by decide) (by decide)

example := C114_qap_refuted (g2 := (1 : ZMod 97)) (e := LinearMap.mul (ZMod 97) (ZMod 97)) demoEnv (one_ne_zero : (1 : ZMod 97) ≠ 0) 1 (by
  intro k h
  rcases k with _ | _ | k
  · norm_num at h
  · norm_num at h
  · rw [pow_succ, pow_succ] at h; omega) (by norm_num)

/-- There are keys for the circuit of the last example. -/
example : ∃ t p vk, setup 5 (28 : ZMod 97) 5 (1 : ZMod 97) (1 : ZMod 97) (LinearMap.mul (ZMod 97) (ZMod 97)) t (clash 1) = some (.ok (p, vk)) :=
  demo_setup (clash 1) (consts_wf _) (by decide) (by decide)

end Kogarashi.Props
