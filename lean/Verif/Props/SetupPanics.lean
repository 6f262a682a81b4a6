import Verif.Props.Groth16

/-!
# Property C44: when exactly `setup` panics

`Props/Groth16.lean` shows that `setup` returns for all but at most `m - 1` values of `τ`.  Here the outcome is given
for every `τ`, `γ`, `δ`.
-/

namespace Kogarashi.Props

open Kogarashi Spec Groth16 Polynomial Field

/-! ### Which rows the columns mention -/

section Columns
variable {F : Type} [Field F]

/-- Some column has an entry for row `j`. -/
def HasRow (Z : List (List (F × Nat))) (j : Nat) : Prop := ∃ col ∈ Z, ∃ x ∈ col, x.2 = j

omit [Field F] in
theorem hasRow_append (X W : List (List (F × Nat))) (j : Nat) : HasRow (X ++ W) j ↔ HasRow X j ∨ HasRow W j := by
  unfold HasRow
  simp only [List.mem_append, or_and_right, exists_or]

omit [Field F] in
theorem hasRow_modify (Z : List (List (F × Nat))) {k : Nat} (hk : k < Z.length) (c : F) (i j : Nat) :
    HasRow (Z.modify k (fun col => col ++ [(c, i)])) j ↔ HasRow Z j ∨ j = i := by
  induction Z generalizing k with
  | nil => simp at hk
  | cons z Z ih =>
    have cons : ∀ (y : List (F × Nat)) (Y : List (List (F × Nat))), HasRow (y :: Y) j ↔ (∃ x ∈ y, x.2 = j) ∨ HasRow Y j := by
      intro y Y; unfold HasRow; simp
    cases k with
    | zero =>
      rw [List.modify_zero_cons, cons, cons]
      simp only [List.mem_append, List.mem_singleton, or_and_right, exists_or, exists_eq_left]
      constructor
      · rintro ((h | h) | h)
        · exact .inl (.inl h)
        · exact .inr h.symm
        · exact .inl (.inr h)
      · rintro ((h | h) | h)
        · exact .inl (.inl h)
        · exact .inr h
        · exact .inl (.inr h.symm)
    | succ k =>
      rw [List.modify_succ_cons, cons, cons, ih (by simpa using hk), or_assoc]

omit [Field F] in
theorem pushTerms_rows (i j : Nat) : ∀ (r : Row F) (X W : List (List (F × Nat))) {X' W'}, Matrix.pushTerms i r X W = some (X', W') →
    (HasRow (X' ++ W') j ↔ HasRow (X ++ W) j ∨ (j = i ∧ r ≠ [])) := by
  intro r
  induction r with
  | nil =>
    intro X W X' W' h
    simp only [Matrix.pushTerms, Option.some.injEq, Prod.mk.injEq] at h
    obtain ⟨rfl, rfl⟩ := h
    simp
  | cons x r ih =>
    obtain ⟨wire, c⟩ := x
    intro X W X' W' h
    cases wire with
    | inst k =>
      simp only [Matrix.pushTerms] at h
      by_cases hk : k < X.length
      · rw [if_pos hk] at h
        rw [ih _ _ h, hasRow_append, hasRow_append, hasRow_modify _ hk]
        simp only [ne_eq, reduceCtorEq, not_false_eq_true, and_true]
        tauto
      · rw [if_neg hk] at h; cases h
    | wit k =>
      simp only [Matrix.pushTerms] at h
      by_cases hk : k < W.length
      · rw [if_pos hk] at h
        rw [ih _ _ h, hasRow_append, hasRow_append, hasRow_modify _ hk]
        simp only [ne_eq, reduceCtorEq, not_false_eq_true, and_true]
        tauto
      · rw [if_neg hk] at h; cases h

omit [Field F] in
theorem pushRows_rows (j : Nat) : ∀ (rs : List (Row F)) (i : Nat) (X W : List (List (F × Nat))) {X' W'},
    Matrix.pushRows i rs X W = some (X', W') →
    (HasRow (X' ++ W') j ↔ HasRow (X ++ W) j ∨ ∃ l r, rs[l]? = some r ∧ r ≠ [] ∧ j = i + l) := by
  intro rs
  induction rs with
  | nil =>
    intro i X W X' W' h
    simp only [Matrix.pushRows, Option.some.injEq, Prod.mk.injEq] at h
    obtain ⟨rfl, rfl⟩ := h
    simp
  | cons r rs ih =>
    intro i X W X' W' h
    simp only [Matrix.pushRows, Option.bind_eq_bind, Option.bind_eq_some_iff] at h
    obtain ⟨⟨X1, W1⟩, h1, h2⟩ := h
    rw [ih (i + 1) X1 W1 h2, pushTerms_rows i j r X W h1]
    constructor
    · rintro ((h | ⟨h, h'⟩) | ⟨l, r', h3, h4, h5⟩)
      · exact .inl h
      · exact .inr ⟨0, r, rfl, h', by omega⟩
      · exact .inr ⟨l + 1, r', by simpa using h3, h4, by omega⟩
    · rintro (h | ⟨l, r', h3, h4, h5⟩)
      · exact .inl (.inl h)
      · cases l with
        | zero =>
          simp only [List.getElem?_cons_zero, Option.some.injEq] at h3
          subst h3
          exact .inl (.inr ⟨by omega, h4⟩)
        | succ l => exact .inr ⟨l, r', by simpa using h3, h4, by omega⟩

omit [Field F] in
/-- Row `j` has an entry in a column exactly when it is not empty. -/
theorem xAndW_rows {rows : List (Row F)} {l n : Nat} {X W : List (List (F × Nat))} (h : Matrix.xAndW rows l n = some (X, W)) (j : Nat) :
    HasRow (X ++ W) j ↔ ∃ r, rows[j]? = some r ∧ r ≠ [] := by
  rw [pushRows_rows j rows 0 _ _ h]
  have none : ¬ HasRow (List.replicate l ([] : List (F × Nat)) ++ List.replicate n []) j := by
    rintro ⟨col, hc, x, hx, -⟩
    simp only [List.mem_append, List.mem_replicate] at hc
    rcases hc with ⟨-, rfl⟩ | ⟨-, rfl⟩ <;> simp at hx
  constructor
  · rintro (h | ⟨l, r, h1, h2, h3⟩)
    · exact absurd h none
    · rw [Nat.zero_add] at h3; subst h3; exact ⟨r, h1, h2⟩
  · rintro ⟨r, h1, h2⟩
    exact .inr ⟨j, r, h1, h2, by omega⟩

theorem evalAtTau_none {pt : List F} {p : List (F × Nat)} : evalAtTau pt p = none ↔ ∃ x ∈ p, pt.length ≤ x.2 := by
  unfold evalAtTau
  generalize (0 : F) = acc
  induction p generalizing acc with
  | nil => simp
  | cons x p ih =>
    rw [List.foldlM_cons]
    cases hg : pt[x.2]? with
    | none =>
      have := List.getElem?_eq_none_iff.mp hg
      simp [this]
    | some u =>
      have := (List.getElem?_eq_some_iff.mp hg).1
      simp only [Option.map_some, Option.bind_eq_bind, Option.bind_some, ih, List.mem_cons, exists_eq_or_imp]
      constructor
      · exact .inr
      · rintro (h | h)
        · omega
        · exact h

end Columns

variable {F G1 G2 GT : Type} [Field F] [DecidableEq F]
variable [AddCommGroup G1] [Module F G1] [AddCommGroup G2] [Module F G2] [AddCommGroup GT] [Module F GT]

theorem evalCols_none {g1 : G1} {g2 : G2} {pt : List F} {inv alpha beta : F} : ∀ {A B C : List (List (F × Nat))},
    A.length = B.length → A.length = C.length →
    (evalCols g1 g2 pt inv alpha beta A B C = none ↔ ∃ j, pt.length ≤ j ∧ HasRow (A ++ B ++ C) j) := by
  intro A B C hb hc
  constructor
  · intro h
    by_contra hn
    push Not at hn
    obtain ⟨qs, hq⟩ := evalCols_run (g1 := g1) (g2 := g2) (pt := pt) (inv := inv) (alpha := alpha) (beta := beta) hb hc (by
      intro col hcol x hx
      by_contra hlt
      exact hn x.2 (by omega) ⟨col, hcol, x, hx, rfl⟩)
    rw [h] at hq
    cases hq
  · rintro ⟨j, hj, col, hcol, x, hx, rfl⟩
    induction A generalizing B C with
    | nil =>
      simp at hb hc
      rw [List.length_eq_zero_iff.mp hb.symm, List.length_eq_zero_iff.mp hc.symm] at hcol
      simp at hcol
    | cons a as ih =>
      cases B with
      | nil => simp at hb
      | cons b bs =>
        cases C with
        | nil => simp at hc
        | cons c cs =>
          simp only [evalCols, Option.bind_eq_bind]
          by_cases h1 : evalAtTau pt a = none
          · rw [h1]; rfl
          obtain ⟨u, hu⟩ := Option.ne_none_iff_exists'.mp h1
          by_cases h2 : evalAtTau pt b = none
          · rw [hu, h2]; rfl
          obtain ⟨v, hv⟩ := Option.ne_none_iff_exists'.mp h2
          by_cases h3 : evalAtTau pt c = none
          · rw [hu, hv, h3]; rfl
          obtain ⟨w, hw⟩ := Option.ne_none_iff_exists'.mp h3
          rw [hu, hv, hw]
          simp only [Option.bind_some]
          have mem : col ∈ as ++ bs ++ cs := by
            simp only [List.mem_append, List.mem_cons] at hcol ⊢
            rcases hcol with ((rfl | h) | (rfl | h)) | (rfl | h)
            · exact absurd (evalAtTau_none.mpr ⟨x, hx, hj⟩) h1
            · exact .inl (.inl h)
            · exact absurd (evalAtTau_none.mpr ⟨x, hx, hj⟩) h2
            · exact .inl (.inr h)
            · exact absurd (evalAtTau_none.mpr ⟨x, hx, hj⟩) h3
            · exact .inr h
          rw [ih (by simpa using hb) (by simpa using hc) mem]
          rfl

variable [DecidableEq G1] [DecidableEq G2] [DecidableEq GT]
variable {S : Nat} {root gen : F} {g1 : G1} {g2 : G2} {e : G1 →ₗ[F] G2 →ₗ[F] GT} {t : Trapdoor F}

/-- Constraint `j` mentions some wire (its coefficient may be zero). -/
def Mentions (cs : CS F) (j : Nat) : Prop := ∃ c, cs.cons[j]? = some c ∧ (c.a ≠ [] ∨ c.b ≠ [] ∨ c.c ≠ [])

theorem regroup {a b c d e f : Prop} : (a ∨ b) ∨ (c ∨ d) ∨ e ∨ f ↔ ((a ∨ c) ∨ e) ∨ (b ∨ d) ∨ f := by tauto

/-- `setup` panics exactly when a constraint that mentions a wire has an index beyond the trimmed table. -/
theorem setup_none {cs : CS F} (wf : ∀ c ∈ cs.cons, ConstraintOk cs c) {f : Fft F} (hf : Fft.new S root gen (domainLog cs.m) = some f)
    (hg : t.gamma ≠ 0) (hd : t.delta ≠ 0) : setup S root gen g1 g2 e t cs = none ↔
      ∃ j, (idft f (powersFrom t.tau cs.m 1)).length ≤ j ∧ Mentions cs j := by
  have alloc : ∀ (g : Constraint F → Row F), (∀ c ∈ cs.cons, RowOk cs (g c)) → ∀ r ∈ cs.cons.map g, ∀ x ∈ r, Allocated cs x.1 := by
    intro g hg r hr x hx
    obtain ⟨c, hc, rfl⟩ := List.mem_map.mp hr
    exact (hg c hc).allocated x hx
  obtain ⟨ax, aw, hA⟩ := xAndW_run (cs := cs) (rows := cs.matA) (alloc _ (fun c hc => (wf c hc).a))
  obtain ⟨bx, bw, hB⟩ := xAndW_run (cs := cs) (rows := cs.matB) (alloc _ (fun c hc => (wf c hc).b))
  obtain ⟨cx, cw, hC⟩ := xAndW_run (cs := cs) (rows := cs.matC) (alloc _ (fun c hc => (wf c hc).c))
  obtain ⟨a1, a2, -, -⟩ := xAndW_spec hA
  obtain ⟨b1, b2, -, -⟩ := xAndW_spec hB
  obtain ⟨c1, c2, -, -⟩ := xAndW_spec hC
  have men : ∀ j, Mentions cs j ↔ HasRow (ax ++ bx ++ cx) j ∨ HasRow (aw ++ bw ++ cw) j := by
    intro j
    have eA := xAndW_rows hA j
    have eB := xAndW_rows hB j
    have eC := xAndW_rows hC j
    simp only [hasRow_append, CS.matA, CS.matB, CS.matC, List.getElem?_map, Option.map_eq_some_iff] at eA eB eC ⊢
    have : Mentions cs j ↔ (∃ r, (∃ c, cs.cons[j]? = some c ∧ c.a = r) ∧ r ≠ []) ∨ (∃ r, (∃ c, cs.cons[j]? = some c ∧ c.b = r) ∧ r ≠ []) ∨
        ∃ r, (∃ c, cs.cons[j]? = some c ∧ c.c = r) ∧ r ≠ [] := by
      constructor
      · rintro ⟨c, h, h1 | h1 | h1⟩
        · exact .inl ⟨_, ⟨c, h, rfl⟩, h1⟩
        · exact .inr (.inl ⟨_, ⟨c, h, rfl⟩, h1⟩)
        · exact .inr (.inr ⟨_, ⟨c, h, rfl⟩, h1⟩)
      · rintro (⟨_, ⟨c, h, rfl⟩, h1⟩ | ⟨_, ⟨c, h, rfl⟩, h1⟩ | ⟨_, ⟨c, h, rfl⟩, h1⟩)
        · exact ⟨c, h, .inl h1⟩
        · exact ⟨c, h, .inr (.inl h1)⟩
        · exact ⟨c, h, .inr (.inr h1)⟩
    rw [this, ← eA, ← eB, ← eC]
    exact regroup
  have nI := evalCols_none (g1 := g1) (g2 := g2) (pt := idft f (powersFrom t.tau cs.m 1)) (inv := t.gamma⁻¹) (alpha := t.alpha)
    (beta := t.beta) (A := ax) (B := bx) (C := cx) (by omega) (by omega)
  have nA := evalCols_none (g1 := g1) (g2 := g2) (pt := idft f (powersFrom t.tau cs.m 1)) (inv := t.delta⁻¹) (alpha := t.alpha)
    (beta := t.beta) (A := aw) (B := bw) (C := cw) (by omega) (by omega)
  have key : (∃ j, (idft f (powersFrom t.tau cs.m 1)).length ≤ j ∧ Mentions cs j) ↔
      evalCols g1 g2 (idft f (powersFrom t.tau cs.m 1)) t.gamma⁻¹ t.alpha t.beta ax bx cx = none ∨
      evalCols g1 g2 (idft f (powersFrom t.tau cs.m 1)) t.delta⁻¹ t.alpha t.beta aw bw cw = none := by
    rw [nI, nA, ← exists_or]
    simp only [men, and_or_left]
  rw [key]
  unfold setup
  simp only [hf, if_neg hg, if_neg hd, hA, hB, hC, Option.bind_eq_bind, Option.bind_some]
  cases evalCols g1 g2 (idft f (powersFrom t.tau cs.m 1)) t.gamma⁻¹ t.alpha t.beta ax bx cx <;>
    cases evalCols g1 g2 (idft f (powersFrom t.tau cs.m 1)) t.delta⁻¹ t.alpha t.beta aw bw cw <;> simp

/-- A list without trailing zeros is no longer than `j` exactly when all its entries from `j` on are zero. -/
theorem trimmed_length {l : List F} (h : Trimmed l) (j : Nat) : l.length ≤ j ↔ ∀ i, j ≤ i → (polyOf l).coeff i = 0 := by
  simp only [coeff_polyOf]
  constructor
  · intro hl i hi
    exact List.getD_eq_default _ _ (by omega)
  · intro hz
    by_contra hlt
    have hpos : 0 < l.length := by omega
    have := hz (l.length - 1) (by omega)
    rw [List.getD_eq_getElem _ _ (by omega)] at this
    exact h _ (by rw [List.getLast?_eq_getElem?, List.getElem?_eq_getElem (by omega)]) this

/-- `Σ_{l < m} z^l`. -/
def geom (z : F) (m : Nat) : F := ∑ l ∈ Finset.range m, z ^ l

/-- The table of Lagrange values is no longer than `j`. -/
theorem table_length {f : Fft F} {k m : Nat} {w : F} (ok : FftOk f k w) (two : (2 : F) ≠ 0) (hm : m ≤ 2 ^ (k + 1)) (tau : F) (j : Nat) :
    (idft f (powersFrom tau m 1)).length ≤ j ↔ ∀ i, j ≤ i → i < 2 ^ (k + 1) → geom (tau * w⁻¹ ^ i) m = 0 := by
  have hn : ((2 ^ (k + 1) : Nat) : F) ≠ 0 := by push_cast; exact pow_ne_zero _ two
  rw [trimmed_length (idft_trimmed _) j]
  have co : ∀ i, i < 2 ^ (k + 1) → (polyOf (idft f (powersFrom tau m 1))).coeff i = geom (tau * w⁻¹ ^ i) m * ((2 ^ (k + 1) : Nat) : F)⁻¹ := by
    intro i hi
    rw [coeff_idft ok _ hi, ← Finset.sum_subset (Finset.range_subset_range.mpr hm)]
    · congr 1
      apply Finset.sum_congr rfl
      intro l hl
      rw [powersFrom_eq, getD_map_range (Finset.mem_range.mp hl), mul_pow, ← pow_mul]
      ring
    · intro l _ hl
      rw [List.getD_eq_default (powersFrom tau m 1) _ (by rw [powersFrom_length]; simpa using hl)]; ring
  constructor
  · intro h i hji hi
    have := h i hji
    rw [co i hi] at this
    exact (mul_eq_zero.mp this).resolve_right (inv_ne_zero hn)
  · intro h i hji
    by_cases hi : i < 2 ^ (k + 1)
    · rw [co i hi, h i hji hi, zero_mul]
    · rw [idft_sum ok, coeffsNew, polyOf_formatDegree, coeff_polyOf]
      exact List.getD_eq_default _ _ (by simp; omega)

theorem setup_ok_or_none {cs : CS F} {f : Fft F} (hf : Fft.new S root gen (domainLog cs.m) = some f) (hg : t.gamma ≠ 0) (hd : t.delta ≠ 0) :
    setup S root gen g1 g2 e t cs ≠ none → ∃ p vk, setup S root gen g1 g2 e t cs = some (.ok (p, vk)) := by
  intro h
  obtain ⟨r, hr⟩ := Option.ne_none_iff_exists'.mp h
  rw [hr]
  unfold setup at hr
  simp only [hf, if_neg hg, if_neg hd, Option.bind_eq_bind, Option.bind_some, Option.bind_eq_some_iff] at hr
  obtain ⟨_, -, _, -, _, -, _, -, _, -, hr⟩ := hr
  simp only [Option.some.injEq] at hr
  exact ⟨_, _, by rw [← hr]⟩

/-- **C44**, the outcome of `setup` for every number of constraints and all secrets.  It panics unless the number of
constraints is between `2` and `2^S`.  In that range it returns an error when `γ` or `δ` is zero.  Otherwise it
panics exactly when, for some constraint `j` mentioning a wire, the sums `Σ_{l<m} (τ·ω^{-i})^l` vanish for all `i` from `j`
to the end of the domain, and it returns keys in all other cases. -/
theorem C44_outcome (env : Env S root gen) (cs : CS F) (wf : Wf cs) (t : Trapdoor F) :
    (cs.m < 2 ∨ 2 ^ S < cs.m → setup S root gen g1 g2 e t cs = none) ∧
    (2 ≤ cs.m → cs.m ≤ 2 ^ S →
      (t.gamma = 0 ∨ t.delta = 0 → setup S root gen g1 g2 e t cs = some (.error .proverInversionFailed)) ∧
      (t.gamma ≠ 0 → t.delta ≠ 0 →
        (setup S root gen g1 g2 e t cs = none ↔ ∃ j, Mentions cs j ∧
          ∀ i, j ≤ i → i < 2 ^ Nat.clog 2 cs.m → ∑ l ∈ Finset.range cs.m, (t.tau * (omega S root (Nat.clog 2 cs.m))⁻¹ ^ i) ^ l = 0) ∧
        (setup S root gen g1 g2 e t cs ≠ none → ∃ p vk, setup S root gen g1 g2 e t cs = some (.ok (p, vk))))) := by
  refine ⟨?_, fun hm hS => ?_⟩
  · intro h
    cases hf : Fft.new S root gen (domainLog cs.m) with
    | none => unfold setup; rw [hf]; rfl
    | some f =>
      exfalso
      obtain ⟨h1, h2⟩ := (C40_new S root gen env.small env.two env.rootOk env.genOk _).mp ⟨f, hf⟩
      have u : cs.m ≤ 2 ^ S := (Nat.clog_le_iff_le_pow (by norm_num)).mp h2
      rcases h with h | h
      · have : domainLog cs.m = 0 := Nat.clog_of_right_le_one (by omega) 2
        omega
      · omega
  have hk1 : 1 ≤ domainLog cs.m := Nat.clog_pos (by norm_num) hm
  have hkS : domainLog cs.m ≤ S := (Nat.clog_le_iff_le_pow (by norm_num)).mpr hS
  obtain ⟨f, hf⟩ := (C40_new S root gen env.small env.two env.rootOk env.genOk _).mpr ⟨hk1, hkS⟩
  refine ⟨?_, fun hg hd => ⟨?_, setup_ok_or_none hf hg hd⟩⟩
  · intro h
    unfold setup
    simp only [hf, Option.bind_eq_bind, Option.bind_some]
    by_cases hg : t.gamma = 0
    · rw [if_pos hg]
    · rw [if_neg hg, if_pos (h.resolve_left hg)]
  · have d := env.domain hf
    obtain ⟨j, hj, ok, -⟩ := d.ok
    have hml := m_le cs.m
    rw [setup_none wf.rows hf hg hd]
    have hj' : Nat.clog 2 cs.m = j + 1 := hj
    rw [hj] at hml
    have tl := table_length ok env.two hml t.tau
    simp only [tl]
    rw [show domainLog cs.m = Nat.clog 2 cs.m from rfl, hj']
    exact exists_congr fun i => and_comm

/-- **C44** for a number of constraints that is a power of two: `setup` panics exactly when `τ` is one of the points of
the domain that come before some constraint mentioning a wire. -/
theorem C44_outcome_pow (env : Env S root gen) (cs : CS F) (wf : Wf cs) (t : Trapdoor F) {k : Nat} (hk : 1 ≤ k) (hkS : k ≤ S)
    (hm : cs.m = 2 ^ k) (hg : t.gamma ≠ 0) (hd : t.delta ≠ 0) :
    setup S root gen g1 g2 e t cs = none ↔ ∃ l j, l < j ∧ Mentions cs j ∧ t.tau = omega S root k ^ l := by
  have hc : Nat.clog 2 cs.m = k := by rw [hm]; exact Nat.clog_pow 2 k (by norm_num)
  have h2 : 2 ≤ cs.m := by rw [hm]; exact (Nat.pow_le_pow_right (by norm_num) hk : 2 ^ 1 ≤ 2 ^ k)
  have hS : cs.m ≤ 2 ^ S := by rw [hm]; exact Nat.pow_le_pow_right (by norm_num) hkS
  obtain ⟨f, hf⟩ := (C40_new S root gen env.small env.two env.rootOk env.genOk k).mpr ⟨hk, hkS⟩
  have pr := C40_domain (env.domain hf)
  have hn : ((2 ^ k : Nat) : F) ≠ 0 := by push_cast; exact pow_ne_zero _ env.two
  rw [(((C44_outcome (g1 := g1) (g2 := g2) (e := e) env cs wf t).2 h2 hS).2 hg hd).1, hc, hm]
  generalize omega S root k = w at pr
  have w0 : w ≠ 0 := pr.ne_zero (by positivity)
  have pos : 0 < 2 ^ k := by positivity
  have sums : ∀ i, (∑ l ∈ Finset.range (2 ^ k), (t.tau * w⁻¹ ^ i) ^ l = 0) ↔ t.tau ^ 2 ^ k = 1 ∧ t.tau ≠ w ^ i := by
    intro i
    have wi : (w⁻¹ ^ i) ^ 2 ^ k = 1 := by rw [← pow_mul, mul_comm, pow_mul, inv_pow, pr.pow_eq_one]; simp
    have tw : t.tau * w⁻¹ ^ i = 1 ↔ t.tau = w ^ i := by
      rw [inv_pow, mul_inv_eq_one₀ (pow_ne_zero _ w0)]
    by_cases h : t.tau = w ^ i
    · rw [tw.mpr h]
      simp only [one_pow, Finset.sum_const, Finset.card_range, nsmul_eq_mul, mul_one]
      exact ⟨fun h' => absurd h' hn, fun h' => absurd h h'.2⟩
    · rw [geom_sum_eq (fun h' => h (tw.mp h')), div_eq_zero_iff, or_iff_left (sub_ne_zero.mpr fun h' => h (tw.mp h')), sub_eq_zero,
        mul_pow, wi, mul_one]
      exact ⟨fun h' => ⟨h', h⟩, And.left⟩
  simp only [sums]
  constructor
  · rintro ⟨j, men, hz⟩
    have hj : j < 2 ^ k := by
      obtain ⟨c, h, -⟩ := men
      have := (List.getElem?_eq_some_iff.mp h).1
      rw [← hm]; exact this
    obtain ⟨l, hl, hw⟩ := pr.eq_pow_of_pow_eq_one (hz j le_rfl hj).1
    refine ⟨l, j, ?_, men, hw.symm⟩
    by_contra hlt
    exact (hz l (by omega) hl).2 hw.symm
  · rintro ⟨l, j, hlj, men, ht⟩
    refine ⟨j, men, fun i hji hi => ⟨?_, ?_⟩⟩
    · rw [ht, ← pow_mul, mul_comm, pow_mul, pr.pow_eq_one, one_pow]
    · intro h
      have := pr.pow_inj (by omega) hi (ht.symm.trans h)
      omega

/-- **C44**: the bound `m - 1` on the number of values `τ` for which `setup` panics cannot be lowered.  It is reached by
every circuit of `2^k` constraints whose last constraint mentions a wire. -/
theorem C44_panics_count (env : Env S root gen) (cs : CS F) (wf : Wf cs) {k : Nat} (hk : 1 ≤ k) (hkS : k ≤ S)
    (hm : cs.m = 2 ^ k) (last : Mentions cs (cs.m - 1)) : ∃ bad : Finset F, bad.card = cs.m - 1 ∧
      ∀ t : Trapdoor F, t.gamma ≠ 0 → t.delta ≠ 0 → (setup S root gen g1 g2 e t cs = none ↔ t.tau ∈ bad) := by
  obtain ⟨f, hf⟩ := (C40_new S root gen env.small env.two env.rootOk env.genOk k).mpr ⟨hk, hkS⟩
  have pr := C40_domain (env.domain hf)
  refine ⟨(Finset.range (cs.m - 1)).image (fun l => omega S root k ^ l), ?_, ?_⟩
  · rw [Finset.card_image_of_injOn, Finset.card_range]
    intro a ha b hb h
    have ha := Finset.mem_range.mp ha
    have hb := Finset.mem_range.mp hb
    exact pr.pow_inj (by omega) (by omega) h
  · intro t hg hd
    rw [C44_outcome_pow env cs wf t hk hkS hm hg hd]
    simp only [Finset.mem_image, Finset.mem_range]
    constructor
    · rintro ⟨l, j, hlj, ⟨c, hc, -⟩, ht⟩
      have : j < cs.m := (List.getElem?_eq_some_iff.mp hc).1
      exact ⟨l, by omega, ht.symm⟩
    · rintro ⟨l, hl, ht⟩
      exact ⟨l, cs.m - 1, hl, last, ht.symm⟩

/-- Non-vacuity: on the circuit that says `1·1 = 1` four times over `ZMod 97` there are exactly three values `τ` for which `setup`
panics. -/
def ones4 : CS (ZMod 97) :=
  { x := [1], w := [], cons := List.replicate 4 (Constraint.mk [(Wire.ONE, 1)] [(Wire.ONE, 1)] [(Wire.ONE, 1)]) }

example : ∃ bad : Finset (ZMod 97), bad.card = 3 ∧ ∀ t : Trapdoor (ZMod 97), t.gamma ≠ 0 → t.delta ≠ 0 →
    (setup 5 (28 : ZMod 97) 5 1 1 (LinearMap.mul (ZMod 97) (ZMod 97)) t ones4 = none ↔ t.tau ∈ bad) := by
  have row : RowOk ones4 [(Wire.ONE, 1)] := by
    refine ⟨List.pairwise_singleton _ _, ?_⟩
    intro x hx
    simp only [List.mem_singleton] at hx
    subst hx
    simp [Allocated, Wire.ONE, ones4]
  have wf : Wf ones4 := by
    refine ⟨rfl, fun c hc => ?_⟩
    rw [List.eq_of_mem_replicate hc]
    exact ⟨row, row, row⟩
  exact C44_panics_count (k := 2) demoEnv ones4 wf (by norm_num) (by norm_num) rfl ⟨_, rfl, .inl (by simp)⟩

end Kogarashi.Props
