import Verif.Props.ProgramsIvc
import Verif.Props.VerdictBn
import Verif.Props.ZeroKnowledge

/-!
# C119, programs of every size

Adding equations `0 = 0` until the number of constraints is a power of two keeps the solutions, the wires and the size of the domain, and gives
every program complete, knowledge-sound and zero-knowledge proofs.
-/

namespace Kogarashi

namespace Circ

open Spec

variable {F : Type} [_root_.Field F] [DecidableEq F] {np nw : Nat}

theorem enforceAll_append (px pw : List (Row F)) (P Q : Program F np nw) (cs : CS F) :
    enforceAll px pw (P ++ Q) cs = (enforceAll px pw P cs).bind fun r => enforceAll px pw Q r.2 := by
  induction P generalizing cs with
  | nil => rfl
  | cons p ps ih =>
    show (build px pw p.1 >>= fun a => build px pw p.2 >>= fun b => enforceEq a b >>= fun _ => enforceAll px pw (ps ++ Q)) cs =
      Option.bind ((build px pw p.1 >>= fun a => build px pw p.2 >>= fun b => enforceEq a b >>= fun _ => enforceAll px pw ps) cs) _
    simp only [StateT.bind, Bind.bind]
    cases build px pw p.1 cs with
    | none => rfl
    | some a =>
      simp only [Option.bind]
      cases build px pw p.2 a.2 with
      | none => rfl
      | some b =>
        simp only
        cases enforceEq a.1 b.1 b.2 with
        | none => rfl
        | some c => exact ih c.2

theorem enforceAll_zeros (px pw : List (Row F)) (n : Nat) (cs : CS F) : ∃ cs', enforceAll px pw (List.replicate n
    ((.const 0, .const 0) : Expr F np nw × Expr F np nw)) cs = some ((), cs') ∧ cs'.m = cs.m + n ∧ cs'.x = cs.x ∧ cs'.w = cs.w := by
  induction n generalizing cs with
  | zero => exact ⟨cs, rfl, rfl, rfl, rfl⟩
  | succ n ih =>
    obtain ⟨cs', h1, h2, h3, h4⟩ := ih (cs.mulGate (const 0) Row.one (const 0))
    refine ⟨cs', h1, ?_, h3, h4⟩
    rw [h2, show (cs.mulGate (const 0) Row.one (const 0)).m = cs.m + 1 by simp [CS.m, CS.mulGate, CS.append]]
    omega

end Circ

namespace Props

open Kogarashi Spec Groth16 Polynomial Kogarashi.Field

/-- The program with `n` equations `0 = 0` at its end. -/
def padded {F : Type} [_root_.Field F] {np nw : Nat} (P : Program F np nw) (n : Nat) : Program F np nw :=
  P ++ List.replicate n (.const 0, .const 0)

section
variable {F : Type} [_root_.Field F] [DecidableEq F] {np nw : Nat}

/-- **C119, padding.** For every program a number of equations `0 = 0` makes the number of constraints exactly the size of the domain Groth16
uses for the program anyway (two, for a program with fewer constraints); solutions and wires stay the same. -/
theorem C119_padded (P : Program F np nw) : ∃ n, (∀ x w, (padded P n).Holds x w ↔ P.Holds x w) ∧
    ∀ x w cs, Circ.program P x w CS.init = some ((), cs) → ∃ cs', Circ.program (padded P n) x w CS.init = some ((), cs') ∧
      cs'.m = 2 ^ max 1 (domainLog cs.m) ∧ cs'.x = cs.x ∧ cs'.w = cs.w := by
  obtain ⟨c0, e0, -⟩ := C119_program P (fun _ => 0) (fun _ => 0)
  refine ⟨2 ^ max 1 (domainLog c0.m) - c0.m, fun x w => ?_, fun x w cs e => ?_⟩
  · constructor
    · exact fun h p hp => h p (List.mem_append_left _ hp)
    · intro h p hp
      rcases List.mem_append.mp hp with hp | hp
      · exact h p hp
      · rw [List.eq_of_mem_replicate hp]
  · have hm : cs.m = c0.m := by rw [CS.m, CS.m, (C119_shape P _ x _ w e0 e).cons]
    have key : ∀ n, ∃ cs', Circ.program (padded P n) x w CS.init = some ((), cs') ∧ cs'.m = cs.m + n ∧ cs'.x = cs.x ∧ cs'.w = cs.w := by
      intro n
      unfold Circ.program at e ⊢
      rw [Circ.bind_eq (Circ.allocInst_eq _ _), Circ.bind_eq (Circ.allocWit_eq _ _)] at e ⊢
      unfold padded
      rw [Circ.enforceAll_append, e]
      exact Circ.enforceAll_zeros _ _ n cs
    obtain ⟨cs', h1, h2, h3, h4⟩ := key (2 ^ max 1 (domainLog c0.m) - c0.m)
    have := (m_le c0.m).trans (Nat.pow_le_pow_right (by norm_num) (le_max_right 1 (domainLog c0.m)))
    refine ⟨cs', h1, ?_, h3, h4⟩
    rw [h2, hm]
    omega

/-- The padded program's circuit has a power of two constraints, with any inputs. -/
theorem padded_pow (P : Program F np nw) : ∃ n k, 1 ≤ k ∧ (∀ x w, (padded P n).Holds x w ↔ P.Holds x w) ∧
    ∀ x w cs, Circ.program (padded P n) x w CS.init = some ((), cs) → cs.m = 2 ^ k := by
  obtain ⟨n, h1, h2⟩ := C119_padded P
  obtain ⟨c0, e0, -⟩ := C119_program P (fun _ => 0) (fun _ => 0)
  refine ⟨n, max 1 (domainLog c0.m), le_max_left _ _, h1, fun x w cs e => ?_⟩
  obtain ⟨cs, e1, -⟩ := C119_program P x w
  obtain ⟨cs', e2, h3, -⟩ := h2 x w cs e1
  obtain rfl := (Prod.mk.inj (Option.some.inj (e2.symm.trans e))).2
  rw [h3, CS.m, CS.m, (C119_shape P _ x _ w e0 e1).cons]
end

section
variable {F G1 G2 GT : Type} [_root_.Field F] [DecidableEq F]
variable [AddCommGroup G1] [Module F G1] [AddCommGroup G2] [Module F G2] [AddCommGroup GT] [Module F GT]
variable [DecidableEq G1] [DecidableEq G2] [DecidableEq GT]
variable {S : Nat} {root gen : F} {g1 : G1} {g2 : G2} {e : G1 →ₗ[F] G2 →ₗ[F] GT} {np nw : Nat}

/-- **C119, Groth16 for every program.** For every program a number of equations `0 = 0` added to it gives a program with the same solutions for
which, with keys made from any inputs: the setup succeeds for all but `2^k - 1` values of `τ`, `2^k` the number of constraints, if the field has
room for them; every solution gives an accepted proof; the proofs of a solution are, up to a bijection of the coins, the
simulator's, which knows only the public inputs; and a prover who publishes fixed combinations of the parameters and is accepted for more than
`(2·2^k + 6)·|F|⁴` values of the toxic waste knows a solution of the original program. -/
theorem C119_groth16_padded (env : Env S root gen) (h1 : g1 ≠ 0) (h2 : g2 ≠ 0) (he : e g1 g2 ≠ 0) (P : Program F np nw) :
    ∃ n k, (∀ x w, (padded P n).Holds x w ↔ P.Holds x w) ∧ ∀ x0 w0 cs0, Circ.program (padded P n) x0 w0 CS.init = some ((), cs0) →
      cs0.m = 2 ^ k ∧
      (k ≤ S → ∃ bad : Finset F, bad.card ≤ 2 ^ k - 1 ∧ ∀ t : Trapdoor F, t.tau ∉ bad → t.gamma ≠ 0 → t.delta ≠ 0 →
        ∃ p vk, setup S root gen g1 g2 e t cs0 = some (.ok (p, vk))) ∧
      (∀ t p (vk : PVKey G1 G2 GT), setup S root gen g1 g2 e t cs0 = some (.ok (p, vk)) → ∀ x w, P.Holds x w →
        ∃ cs, Circ.program (padded P n) x w CS.init = some ((), cs) ∧
          (∀ r s, ∃ π, createProof S root gen p r s cs = some (.ok π) ∧ verify e vk π (List.ofFn x) = .ok ()) ∧
          ∃ φ : F × F ≃ F × F, ∀ c, createProof S root gen p c.1 c.2 cs = some (.ok (simulate g1 g2 t p.vk (List.ofFn x) (φ c)))) ∧
      ∀ [Fintype F] (A : AffineProver F) (x : Fin np → F),
        (2 * 2 ^ k + 6) * Nat.card F ^ 4 < Nat.card {t // Accepting S root gen g1 g2 e cs0 A (List.ofFn x) t} →
        P.Holds x (fun i => A.c.l.getD i 0) := by
  obtain ⟨n, k, k1, hh, hk⟩ := padded_pow P
  refine ⟨n, k, hh, fun x0 w0 cs0 hc0 => ?_⟩
  have hm := hk _ _ _ hc0
  obtain ⟨g1', g2'⟩ := C119_groth16_partial (e := e) env h1 h2 he (padded P n) hc0 hm
  refine ⟨hm, fun hkS => ?_, fun t p vk hs x w hw => ?_, fun A x hA => (hh _ _).mp (g2' A x hA)⟩
  · obtain ⟨c0, ec0, wf0, -⟩ := C119_program (padded P n) x0 w0
    obtain rfl := (Prod.mk.inj (Option.some.inj (ec0.symm.trans hc0))).2
    obtain ⟨bad, hb, H⟩ := C44_runs_partial (e := e) env h1 h2 c0 wf0 (by rw [hm]; exact (Nat.pow_le_pow_right (by norm_num) k1 : 2 ^ 1 ≤ 2 ^ k))
      (by rw [hm]; exact Nat.pow_le_pow_right (by norm_num) hkS)
    rw [hm] at hb
    refine ⟨bad, hb, fun t a b c => ?_⟩
    obtain ⟨p, vk, h, -⟩ := H t a b c
    exact ⟨p, vk, h⟩
  obtain ⟨cs, ec, hc⟩ := g1' t p vk hs x w ((hh x w).mpr hw)
  refine ⟨cs, ec, hc, ?_⟩
  obtain ⟨cs', ec', hx, -, wf, -, hsat⟩ := program_run (padded P n) x w
  obtain rfl := (Prod.mk.inj (Option.some.inj (ec.symm.trans ec'))).2
  have ht : cs.x.tail = List.ofFn x := by rw [hx]; rfl
  rw [← ht]
  exact C104_simulation_partial env h1 h2 he (C119_shape _ x0 x w0 w hc0 ec) wf k (hk _ _ _ ec) (hsat ((hh x w).mpr hw)) hs
end

/-- **C119, Groth16 on BN254 for every program**, padded as above, whose wires fit `usize`. -/
theorem C119_bn254_padded {np nw : Nat} (P : Program FrW np nw) : ∃ n k, (∀ x w, (padded P n).Holds x w ↔ P.Holds x w) ∧
    ∀ x0 w0 cs0, Circ.program (padded P n) x0 w0 CS.init = some ((), cs0) → cs0.x.length + cs0.w.length < 2 ^ 64 → cs0.m = 2 ^ k ∧
    (k ≤ frS → ∃ bad : Finset FrW, bad.card ≤ 2 ^ k - 1 ∧ ∀ t : Trapdoor FrW, t.tau ∉ bad → t.gamma ≠ 0 → t.delta ≠ 0 →
      ∃ p vk, bnSetup t cs0 = some (.ok (p, vk))) ∧
    ∀ x w, ∃ cs, Circ.program (padded P n) x w CS.init = some ((), cs) ∧
    (P.Holds x w → ∀ t p vk, bnSetup t cs0 = some (.ok (p, vk)) → ∀ r s, ∃ π, bnProve p r s cs = some (.ok π) ∧
      bnVerify vk π (List.ofFn x) = some (.ok ())) ∧
    (¬ P.Holds x w → ∃ bad : Finset FrW, bad.card ≤ 2 * 2 ^ k - 2 ∧ ∀ t : Trapdoor FrW, t.tau ∉ bad → ∀ p vk, bnSetup t cs0 = some (.ok (p, vk)) →
      ∀ r s π, bnProve p r s cs = some (.ok π) → bnVerify vk π (List.ofFn x) = some (.error .proofVerificationError)) := by
  obtain ⟨n, k, k1, hh, hk⟩ := padded_pow P
  refine ⟨n, k, hh, fun x0 w0 cs0 hc0 hl => ⟨hk _ _ _ hc0, fun hkS => ?_, fun x w => ?_⟩⟩
  · have hm := hk _ _ _ hc0
    obtain ⟨c0, ec0, wf0, -⟩ := C119_program (padded P n) x0 w0
    obtain rfl := (Prod.mk.inj (Option.some.inj (ec0.symm.trans hc0))).2
    obtain ⟨bad, hb, H⟩ := C44_runs_partial (e := bnEW) envW g1Point_ne g2Base_ne c0 wf0
      (by rw [hm]; exact (Nat.pow_le_pow_right (by norm_num) k1 : 2 ^ 1 ≤ 2 ^ k)) (by rw [hm]; exact Nat.pow_le_pow_right (by norm_num) hkS)
    rw [hm] at hb
    refine ⟨bad, hb, fun t a b c => ?_⟩
    obtain ⟨p, vk, h, -⟩ := H t a b c
    have h' := C80_setup_refines t c0
    rw [h] at h'
    obtain ⟨⟨p', vk'⟩, h1, -⟩ := h'.right
    exact ⟨p', vk', h1⟩
  have := C119_bn254_partial (padded P n) hc0 (hk _ _ _ hc0) hl x w
  rwa [hh x w] at this

/-- **C119, every program without padding, on BN254.** Either all honest proofs for the inputs are accepted, or all but at most `n + m - 2` values of
`τ` reject every one of them. -/
theorem C119_all_or_few {np nw : Nat} (P : Program FrW np nw) {x0 : Fin np → FrW} {w0 : Fin nw → FrW} {cs0 : CS FrW}
    (hc0 : Circ.program P x0 w0 CS.init = some ((), cs0)) (hl : cs0.x.length + cs0.w.length < 2 ^ 64) (x : Fin np → FrW) (w : Fin nw → FrW) :
    ∃ cs, Circ.program P x w CS.init = some ((), cs) ∧
    ((∀ t p vk, bnSetup t cs0 = some (.ok (p, vk)) → ∀ r s π, bnProve p r s cs = some (.ok π) → bnVerify vk π (List.ofFn x) = some (.ok ())) ∨
    ∃ few : Finset FrW, few.card ≤ 2 ^ domainLog cs.m + cs.m - 2 ∧ ∀ t : Trapdoor FrW, t.tau ∉ few → ∀ p vk,
      bnSetup t cs0 = some (.ok (p, vk)) → ∀ r s π, bnProve p r s cs = some (.ok π) → bnVerify vk π (List.ofFn x) ≠ some (.ok ())) := by
  obtain ⟨cs, ec, wf, hx, -⟩ := C119_program P x w
  have ht : cs.x.tail = List.ofFn x := by rw [hx]; rfl
  refine ⟨cs, ec, ?_⟩
  rw [← ht]
  exact C80_all_or_few (C119_shape P x0 x w0 w hc0 ec) wf hl

/-- The cube of the private input is the public one: three constraints, and four after padding with one equation. -/
def cubeProgram : Program FrW 1 1 := [(.mul (.square (.priv 0)) (.priv 0), .pub 0)]

example : (∃ cs, Circ.program cubeProgram ![0] ![0] CS.init = some ((), cs) ∧ cs.m = 3) ∧
    (∃ cs, Circ.program (padded cubeProgram 1) ![0] ![0] CS.init = some ((), cs) ∧ cs.m = 2 ^ 2 ∧ cs.x.length + cs.w.length < 2 ^ 64) ∧
    cubeProgram.Holds ![27] ![3] ∧ ¬ cubeProgram.Holds ![28] ![3] := by
  refine ⟨⟨_, rfl, by decide +kernel⟩, ⟨_, rfl, by decide +kernel, by decide +kernel⟩, ?_, ?_⟩
  · unfold Program.Holds cubeProgram
    simp only [List.mem_cons, List.not_mem_nil, or_false, forall_eq, Expr.eval]
    decide +kernel
  · unfold Program.Holds cubeProgram
    simp only [List.mem_cons, List.not_mem_nil, or_false, forall_eq, Expr.eval]
    decide +kernel

end Props

end Kogarashi
