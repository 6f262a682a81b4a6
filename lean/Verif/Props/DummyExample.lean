import Verif.Groth16.Example
import Verif.Props.ProgramsPad
import Verif.Props.AffineBn

/-!
# Property C120: the published example proves what its comment says
-/

namespace Kogarashi.Props

open Kogarashi Spec Groth16 Polynomial Kogarashi.Field

section
variable {F : Type} [_root_.Field F] [DecidableEq F]

/-- The comment of the example, `x^3 + x + 5 = o`, as a program with two public inputs. -/
def dummyProgram : Program F 2 0 := [(.add (.sum (.mul (.mul (.pub 0) (.pub 0)) (.pub 0)) (.pub 0)) (.const 5), .pub 1)]

omit [DecidableEq F] in
theorem dummyProgram_holds (x o : F) (w : Fin 0 → F) : dummyProgram.Holds ![x, o] w ↔ x ^ 3 + x + 5 = o := by
  unfold Program.Holds dummyProgram
  simp only [List.mem_cons, List.not_mem_nil, or_false, forall_eq, Expr.eval, Matrix.cons_val_zero, Matrix.cons_val_one]
  rw [show x ^ 3 = x * x * x by ring]

/-- The circuit of the example is that of the program. -/
theorem dummyCircuit_eq (x o : F) : dummyCircuit x o = Circ.program dummyProgram ![x, o] Fin.elim0 := by
  unfold Circ.program
  rw [show List.ofFn ![x, o] = [x, o] from by simp, show List.ofFn (Fin.elim0 : Fin 0 → F) = [] from by simp]
  unfold dummyCircuit dummyProgram
  simp only [Circ.allocInst, Circ.allocWit, Circ.enforceAll, Circ.build, bind_assoc, pure_bind, List.getD_cons_zero, Fin.val_zero, Fin.val_one,
    List.getD_cons_succ, bind_pure_unit]

end

/-- What `synthesize` builds on the example's inputs. -/
theorem dummy_synth {F : Type} [_root_.Field F] [DecidableEq F] (x o : F) {cs : CS F} : dummyType.synthesize (x, o) = .ok cs ↔
    Circ.program dummyProgram ![x, o] Fin.elim0 CS.init = some ((), cs) := by
  rw [← dummyCircuit_eq]
  unfold dummyType
  dsimp only
  cases h : dummyCircuit x o CS.init with
  | none => simp
  | some r => obtain ⟨⟨⟩, c⟩ := r; simp

theorem dummy_zero : ∃ cs, Circ.program (dummyProgram : Program FrW 2 0) ![0, 0] Fin.elim0 CS.init = some ((), cs) ∧ cs.m = 2 ^ 2 ∧
    cs.x.length + cs.w.length < 2 ^ 64 :=
  ⟨_, rfl, by decide +kernel, by decide +kernel⟩

theorem dummy_zeroV : ∃ cs, Circ.program (dummyProgram : Program FrV 2 0) ![0, 0] Fin.elim0 CS.init = some ((), cs) ∧ cs.m = 2 ^ 2 :=
  ⟨_, rfl, by decide +kernel⟩

/-- **C120, circuit.** For all inputs the circuit is built, and some assignment of the private wires satisfies it together with the public values
`x'`, `o'` exactly when `x'³ + x' + 5 = o'`. -/
theorem C120_circuit {F : Type} [_root_.Field F] [DecidableEq F] (x o : F) : ∃ cs, dummyType.synthesize (x, o) = .ok cs ∧
    ∀ x' o' : F, (∃ v, Satisfies (assign [x', o'] v) cs) ↔ x' ^ 3 + x' + 5 = o' := by
  obtain ⟨cs, ec, -⟩ := C119_program (dummyProgram : Program F 2 0) ![x, o] Fin.elim0
  refine ⟨cs, (dummy_synth x o).mpr ec, fun x' o' => ?_⟩
  have h := C119_statement _ _ _ ec ![x', o']
  rw [show List.ofFn ![x', o'] = [x', o'] from by simp] at h
  rw [h]
  constructor
  · rintro ⟨w, hw⟩; exact (dummyProgram_holds x' o' w).mp hw
  · intro hh; exact ⟨Fin.elim0, (dummyProgram_holds x' o' _).mpr hh⟩

/-- **C120.** The example on BN254 with the code's own structs, for all inputs `x`, `o`: the keys are made from `DummyCircuit::default()`.  Setup and
prover succeed for all but three values of `τ` (and `γ`, `δ` not zero); if `x³ + x + 5 = o` every proof is accepted for `[x, o]`; otherwise, for all
but six values of `τ`, every proof made from `x`, `o` is rejected. -/
theorem C120_example (x o : FrW) : ∃ cs0 cs, dummyType.synthesize dummyType.default = .ok cs0 ∧ dummyType.synthesize (x, o) = .ok cs ∧
    (∃ bad : Finset FrW, bad.card ≤ 3 ∧ ∀ t : Trapdoor FrW, t.tau ∉ bad → t.gamma ≠ 0 → t.delta ≠ 0 →
      ∃ p vk, bnSetup t cs0 = some (.ok (p, vk)) ∧ ∀ r s, ∃ π, bnProve p r s cs = some (.ok π)) ∧
    (x ^ 3 + x + 5 = o → ∀ t p vk, bnSetup t cs0 = some (.ok (p, vk)) → ∀ r s, ∃ π, bnProve p r s cs = some (.ok π) ∧
      bnVerify vk π [x, o] = some (.ok ())) ∧
    (x ^ 3 + x + 5 ≠ o → ∃ bad : Finset FrW, bad.card ≤ 6 ∧ ∀ t : Trapdoor FrW, t.tau ∉ bad → ∀ p vk, bnSetup t cs0 = some (.ok (p, vk)) →
      ∀ r s π, bnProve p r s cs = some (.ok π) → bnVerify vk π [x, o] = some (.error .proofVerificationError)) := by
  obtain ⟨cs0, e0, hm, hl⟩ := dummy_zero
  obtain ⟨cs, ec, h1, h2⟩ := C119_bn254_partial (dummyProgram : Program FrW 2 0) e0 hm hl ![x, o] Fin.elim0
  obtain ⟨c0', e0', wf0, -⟩ := C119_program (dummyProgram : Program FrW 2 0) ![0, 0] Fin.elim0
  obtain rfl := (Prod.mk.inj (Option.some.inj (e0'.symm.trans e0))).2
  obtain ⟨c', ec', wf, -⟩ := C119_program (dummyProgram : Program FrW 2 0) ![x, o] Fin.elim0
  obtain rfl := (Prod.mk.inj (Option.some.inj (ec'.symm.trans ec))).2
  have sh := C119_shape _ _ _ _ _ e0 ec
  rw [show List.ofFn ![x, o] = [x, o] from by simp, dummyProgram_holds] at h1 h2
  obtain ⟨bad, hb, H⟩ := C80_runs_partial c0' wf0 (by rw [hm]; decide) (by rw [hm]; decide) hl
  refine ⟨c0', c', (dummy_synth 0 0).mpr e0, (dummy_synth x o).mpr ec, ⟨bad, by rw [hm] at hb; exact hb, fun t ht hg hd => ?_⟩, h1, h2⟩
  obtain ⟨p, vk, k1, k2⟩ := H t ht hg hd
  exact ⟨p, vk, k1, k2 c' sh wf⟩

/-- **C120, knowledge.** On BN254, whoever combines the published keys linearly and is accepted for `[x, o]` on more than `14·q⁴` of the `q⁵`
trapdoors has `x³ + x + 5 = o`. -/
theorem C120_knowledge {g1 : BG1} {g2 : BG2} (h1 : g1 ≠ 0) (h2 : g2 ≠ 0) {cs0 : CS FrV} (hc : dummyType.synthesize (dummyType.default : FrV × FrV) = .ok cs0)
    (P : AffineProver FrV) {x o : Limbs.L4} (hx : Canonical frParams x) (ho : Canonical frParams o)
    (hmany : 14 * frParams.m ^ 4 < Nat.card {t // AcceptingBn g1 g2 cs0 P [x, o] t}) :
    denote frParams x ^ 3 + denote frParams x + 5 = denote frParams o := by
  have e := (dummy_synth (0 : FrV) 0).mp hc
  obtain ⟨c, ec, hm⟩ := dummy_zeroV
  obtain rfl := (Prod.mk.inj (Option.some.inj (ec.symm.trans e))).2
  obtain ⟨c', ec', wf, -⟩ := C119_program (dummyProgram : Program FrV 2 0) ![0, 0] Fin.elim0
  obtain rfl := (Prod.mk.inj (Option.some.inj (ec'.symm.trans e))).2
  have s := C102_bn254_partial h1 h2 wf hm P (inputs := [x, o]) (by simp [hx, ho]) hmany
  obtain ⟨c'', hc'', H⟩ := C120_circuit (0 : FrV) 0
  obtain rfl := Except.ok.inj (hc.symm.trans hc'')
  exact (H _ _).mp ⟨_, s⟩

/-- The values of the example, and a wrong output. -/
example : (3 : FrV) ^ 3 + 3 + 5 = 35 ∧ (3 : FrV) ^ 3 + 3 + 5 ≠ 36 := by
  refine ⟨by norm_num, fun h => ?_⟩
  have h1 : (35 : FrV) = 36 := by rw [← h]; norm_num
  exact one_ne_zero (by linear_combination -h1 : (1 : FrV) = 0)

end Kogarashi.Props
