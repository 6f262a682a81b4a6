import Verif.R1cs.Wp
import Verif.Nova.BigNat
import Verif.Nova.MulSound

/-! # Model: limb-wise equality of big integers -/

namespace Kogarashi.Nova

open Kogarashi Spec Circ

section
variable {F : Type} [Field F] [DecidableEq F]

/-- The loop of `enforce_eq`, `nova/src/gadget/big_nat.rs:185-187`. -/
def eqLoop : List (Row F × Row F) → Circ F Unit
  | [] => pure ()
  | (x, y) :: l => do
    enforceEq x y
    eqLoop l

theorem eqLoop_uniform : ∀ l : List (Row F × Row F), Uniform (eqLoop l) (eqLoop l)
  | [] => Uniform.pure ()
  | (x, y) :: l => Uniform.bind (Uniform.enforceEq x y) fun _ => eqLoop_uniform l

theorem eqLoop_wp : ∀ (l : List (Row F × Row F)) {cs : CS F}, Wf cs → (∀ x ∈ l, RowOk cs x.1 ∧ RowOk cs x.2) →
    WP cs (eqLoop l) (fun _ _ => True) (fun _ z => ∀ x ∈ l, rowVal z x.1 = rowVal z x.2)
      (∀ x ∈ l, rowVal (stored cs) x.1 = rowVal (stored cs) x.2)
  | [], cs, wf, _ => WP.pure wf trivial (fun _ _ _ h => absurd h (List.not_mem_nil))
  | (x, y) :: l, cs, wf, h => by
    refine WP.bind (WP.enforceEq wf (h _ (List.mem_cons_self ..)).1 (h _ (List.mem_cons_self ..)).2)
      (fun H => H _ (List.mem_cons_self ..)) (fun _ c e w _ _ => ?_)
    refine (eqLoop_wp l w (fun x hx => ⟨(h x (List.mem_cons_of_mem _ hx)).1.mono e, (h x (List.mem_cons_of_mem _ hx)).2.mono e⟩)).weaken
      (fun _ _ _ _ _ _ => trivial) (fun _ z _ hz h1 q hq => ?_) (fun H q hq => ?_)
    · rcases List.mem_cons.mp hq with rfl | hq
      exacts [h1, hz q hq]
    · rw [e.rowVal_eq (h q (List.mem_cons_of_mem _ hq)).1, e.rowVal_eq (h q (List.mem_cons_of_mem _ hq)).2]
      exact H q (List.mem_cons_of_mem _ hq)

end

/-- `nova/src/gadget/big_nat.rs:183-188` `enforce_eq`: asserts equal numbers of limbs; the limb widths are not compared. -/
def bnEnforceEq {p : Nat} [Fact p.Prime] (a b : BigNat (ZMod p)) : Circ (ZMod p) Unit :=
  if a.limbs.length = b.limbs.length then eqLoop (a.limbs.zip b.limbs) else failure

end Kogarashi.Nova
