import Verif.Props.Pallet
import Verif.Props.ProgramsIvc

/-!
# Property C70: honest proofs open the gate
-/

namespace Kogarashi.Props

open Kogarashi Spec Pallet Nova Curve Kogarashi.Field

/-- **C70, honest users are served.** The scenario of `sample/src/tests.rs` (`sums_thing_one`) for all step functions given by expressions, all starts,
all numbers of steps below `2^64`, all accounts and values: parameters, initial state and steps succeed, and every proof the steps return, sent by a
signed account, makes `verify` and `set_thing_1` return `Ok`; the item then holds the value, the other item is unchanged, one event is added,
and on an empty chain `get_sum` is the value. -/
theorem C70_honest (fp : CarryBits) (k1 : List FrV) (k2 : List FqV) (e1 : Expr FrV 0 1) (e2 : Expr FqV 0 1)
    (gen1 : Nat → List (curve g1B).Point) (gen2 : Nat → List (curve grumpkinB).Point) (a : FrV) (b : FqV) (N : Nat) (hN : N < 2 ^ 64) :
    ∃ pp st pfs, Nova.setup (exprCycle fp k1 k2 e1 e2) gen1 gen2 = some pp ∧ ivcInit (exprCycle fp k1 k2 e1 e2) pp [a] [b] = some st ∧
      steps (exprCycle fp k1 k2 e1 e2) pp N st = some pfs ∧ pfs.length = N ∧ ∀ pf ∈ pfs, ∀ (who : String) (val : Nat) (s : State),
        dispatch (fun pp pf => RecursiveProof.verify (exprCycle fp k1 k2 e1 e2) pp pf) s (.verify (.signed who) pf pp) = (some (.ok ()), s) ∧
        dispatch (fun pp pf => RecursiveProof.verify (exprCycle fp k1 k2 e1 e2) pp pf) s (.setThing1 (.signed who) val pf pp) =
          (some (.ok ()), ⟨val, s.thing2, s.events ++ [⟨1, val⟩]⟩) ∧
        (val < 2 ^ 32 → ∀ checks, getSum checks (dispatch (fun pp pf => RecursiveProof.verify (exprCycle fp k1 k2 e1 e2) pp pf) ⟨0, 0, []⟩
          (.setThing1 (.signed who) val pf pp)).2 = some val) := by
  obtain ⟨pp, st, pfs, h1, h2, h3, h4, h5⟩ := C119_ivc fp k1 k2 e1 e2 gen1 gen2 a b N hN
  refine ⟨pp, st, pfs, h1, h2, h3, h4, fun pf hp who val s => ?_⟩
  obtain ⟨n, hn⟩ := List.mem_iff_getElem?.mp hp
  have hv := (h5 n pf hn).1
  have hs : ∀ s : State, dispatch (fun pp pf => RecursiveProof.verify (exprCycle fp k1 k2 e1 e2) pp pf) s (.setThing1 (.signed who) val pf pp) =
      (some (.ok ()), ⟨val, s.thing2, s.events ++ [⟨1, val⟩]⟩) := by
    intro s
    unfold dispatch Pallet.setThing1 novaVerify ensureSigned
    simp only [hv, Option.bind_eq_bind, Option.bind_some, apiVerify, if_true]
  refine ⟨?_, hs s, fun hl checks => ?_⟩
  · unfold dispatch novaVerify ensureSigned
    simp only [hv, Option.bind_eq_bind, Option.bind_some, apiVerify, if_true]
  · rw [hs]
    unfold getSum
    dsimp only
    rw [if_pos (by omega), Nat.add_zero]

/-- The test itself: the cubic of the example, start 0, three steps, value 42. -/
example : (42 : Nat) < 2 ^ 32 ∧ (3 : Nat) < 2 ^ 64 ∧
    ∀ z : FrV, (Expr.add (.add (.mul (.square (.priv 0)) (.priv 0)) (.priv 0)) (.const 5) : Expr FrV 0 1).eval Fin.elim0 (fun _ => z) = z * z * z + z + 5 :=
  ⟨by decide, by decide, fun _ => rfl⟩

end Kogarashi.Props
