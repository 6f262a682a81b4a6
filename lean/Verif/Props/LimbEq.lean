import Verif.Nova.LimbEq
import Verif.Props.BigNat

/-!
# Property C105: limb-wise equality of big integers
-/

namespace Kogarashi.Props

open Kogarashi Spec Kogarashi.Field Nova

variable {p : Nat} [Fact p.Prime]

/-- The integer the limbs of `a` spell under an assignment, in the base of its own limb width. -/
def spells (z : Assignment (ZMod p)) (a : BigNat (ZMod p)) : Nat := leValue (2 ^ a.limbWidth) (a.limbs.map (fun r => (rowVal z r).val))

/-- Every limb is below the base. -/
def Reduced (z : Assignment (ZMod p)) (a : BigNat (ZMod p)) : Prop := ∀ r ∈ a.limbs, (rowVal z r).val < 2 ^ a.limbWidth

/-- **C105, limbs.** `enforce_eq` panics exactly when the numbers of limbs differ; otherwise its constraints hold exactly when the limbs are
equal one by one. -/
theorem C105_limbs {cs : CS (ZMod p)} (wf : Wf cs) {a b : BigNat (ZMod p)} (ha : ∀ r ∈ a.limbs, RowOk cs r) (hb : ∀ r ∈ b.limbs, RowOk cs r) :
    (a.limbs.length ≠ b.limbs.length → bnEnforceEq a b cs = none) ∧
    (a.limbs.length = b.limbs.length → ∃ c, bnEnforceEq a b cs = some ((), c) ∧
      Implements cs c (fun z => a.limbs.map (rowVal z) = b.limbs.map (rowVal z)) (fun z => a.limbs.map (rowVal z) = b.limbs.map (rowVal z))) := by
  constructor
  · intro h
    unfold bnEnforceEq
    rw [if_neg h]
    rfl
  · intro h
    have key : ∀ z : Assignment (ZMod p), (a.limbs.map (rowVal z) = b.limbs.map (rowVal z)) ↔
        ∀ x ∈ a.limbs.zip b.limbs, rowVal z x.1 = rowVal z x.2 := by
      intro z
      clear ha hb
      generalize a.limbs = as at h
      generalize b.limbs = bs at h
      induction as generalizing bs with
      | nil => cases bs <;> simp_all
      | cons x as ih => cases bs with
        | nil => simp at h
        | cons y bs =>
          simp only [List.map_cons, List.cons.injEq, List.zip_cons_cons, List.mem_cons, forall_eq_or_imp]
          rw [ih bs (by simpa using h)]
    have ok : ∀ x ∈ a.limbs.zip b.limbs, RowOk cs x.1 ∧ RowOk cs x.2 :=
      fun x hx => ⟨ha _ (List.of_mem_zip hx).1, hb _ (List.of_mem_zip hx).2⟩
    obtain ⟨u, c, e, -, r⟩ := WP.implements (Pre := fun z => ∀ x ∈ a.limbs.zip b.limbs, rowVal z x.1 = rowVal z x.2)
      (eqLoop_uniform (a.limbs.zip b.limbs)) wf
      (fun c hc w => eqLoop_wp _ w (fun x hx => ⟨hc.rowOk (ok x hx).1, hc.rowOk (ok x hx).2⟩))
      (fun z hz h x hx => by rw [Circ.rowVal_withValues (ok x hx).1, Circ.rowVal_withValues (ok x hx).2]; exact h x hx)
    refine ⟨c, by unfold bnEnforceEq; rw [if_pos h]; exact e, ?_⟩
    simpa only [key] using r

/-- **C105, numbers, for equal limb widths.** The constraints force the two integers to be equal, and accept every two equal integers whose
limbs are reduced.  Missing: different limb widths (`C105_numbers_refuted`). -/
theorem C105_numbers_partial {cs : CS (ZMod p)} (wf : Wf cs) {a b : BigNat (ZMod p)} (ha : ∀ r ∈ a.limbs, RowOk cs r)
    (hb : ∀ r ∈ b.limbs, RowOk cs r) (hl : a.limbs.length = b.limbs.length) (hw : a.limbWidth = b.limbWidth) :
    ∃ c, bnEnforceEq a b cs = some ((), c) ∧ Implements cs c (fun z => spells z a = spells z b)
      (fun z => Reduced z a ∧ Reduced z b ∧ spells z a = spells z b) := by
  obtain ⟨c, e, h⟩ := (C105_limbs wf ha hb).2 hl
  have fwd : ∀ z : Assignment (ZMod p), a.limbs.map (rowVal z) = b.limbs.map (rowVal z) → spells z a = spells z b := by
    intro z hz
    have := congrArg (List.map ZMod.val) hz
    rw [List.map_map, List.map_map] at this
    unfold spells
    rw [hw]
    exact congrArg _ this
  have bwd : ∀ z : Assignment (ZMod p), Reduced z a ∧ Reduced z b ∧ spells z a = spells z b →
      a.limbs.map (rowVal z) = b.limbs.map (rowVal z) := by
    rintro z ⟨r1, r2, h⟩
    unfold spells at h
    unfold Reduced at r1 r2
    rw [hw] at h r1
    have := leValue_inj (by simpa using r1) (by simpa using r2) (by simpa using hl) h
    refine List.map_injective_iff.mpr (ZMod.val_injective p) ?_
    rw [List.map_map, List.map_map]
    exact this
  exact ⟨c, e, h.grows, h.wf, fun z hz => ⟨(h.sound z hz).1, fwd z (h.sound z hz).2⟩, fun z hz hp => h.complete z hz (bwd z hp),
    fun hs hp => h.honest hs (bwd _ hp)⟩

theorem hasN_ok {c : CS (ZMod p)} {l : List (Row (ZMod p))} {ns : List Nat} (h : HasN c l ns) : ∀ r ∈ l, RowOk c r := by
  induction h with
  | nil => simp
  | cons h _ ih =>
    intro r hr
    rcases List.mem_cons.mp hr with rfl | hr
    exacts [h.ok, ih r hr]

/-- **C105, numbers, refuted.** `enforce_eq` does not compare limb widths: `1 + 2^64` and `1 + 2^32`, both allocated with
`witness_from_big_int`, pass, in every field. -/
theorem C105_numbers_refuted : ∃ (a b : BigNat (ZMod p)) (c1 c2 c3 : CS (ZMod p)), bnWitness (2 ^ 64 + 1) 64 2 CS.init = some (a, c1) ∧
    bnWitness (2 ^ 32 + 1) 32 2 c1 = some (b, c2) ∧ bnEnforceEq a b c2 = some ((), c3) ∧ Satisfies (stored c3) c3 ∧
    spells (stored c3) a ≠ spells (stored c3) b := by
  have wf0 : Wf (CS.init : CS (ZMod p)) := ⟨rfl, by simp [CS.init]⟩
  obtain ⟨a, c1, r1, h1, e1, w1, s1⟩ := HP.satisfied wf0 (bnWitness_hp wf0 (n := 2 ^ 64 + 1) (w := 64) (k := 2) (by norm_num) (by norm_num))
  obtain ⟨b, c2, r2, h2, e2, w2, s2⟩ := HP.satisfied w1 (bnWitness_hp w1 (n := 2 ^ 32 + 1) (w := 32) (k := 2) (by norm_num) (by norm_num))
  have la : limbsOf 64 2 (2 ^ 64 + 1) = [1, 1] := by decide
  have lb : limbsOf 32 2 (2 ^ 32 + 1) = [1, 1] := by decide
  rw [la] at h1
  rw [lb] at h2
  obtain ⟨c3, r3, h3⟩ := (C105_limbs w2 (hasN_ok (h1.mono e2).has) (hasN_ok h2.has)).2
    (h1.has.length_eq.trans h2.has.length_eq.symm)
  have va : ∀ {c : CS (ZMod p)} {l : List (Row (ZMod p))}, HasN c l [1, 1] → l.map (rowVal (stored c)) = [1, 1] := by
    intro c l h
    have := (List.forall₂_map_left_iff (f := rowVal (stored c)) (R := fun v (n : Nat) => v = (n : ZMod p))).mpr (h.imp fun _ _ h => h.val)
    generalize l.map (rowVal (stored c)) = m at this
    cases this with
    | cons h1 h => cases h with
      | cons h2 h => cases h; simp [h1, h2]
  have one : (1 : ZMod p).val = 1 := ZMod.val_one p
  refine ⟨a, b, c1, c2, c3, by exact_mod_cast r1, by exact_mod_cast r2, r3,
    h3.honest (s2 (s1 ⟨rfl, by simp [CS.init]⟩)) (by rw [va (h1.mono e2).has, va h2.has]), ?_⟩
  have sp : ∀ {x : BigNat (ZMod p)}, HasN c3 x.limbs [1, 1] → spells (stored c3) x = 1 + 2 ^ x.limbWidth := by
    intro x h
    have := congrArg (List.map ZMod.val) (va h)
    rw [List.map_map] at this
    unfold spells
    rw [show x.limbs.map (fun r => (rowVal (stored c3) r).val) = _ from this]
    simp [leValue, one]
  rw [sp ((h1.mono e2).mono h3.grows).has, sp (h2.mono h3.grows).has, h1.width, h2.width]
  norm_num

/-- Two equal numbers of the library's own allocation meet the hypotheses, and their equality is accepted. -/
example : ∃ (a b : BigNat FrV) (c1 c2 c3 : CS FrV), bnWitness (2 ^ 200 + 7) 64 4 CS.init = some (a, c1) ∧
    bnWitness (2 ^ 200 + 7) 64 4 c1 = some (b, c2) ∧ bnEnforceEq a b c2 = some ((), c3) ∧ Satisfies (stored c3) c3 := by
  have wf0 : Wf (CS.init : CS FrV) := ⟨rfl, by simp [CS.init]⟩
  obtain ⟨a, c1, r1, h1, e1, w1, s1⟩ := HP.satisfied wf0 (bnWitness_hp wf0 (n := 2 ^ 200 + 7) (w := 64) (k := 4) (by norm_num) (by norm_num))
  obtain ⟨b, c2, r2, h2, e2, w2, s2⟩ := HP.satisfied w1 (bnWitness_hp w1 (n := 2 ^ 200 + 7) (w := 64) (k := 4) (by norm_num) (by norm_num))
  obtain ⟨c3, r3, h3⟩ := (C105_limbs w2 (hasN_ok (h1.mono e2).has) (hasN_ok h2.has)).2
    (h1.has.length_eq.trans h2.has.length_eq.symm)
  refine ⟨a, b, c1, c2, c3, by exact_mod_cast r1, by exact_mod_cast r2, r3, h3.honest (s2 (s1 ⟨rfl, by simp [CS.init]⟩)) ?_⟩
  have va : ∀ {l : List (Row FrV)} {ns : List Nat}, HasN c2 l ns → l.map (rowVal (stored c2)) = ns.map (fun n : Nat => (n : FrV)) := by
    intro l ns h
    induction h with
    | nil => rfl
    | cons h _ ih => rw [List.map_cons, List.map_cons, ih, h.val]
  rw [va (h1.mono e2).has, va h2.has]

end Kogarashi.Props
