import Verif.R1cs.Bits
import Verif.R1cs.Sat
import Verif.Field.SqrtProof
import Mathlib.Tactic.NormNum.Prime

/-!
# Properties C30–C36 and C39: rows, constraint systems and circuit gadgets

Assignments `z` are arbitrary: they are what a prover may supply.  `stored cs` is what the circuit
builder computed.
-/

namespace Kogarashi.Props

open Kogarashi Spec

variable {F : Type} [Field F] [DecidableEq F]

instance : Fact (Nat.Prime 13) := ⟨by norm_num⟩

/-- A small system used to show that hypotheses can be met: `x = (1, 3)`, `w = (5, 2, 1, 0, 1)`, one
constraint `x₁ * w₀ = w₁` (which holds modulo 13). -/
def demo : CS (ZMod 13) :=
  { x := [1, 3], w := [5, 2, 1, 0, 1]
    cons := [⟨Row.ofWire (.inst 1), Row.ofWire (.wit 0), Row.ofWire (.wit 1)⟩] }

def demoRow : Row (ZMod 13) := [(.wit 0, 2), (.inst 1, 5)]

theorem demo_wf : Wf demo := by
  have hw : ∀ w, Allocated demo w → RowOk demo (Row.ofWire w) := fun w h => RowOk.ofWire h
  refine ⟨rfl, ?_⟩
  intro k hk
  simp only [demo, List.mem_singleton] at hk
  subst hk
  exact ⟨hw _ (by decide : 1 < 2), hw _ (by decide : 0 < 5), hw _ (by decide : 1 < 5)⟩

theorem demo_row : RowOk demo demoRow := by
  refine ⟨by unfold DistinctWires; decide, ?_⟩
  intro e he
  simp only [demoRow, List.mem_cons, List.not_mem_nil, or_false] at he
  rcases he with rfl | rfl
  · exact (by decide : 0 < 5)
  · exact (by decide : 1 < 2)

theorem demo_sat : Satisfies (stored demo) demo := by
  refine ⟨by decide, ?_⟩
  intro k hk
  simp only [demo, List.mem_singleton] at hk
  subst hk
  unfold Holds; decide

/-! ### C30 -/

/-- The rows a user can build with the row operations. -/
inductive ApiRow : Row F → Prop
  | wire (w : Wire) : ApiRow (Row.ofWire w)
  | const (c : F) : ApiRow (Row.ofConst c)
  | constAssignment (c : F) : ApiRow (Circ.const c)
  | add {a b : Row F} : ApiRow a → ApiRow b → ApiRow (a.add b)
  | sub {a b : Row F} : ApiRow a → ApiRow b → ApiRow (a.sub b)
  | neg {a : Row F} : ApiRow a → ApiRow a.neg
  | smul {a : Row F} (k : F) : ApiRow a → ApiRow (a.smul k)

/-- **C30 (no wire twice).** -/
theorem C30_distinct {r : Row F} (h : ApiRow r) : DistinctWires r := by
  induction h with
  | wire w => exact Row.distinct_ofWire w
  | const c => exact Row.distinct_ofConst c
  | constAssignment c => simp [DistinctWires, Circ.const]
  | add _ _ h1 h2 => exact Row.distinct_add h1 h2
  | sub _ _ h1 h2 => exact Row.distinct_sub h1 h2
  | neg _ h => exact Row.distinct_neg h
  | smul k _ h => exact Row.distinct_smul h k

theorem evaluate_some {x w : List F} {r : Row F} {v : F} (h : r.evaluate x w = some v) :
    (∀ e ∈ r, (Row.readWire x w e.1).isSome) ∧ v = rowVal (fun u => (Row.readWire x w u).getD 0) r := by
  have hs : ∀ e ∈ r, (Row.readWire x w e.1).isSome := by
    intro e he
    by_contra hc
    have : Row.readWire x w e.1 = none := by simpa using hc
    have := Row.evaluate_none_aux r 0 he this
    unfold Row.evaluate at h
    rw [h] at this; simp at this
  refine ⟨hs, ?_⟩
  rw [Row.evaluate_eq (z := fun u => (Row.readWire x w u).getD 0) (fun e he => by
    have := hs e he
    cases hr : Row.readWire x w e.1 with
    | none => rw [hr] at this; simp at this
    | some v => rfl)] at h
  simpa using h.symm

theorem evaluate_of {x w : List F} {r : Row F} (h : ∀ e ∈ r, (Row.readWire x w e.1).isSome) :
    r.evaluate x w = some (rowVal (fun u => (Row.readWire x w u).getD 0) r) :=
  Row.evaluate_eq (fun e he => by
    have := h e he
    cases hr : Row.readWire x w e.1 with
    | none => rw [hr] at this; simp at this
    | some v => rfl)

/-- **C30 (linearity).** On all instance/witness vectors on which the operands evaluate, the results
evaluate to the sum, difference, negation and multiple. -/
theorem C30_linear {a b : Row F} (ha : ApiRow a) (hb : ApiRow b) {x w : List F} {va vb : F}
    (ea : a.evaluate x w = some va) (eb : b.evaluate x w = some vb) (k : F) :
    (a.add b).evaluate x w = some (va + vb) ∧ (a.sub b).evaluate x w = some (va - vb) ∧
      a.neg.evaluate x w = some (-va) ∧ (a.smul k).evaluate x w = some (va * k) := by
  obtain ⟨sa, rfl⟩ := evaluate_some ea
  obtain ⟨sb, rfl⟩ := evaluate_some eb
  have da := C30_distinct ha
  have db := C30_distinct hb
  have hsm : ∀ (c : Row F) (k : F), (∀ e ∈ c, (Row.readWire x w e.1).isSome) →
      ∀ e ∈ c.smul k, (Row.readWire x w e.1).isSome := by
    intro c k h e he
    obtain ⟨d, hd, rfl⟩ := List.mem_map.mp (Row.mem_mk he)
    exact h d hd
  have hadd : ∀ (c d : Row F), (∀ e ∈ c, (Row.readWire x w e.1).isSome) →
      (∀ e ∈ d, (Row.readWire x w e.1).isSome) → ∀ e ∈ c.add d, (Row.readWire x w e.1).isSome := by
    intro c d hc hd e he
    rcases Row.wires_add he with h | h
    · obtain ⟨e', he', h⟩ := List.mem_map.mp h; exact h ▸ hc e' he'
    · obtain ⟨e', he', h⟩ := List.mem_map.mp h; exact h ▸ hd e' he'
  refine ⟨?_, ?_, ?_, ?_⟩
  · rw [evaluate_of (hadd a b sa sb), Row.rowVal_add _ da db]
  · rw [← Row.rowVal_sub _ da db]; exact evaluate_of (hadd a b.neg sa (hsm b _ sb))
  · rw [← Row.rowVal_neg]; exact evaluate_of (hsm a _ sa)
  · rw [evaluate_of (hsm a k sa), Row.rowVal_smul]

/-- **C30 (constants).** A row reported as constant evaluates to that constant. -/
theorem C30_constant {a : Row F} {c : F} (h : a.asConstant = some c) {x w : List F} (hx : x[0]? = some 1) :
    a.evaluate x w = some c := by
  rw [Row.asConstant_eq h]
  simp [Row.evaluate, Row.readWire, Wire.ONE, hx]

/-- Outside the property: `SparseRow::new` accepts repeated wires, and then `+` is not addition. -/
theorem C30_new_repeated_wire_not_additive :
    ∃ (a b : Row (ZMod 13)) (x w : List (ZMod 13)) (va vb : ZMod 13), a = Row.mk a ∧
      a.evaluate x w = some va ∧ b.evaluate x w = some vb ∧ (a.add b).evaluate x w ≠ some (va + vb) :=
  ⟨[(.wit 0, 1), (.wit 0, 2)], [(.wit 0, 1)], [1], [1], 3, 1, by decide, by decide, by decide, by decide⟩

example : ApiRow ((Row.ofWire (.wit 0)).add ((Row.ofConst (3 : ZMod 13)).smul 2)) ∧
    ((Row.ofWire (.wit 0)).add ((Row.ofConst (3 : ZMod 13)).smul 2)).evaluate [1] [5] = some 11 ∧
    ((Row.ofWire (.wit 0)).sub (Row.ofWire (.wit 0)) : Row (ZMod 13)) = [] ∧
    (Row.ofConst (3 : ZMod 13)).asConstant = some 3 :=
  ⟨.add (.wire _) (.smul _ (.const _)), by decide, by decide, by decide⟩

/-! ### C31 -/

/-- **C31.** `is_sat` does not panic and is true iff every constraint of the system holds for the stored
values. The only hypothesis is that constraints mention existing wires. -/
theorem C31_is_sat {cs : CS F} (h : ∀ k ∈ cs.cons, ∀ r ∈ [k.a, k.b, k.c], ∀ e ∈ r, Allocated cs e.1) :
    ∃ b, cs.isSat = some b ∧ (b = true ↔
      ∀ k ∈ cs.cons, rowVal (stored cs) k.a * rowVal (stored cs) k.b = rowVal (stored cs) k.c) :=
  CS.isSat_eq h

/-- **C31 (matrix–vector product).** `prod` and `evaluate_with_z` both give the row-wise evaluations,
`prod` padded with zeros up to the requested length. -/
theorem C31_prod {cs : CS F} {rows : List (Row F)} (h : ∀ r ∈ rows, ∀ e ∈ r, Allocated cs e.1) {m : Nat}
    (hm : rows.length ≤ m) :
    Matrix.prod rows m cs.l (cs.x ++ cs.w) =
      some (rows.map (rowVal (stored cs)) ++ List.replicate (m - rows.length) 0) ∧
    Matrix.evaluateWithZ rows cs.x cs.w = some (rows.map (rowVal (stored cs))) :=
  ⟨Matrix.prod_eq h hm, Matrix.evaluateWithZ_eq h⟩

example : demo.isSat = some true ∧ ({ demo with w := [5, 3, 1, 0, 1] } : CS (ZMod 13)).isSat = some false := by
  constructor <;> decide

/-- **C31 (gates).** An assignment satisfies the system extended by a gate exactly if it satisfied the system and
the relation the gate is named after holds: product, sum, difference, equality. -/
theorem C31_gates (z : Assignment F) (cs : CS F) {x y w : Row F} (hx : DistinctWires x) (hy : DistinctWires y) :
    (Satisfies z (cs.mulGate x y w) ↔ Satisfies z cs ∧ rowVal z x * rowVal z y = rowVal z w) ∧
    (Satisfies z (cs.addGate x y w) ↔ Satisfies z cs ∧ rowVal z x + rowVal z y = rowVal z w) ∧
    (Satisfies z (cs.subGate x y w) ↔ Satisfies z cs ∧ rowVal z x - rowVal z y = rowVal z w) ∧
    (Satisfies z (cs.equalGate x y) ↔ Satisfies z cs ∧ rowVal z x = rowVal z y) := by
  have key : ∀ a b c : Row F, Satisfies z (cs.append a b c) ↔
      Satisfies z cs ∧ rowVal z a * rowVal z b = rowVal z c := by
    intro a b c
    unfold Satisfies CS.append Holds
    simp only [List.mem_append, List.mem_singleton, or_imp, forall_and, forall_eq, and_assoc]
  refine ⟨key _ _ _, ?_, ?_, ?_⟩
  · unfold CS.addGate
    rw [key]
    refine and_congr_right fun h => ?_
    rw [Row.rowVal_add z hx hy, Row.rowVal_ofWire, h.1, mul_one]
  · unfold CS.subGate
    rw [key]
    refine and_congr_right fun h => ?_
    rw [Row.rowVal_sub z hx hy, Row.rowVal_ofWire, h.1, mul_one]
  · unfold CS.equalGate CS.mulGate
    rw [key]
    refine and_congr_right fun h => ?_
    rw [Row.rowVal_one, h.1, mul_one]

/-- The gates tell satisfying from unsatisfying assignments. -/
example : Satisfies (fun w => if w = Wire.ONE then 1 else if w = .wit 0 then 5 else (2 : ZMod 13))
      ((CS.init : CS (ZMod 13)).subGate (Row.ofWire (.wit 0)) (Row.ofWire (.wit 1)) (Row.ofConst 3)) ∧
    ¬Satisfies (fun w => if w = Wire.ONE then 1 else if w = .wit 0 then 2 else (5 : ZMod 13))
      ((CS.init : CS (ZMod 13)).subGate (Row.ofWire (.wit 0)) (Row.ofWire (.wit 1)) (Row.ofConst 3)) := by
  constructor
  · exact ⟨by decide, by simp only [Holds]; decide⟩
  · exact fun h => absurd (h.2 _ (List.mem_singleton.2 rfl)) (by unfold Holds; decide)

/-! ### C32 -/

section C32

variable {cs : CS F} (wf : Wf cs)
include wf

/-- From a family of run lemmas, uniform in the stored values. -/
theorem implements_of_run {α : Type} {g : Circ F α} (hu : Uniform g g) {out : α} {cs' : CS F}
    (hg : g cs = some (out, cs')) {S Pre : Assignment F → Prop} (hrun : Run cs cs' S (Pre (stored cs)))
    (hall : ∀ z, z Wire.ONE = 1 → Pre z → ∃ o c S' H, g (cs.withValues z) = some (o, c) ∧
      Run (cs.withValues z) c S' H ∧ H) : Implements cs cs' S Pre :=
  Circ.implements hu wf hg hrun (fun z hz hp => hall z hz.1 hp)

/-- **C32, mul.** -/
theorem C32_mul {x y : Row F} (hx : RowOk cs x) (hy : RowOk cs y) :
    ∃ out cs', Circ.mul x y cs = some (out, cs') ∧ RowOk cs' out ∧
      Implements cs cs' (fun z => rowVal z out = rowVal z x * rowVal z y) (fun _ => True) := by
  obtain ⟨o, c, e, ok, r⟩ := Circ.mul_run wf hx hy
  refine ⟨o, c, e, ok, implements_of_run wf (Uniform.mul x y) e r (fun z hz _ => ?_)⟩
  have hs := Circ.sameShape_withValues cs z
  obtain ⟨o, c, e, -, r⟩ := Circ.mul_run (Circ.wf_withValues wf hz) (hs.rowOk hx) (hs.rowOk hy)
  exact ⟨o, c, _, _, e, r, trivial⟩

/-- **C32, square.** -/
theorem C32_square {x : Row F} (hx : RowOk cs x) :
    ∃ out cs', Circ.square x cs = some (out, cs') ∧ RowOk cs' out ∧
      Implements cs cs' (fun z => rowVal z out = rowVal z x * rowVal z x) (fun _ => True) :=
  C32_mul wf hx hx

/-- **C32, add.** -/
theorem C32_add {x y : Row F} (hx : RowOk cs x) (hy : RowOk cs y) :
    ∃ out cs', Circ.add x y cs = some (out, cs') ∧ RowOk cs' out ∧
      Implements cs cs' (fun z => rowVal z out = rowVal z x + rowVal z y) (fun _ => True) := by
  obtain ⟨o, c, e, ok, r⟩ := Circ.add_run wf hx hy
  refine ⟨o, c, e, ok, implements_of_run wf (Uniform.add x y) e r (fun z hz _ => ?_)⟩
  have hs := Circ.sameShape_withValues cs z
  obtain ⟨o, c, e, -, r⟩ := Circ.add_run (Circ.wf_withValues wf hz) (hs.rowOk hx) (hs.rowOk hy)
  exact ⟨o, c, _, _, e, r, trivial⟩

/-- **C32, enforce_eq.** -/
theorem C32_enforce_eq {x y : Row F} (hx : RowOk cs x) (hy : RowOk cs y) :
    ∃ cs', Circ.enforceEq x y cs = some ((), cs') ∧
      Implements cs cs' (fun z => rowVal z x = rowVal z y) (fun z => rowVal z x = rowVal z y) := by
  obtain ⟨c, e, r⟩ := Circ.enforceEq_run wf hx hy
  refine ⟨c, e, implements_of_run wf (Uniform.enforceEq x y) e r (fun z hz h => ?_)⟩
  have hs := Circ.sameShape_withValues cs z
  obtain ⟨c, e, r⟩ := Circ.enforceEq_run (Circ.wf_withValues wf hz) (hs.rowOk hx) (hs.rowOk hy)
  exact ⟨(), c, _, _, e, r, by rwa [Circ.rowVal_withValues hx, Circ.rowVal_withValues hy]⟩

/-- **C32, enforce_eq_constant.** -/
theorem C32_enforce_eq_constant {x : Row F} (hx : RowOk cs x) (k : F) :
    ∃ cs', Circ.enforceEqConstant x k cs = some ((), cs') ∧
      Implements cs cs' (fun z => rowVal z x = k) (fun z => rowVal z x = k) := by
  obtain ⟨c, e, r⟩ := Circ.enforceEqConstant_run wf hx k
  refine ⟨c, e, implements_of_run wf (Uniform.enforceEqConstant x k) e r (fun z hz h => ?_)⟩
  have hs := Circ.sameShape_withValues cs z
  obtain ⟨c, e, r⟩ := Circ.enforceEqConstant_run (Circ.wf_withValues wf hz) (hs.rowOk hx) k
  exact ⟨(), c, _, _, e, r, by rwa [Circ.rowVal_withValues hx]⟩

/-- The number with the given big-endian digits (which need not be boolean), in the field. -/
def bitSum (z : Assignment F) (bs : List Wire) : F := bs.foldl (fun acc b => 2 * acc + z b) 0

omit wf in
theorem wsum_eq (z : Assignment F) (bs : List Wire) : Circ.wsum z bs.reverse 1 = bitSum z bs := by
  have app : ∀ (l l' : List Wire) (f : F), Circ.wsum z (l ++ l') f =
      Circ.wsum z l f + Circ.wsum z l' (f * 2 ^ l.length) := by
    intro l
    induction l with
    | nil => intro l' f; simp [Circ.wsum]
    | cons b l ih =>
      intro l' f
      simp only [List.cons_append, Circ.wsum, ih, List.length_cons]
      rw [show (f + f) * 2 ^ l.length = f * 2 ^ (l.length + 1) by ring]; ring
  have scale : ∀ (l : List Wire) (f : F), Circ.wsum z l f = f * Circ.wsum z l 1 := by
    intro l
    induction l with
    | nil => intro f; simp [Circ.wsum]
    | cons b l ih =>
      intro f
      simp only [Circ.wsum]
      rw [ih (f + f), ih (1 + 1)]; ring
  unfold bitSum
  induction bs using List.reverseRecOn with
  | nil => rfl
  | append_singleton bs b ih =>
    rw [List.reverse_append, List.reverse_singleton, List.foldl_append, ← ih]
    simp only [List.singleton_append, Circ.wsum, List.foldl_cons, List.foldl_nil]
    rw [scale bs.reverse (1 + 1)]; ring

/-- **C32, enforce_eq_bits** (bits big-endian). -/
theorem C32_enforce_eq_bits {x : Row F} {bs : List Wire} (hx : RowOk cs x) (hb : ∀ b ∈ bs, Allocated cs b) :
    ∃ cs', Circ.enforceEqBits x bs cs = some ((), cs') ∧
      Implements cs cs' (fun z => rowVal z x = bitSum z bs) (fun z => rowVal z x = bitSum z bs) := by
  obtain ⟨c, e, r⟩ := Circ.enforceEqBits_run wf hx hb
  refine ⟨c, e, implements_of_run wf (Uniform.enforceEqBits x bs) e
    (r.weaken (fun z _ h => by rw [← wsum_eq]; exact h) (fun h => by rw [wsum_eq]; exact h)) (fun z hz h => ?_)⟩
  have hs := Circ.sameShape_withValues cs z
  obtain ⟨c, e, r⟩ := Circ.enforceEqBits_run (Circ.wf_withValues wf hz) (hs.rowOk hx)
    (fun b h => (hs.alloc b).mp (hb b h))
  refine ⟨(), c, _, _, e, r, ?_⟩
  rw [Circ.rowVal_withValues hx, wsum_eq, h]
  unfold bitSum
  have : ∀ (l : List Wire) (acc : F), (∀ b ∈ l, Allocated cs b) →
      l.foldl (fun acc b => 2 * acc + z b) acc = l.foldl (fun acc b => 2 * acc + stored (cs.withValues z) b) acc := by
    intro l
    induction l with
    | nil => intros; rfl
    | cons b l ih =>
      intro acc hl
      simp only [List.foldl_cons]
      rw [Circ.stored_withValues (hl b (by simp)), ih _ (fun b' h' => hl b' (by simp [h']))]
  exact this bs 0 hb

/-- **C32, conditional_enforce_equal**: enforced unless the flag is zero. -/
theorem C32_conditional_enforce_equal {x y : Row F} {s : Wire} (hx : RowOk cs x) (hy : RowOk cs y)
    (hs : Allocated cs s) :
    ∃ cs', Circ.conditionalEnforceEqual x y s cs = some ((), cs') ∧
      Implements cs cs' (fun z => z s = 0 ∨ rowVal z x = rowVal z y)
        (fun z => z s = 0 ∨ rowVal z x = rowVal z y) := by
  obtain ⟨c, e, r⟩ := Circ.conditionalEnforceEqual_run wf hx hy hs
  refine ⟨c, e, implements_of_run wf (Uniform.conditionalEnforceEqual x y s) e r (fun z hz h => ?_)⟩
  have hsh := Circ.sameShape_withValues cs z
  obtain ⟨c, e, r⟩ := Circ.conditionalEnforceEqual_run (Circ.wf_withValues wf hz) (hsh.rowOk hx)
    (hsh.rowOk hy) ((hsh.alloc s).mp hs)
  refine ⟨(), c, _, _, e, r, ?_⟩
  rwa [Circ.rowVal_withValues hx, Circ.rowVal_withValues hy, Circ.stored_withValues hs]

/-- **C32, conditional_select**: `a` when the flag is 1, `b` when it is 0. -/
theorem C32_conditional_select {a b : Row F} {s : Wire} (ha : RowOk cs a) (hb : RowOk cs b)
    (hs : Allocated cs s) :
    ∃ out cs', Circ.conditionalSelect a b s cs = some (out, cs') ∧ RowOk cs' out ∧
      Implements cs cs' (fun z => rowVal z out = z s * rowVal z a + (1 - z s) * rowVal z b ∧
        (z s = 1 → rowVal z out = rowVal z a) ∧ (z s = 0 → rowVal z out = rowVal z b)) (fun _ => True) := by
  obtain ⟨o, c, e, ok, r⟩ := Circ.conditionalSelect_run wf ha hb hs
  refine ⟨o, c, e, ok, implements_of_run wf (Uniform.conditionalSelect a b s) e
    (r.weaken (fun z _ h => ⟨by rw [h]; ring, fun h1 => by rw [h, h1]; ring, fun h1 => by rw [h, h1]; ring⟩) id)
    (fun z hz _ => ?_)⟩
  have hsh := Circ.sameShape_withValues cs z
  obtain ⟨o, c, e, -, r⟩ := Circ.conditionalSelect_run (Circ.wf_withValues wf hz) (hsh.rowOk ha)
    (hsh.rowOk hb) ((hsh.alloc s).mp hs)
  exact ⟨o, c, _, _, e, r, trivial⟩

end C32

example : Wf demo ∧ RowOk demo demoRow ∧ demoRow.asConstant = none ∧ Allocated demo (.wit 2) ∧
    Satisfies (stored demo) demo ∧ rowVal (stored demo) demoRow = 12 ∧
    (Circ.mul demoRow demoRow demo).map (fun p => (rowVal (stored p.2) p.1, p.2.m)) = some (1, 2) :=
  ⟨demo_wf, demo_row, by decide, (by decide : 2 < 5), demo_sat, by decide, by decide⟩

/-! ### C33 -/

section bits

variable {p : Nat} [Fact p.Prime]

/-- **C33.** For a non-zero bound and at least as many wires as the bound has binary digits:
`range_check(bits, c)` accepts exactly the assignments in which the wires are boolean and spell a number
at most `c`.  Missing: shorter bit vectors and the zero bound, for which the claim is false (below). -/
theorem C33_range_check_partial (hp : p ≤ 2 ^ 256) {cs : CS (ZMod p)} (wf : Wf cs) {bs : List Wire}
    (hb : ∀ b ∈ bs, Allocated cs b) {c : ZMod p} (hc : c ≠ 0) (hlen : c.val < 2 ^ bs.length) :
    ∃ cs', Circ.rangeCheck bs c cs = some ((), cs') ∧
      Implements cs cs' (fun z => ∃ n, n ≤ c.val ∧ SpellBits z bs n)
        (fun z => ∃ n, n ≤ c.val ∧ SpellBits z bs n) := by
  obtain ⟨c', e, r⟩ := Circ.rangeCheck_run wf hb hp hc hlen
  refine ⟨c', e, implements_of_run wf (Uniform.rangeCheck bs c) e r (fun z hz h => ?_)⟩
  have hs := Circ.sameShape_withValues cs z
  obtain ⟨c2, e2, r2⟩ := Circ.rangeCheck_run (Circ.wf_withValues wf hz)
    (fun b h => (hs.alloc b).mp (hb b h)) hp hc hlen
  refine ⟨(), c2, _, _, e2, r2, ?_⟩
  obtain ⟨n, hn, ds, h1, h2, h3⟩ := h
  refine ⟨n, hn, ds, h1, ?_, h3⟩
  rw [← h2]
  exact List.map_congr_left (fun b h => Circ.stored_withValues (hb b h))

/-- **C33, range_check_bits**: with `num_bits` at least 1 and `2^num_bits` at most the modulus, exactly
the numbers below `2^num_bits`. -/
theorem C33_range_check_bits_partial (hp : p ≤ 2 ^ 256) {cs : CS (ZMod p)} (wf : Wf cs) {bs : List Wire}
    (hb : ∀ b ∈ bs, Allocated cs b) {n : Nat} (hn : 0 < n) (hnp : 2 ^ n ≤ p) (hlen : n ≤ bs.length) :
    ∃ cs', Circ.rangeCheckBits bs n cs = some ((), cs') ∧
      Implements cs cs' (fun z => ∃ v, v < 2 ^ n ∧ SpellBits z bs v) (fun z => ∃ v, v < 2 ^ n ∧ SpellBits z bs v) := by
  have h1 : 1 ≤ 2 ^ n := Nat.one_le_two_pow
  have h2 : 2 ^ 1 ≤ 2 ^ n := Nat.pow_le_pow_right (by norm_num) hn
  have hcast : (2 ^ n - 1 : ZMod p) = ((2 ^ n - 1 : ℕ) : ZMod p) := by
    rw [Nat.cast_sub h1]; simp
  have hval : (2 ^ n - 1 : ZMod p).val = 2 ^ n - 1 := by
    rw [hcast, ZMod.val_natCast_of_lt (by omega)]
  have hc : (2 ^ n - 1 : ZMod p) ≠ 0 := by
    intro h; rw [h, ZMod.val_zero] at hval; omega
  have hl : (2 ^ n - 1 : ZMod p).val < 2 ^ bs.length := by
    rw [hval]
    have : 2 ^ n ≤ 2 ^ bs.length := Nat.pow_le_pow_right (by norm_num) hlen
    omega
  obtain ⟨cs', e, h⟩ := C33_range_check_partial hp wf hb hc hl
  rw [hval] at h
  have heq : ∀ v, v ≤ 2 ^ n - 1 ↔ v < 2 ^ n := by intro v; omega
  simp only [heq] at h
  exact ⟨cs', e, h⟩

/-- **C33 is false for short vectors**: with fewer wires than the bound has digits nothing at all is
enforced, not even that the wires are boolean. -/
theorem C33_short_vector_refuted :
    ∃ (cs cs' : CS (ZMod 13)) (bs : List Wire) (c : ZMod 13) (z : Assignment (ZMod 13)), Wf cs ∧
      (∀ b ∈ bs, Allocated cs b) ∧ Circ.rangeCheck bs c cs = some ((), cs') ∧ Satisfies z cs' ∧
      ¬ ∃ n, SpellBits z bs n := by
  refine ⟨demo, demo, [.wit 0, .wit 1], 4, stored demo, demo_wf, ?_, ?_, demo_sat, ?_⟩
  · intro b hb
    simp only [List.mem_cons, List.not_mem_nil, or_false] at hb
    rcases hb with rfl | rfl
    · exact (by decide : 0 < 5)
    · exact (by decide : 1 < 5)
  · exact Circ.rangeCheck_short (by decide +kernel)
  · rintro ⟨n, ds, h1, h2, -⟩
    cases ds with
    | nil => simp at h2
    | cons d ds =>
      have h : stored demo (.wit 0) = (d : ZMod 13) := by
        have := congrArg List.head? h2; simpa using this
      rcases h1 d (by simp) with rfl | rfl
      · revert h; decide
      · revert h; decide

/-- **C33 is false for the zero bound**: the call panics. -/
theorem C33_zero_bound_refuted :
    Circ.rangeCheck [.wit 3, .wit 3] (0 : ZMod 13) demo = none := by decide +kernel

example : (∀ b ∈ [Wire.wit 4, .wit 3, .wit 2], Allocated demo b) ∧ (5 : ZMod 13) ≠ 0 ∧ (5 : ZMod 13).val < 2 ^ 3 ∧
    SpellBits (stored demo) [Wire.wit 4, .wit 3, .wit 2] 5 := by
  refine ⟨?_, by decide, by decide, [1, 0, 1], by decide, by decide, rfl⟩
  intro b hb
  simp only [List.mem_cons, List.not_mem_nil, or_false] at hb
  rcases hb with rfl | rfl | rfl
  · exact (by decide : 4 < 5)
  · exact (by decide : 3 < 5)
  · exact (by decide : 2 < 5)

/-! ### C34 -/

/-- **C34 is false.** For every circuit and every row `x`, and whatever value the prover gives `x`, the
bits returned by `to_bits(x, n)` can be those of *any* number within the bound: no constraint links them
to `x`. -/
theorem C34_to_bits_refuted {nb n m : Nat} (hnb : nb ≤ 256) (hlo : 2 ^ (nb - 1) < p) (hhi : p ≤ 2 ^ nb)
    (hn0 : 0 < n) (hn : n ≤ 256) (hm : m ≤ (if n < nb then 2 ^ n - 1 else p - 1))
    {cs : CS (ZMod p)} (wf : Wf cs) {x : Row (ZMod p)} (hx : RowOk cs x) {z : Assignment (ZMod p)}
    (hz : Satisfies z cs) :
    ∃ out cs' z', Circ.toBits nb x n cs = some (out, cs') ∧ Satisfies z' cs' ∧
      rowVal z' x = rowVal z x ∧ SpellBits z' out m := by
  obtain ⟨out, cs', z', e, ha, hs, hb⟩ := Circ.toBits_free wf hx hnb hlo hhi hn0 hn hm hz
  exact ⟨out, cs', z', e, hs, (Row.rowVal_congr (fun e he => ha _ (hx.allocated e he))).symm, hb⟩

/-- **C34, what does hold.** `to_bits(x, n)` does not panic for `1 ≤ n ≤ 256`; in every satisfying
assignment the bits are boolean and spell a number within the bound; the honest builder stores the low
`n` bits of the value of `x` and satisfies the new constraints.  Missing: the link with `x`. -/
theorem C34_to_bits_partial {nb n : Nat} (hnb : nb ≤ 256) (hlo : 2 ^ (nb - 1) < p) (hhi : p ≤ 2 ^ nb)
    (hn0 : 0 < n) (hn : n ≤ 256) {cs : CS (ZMod p)} (wf : Wf cs) {x : Row (ZMod p)} (hx : RowOk cs x) :
    ∃ out cs', Circ.toBits nb x n cs = some (out, cs') ∧ out.length = n ∧ (∀ b ∈ out, Allocated cs' b) ∧
      SpellBits (stored cs') out ((rowVal (stored cs) x).val % 2 ^ n) ∧
      Implements cs cs' (fun z => ∃ m, m ≤ (if n < nb then 2 ^ n - 1 else p - 1) ∧ SpellBits z out m)
        (fun _ => True) := by
  obtain ⟨all, c1, out, cs', -, -, -, e, hl, hal, -, hsp, r⟩ := Circ.toBits_run wf hx hnb hlo hhi hn0 hn
  refine ⟨out, cs', e, hl, hal, hsp, implements_of_run wf (Uniform.toBits nb x n) e r (fun z hz _ => ?_)⟩
  have hs := Circ.sameShape_withValues cs z
  obtain ⟨_, _, o, c, -, -, -, e, -, -, -, -, r⟩ := Circ.toBits_run (Circ.wf_withValues wf hz) (hs.rowOk hx)
    hnb hlo hhi hn0 hn
  exact ⟨o, c, _, _, e, r, trivial⟩

open Field in
/-- The hypotheses on the modulus hold for both circuit fields, with `NUM_BITS = 254`. -/
example : frParams.m.Prime ∧ fqParams.m.Prime ∧ 2 ^ (254 - 1) < frParams.m ∧ frParams.m ≤ 2 ^ 254 ∧
    2 ^ (254 - 1) < fqParams.m ∧ fqParams.m ≤ 2 ^ 254 :=
  ⟨frParams_prime, fqParams_prime, by decide +kernel, by decide +kernel, by decide +kernel, by decide +kernel⟩

example : 2 ^ (4 - 1) < 13 ∧ 13 ≤ 2 ^ 4 ∧ (7 ≤ if 3 < 4 then 2 ^ 3 - 1 else 13 - 1) ∧
    (Circ.toBits 4 demoRow 3 demo).isSome := by
  refine ⟨by norm_num, by norm_num, by norm_num, by decide +kernel⟩

end bits

/-! ### C35 -/

theorem override_free {cs cs' : CS F} (wf : Wf cs) (hc : cs'.cons = cs.cons) {out : Wire}
    (hout : ¬ Allocated cs out) {z : Assignment F} (hz : Satisfies z cs) (v : F) :
    ∃ z', AgreeOn cs z z' ∧ Satisfies z' cs' ∧ z' out = v := by
  have hag : AgreeOn cs z (fun w => if w = out then v else z w) := by
    intro w hw
    have : w ≠ out := fun h => hout (h ▸ hw)
    simp [this]
  refine ⟨_, hag, ⟨?_, fun k hk => ?_⟩, by simp⟩
  · rw [← hag _ wf.alloc_one]; exact hz.1
  · rw [hc] at hk
    exact (holds_congr hag (wf.rows k hk)).mp (hz.2 k hk)

/-- **C35 is false of is_eq**: whatever the two values are, the returned "boolean" can be given any field
value in a satisfying assignment. -/
theorem C35_is_eq_refuted {cs : CS F} (wf : Wf cs) {x y : Row F} (hx : RowOk cs x) (hy : RowOk cs y)
    {z : Assignment F} (hz : Satisfies z cs) (v : F) :
    ∃ out cs' z', Circ.isEq x y cs = some (out, cs') ∧ AgreeOn cs z z' ∧ Satisfies z' cs' ∧ z' out = v := by
  obtain ⟨o1, c1, e1, al1, -, r1⟩ := Circ.isNeq_run wf hx hy
  have hsh := Circ.sameShape_withValues cs z
  obtain ⟨o, c, e, -, -, r⟩ := Circ.isNeq_run (Circ.wf_withValues wf hz.1) (hsh.rowOk hx) (hsh.rowOk hy)
  obtain ⟨z1, ha1, hs1⟩ := Circ.completion (Uniform.isNeq x y) e1 hz wf ⟨o, c, e, r⟩ trivial
  obtain ⟨o2, c2, e2, al2, na2, -, k2, r2⟩ := Circ.not_run r1.wf al1
  obtain ⟨z', ha', hs', hv⟩ := override_free r1.wf k2 na2 hs1 v
  refine ⟨o2, c2, z', ?_, fun w hw => (ha1 w hw).trans (ha' w (r1.ext.alloc hw)), hs', hv⟩
  unfold Circ.isEq; rw [Circ.bind_eq e1]; exact e2

/-- **C35 is false of not, and, and boolean witnesses**: the returned wire can be given any value. -/
theorem C35_boolean_refuted {cs : CS F} (wf : Wf cs) {a b : Wire} (ha : Allocated cs a)
    (hb : Allocated cs b) (bit : Nat) {z : Assignment F} (hz : Satisfies z cs) (v : F) :
    (∃ out cs' z', Circ.not a cs = some (out, cs') ∧ AgreeOn cs z z' ∧ Satisfies z' cs' ∧ z' out = v) ∧
    (∃ out cs' z', Circ.and a b cs = some (out, cs') ∧ AgreeOn cs z z' ∧ Satisfies z' cs' ∧ z' out = v) ∧
    (∃ out cs' z', Circ.binWit bit cs = some (out, cs') ∧ AgreeOn cs z z' ∧ Satisfies z' cs' ∧ z' out = v) := by
  refine ⟨?_, ?_, ?_⟩
  · obtain ⟨o, c, e, -, na, -, k, -⟩ := Circ.not_run wf ha
    obtain ⟨z', h⟩ := override_free wf k na hz v
    exact ⟨o, c, z', e, h⟩
  · obtain ⟨o, c, e, -, na, -, k, -⟩ := Circ.and_run wf ha hb
    obtain ⟨z', h⟩ := override_free wf k na hz v
    exact ⟨o, c, z', e, h⟩
  · obtain ⟨o, c, e, -, na, -, k, -⟩ := Circ.binWit_run wf bit
    obtain ⟨z', h⟩ := override_free wf k na hz v
    exact ⟨o, c, z', e, h⟩

/-- **C35 is false of is_neq**: for two different values the result can be any field value, in particular
"equal" (0). -/
theorem C35_is_neq_refuted {cs : CS F} (wf : Wf cs) {x y : Row F} (hx : RowOk cs x) (hy : RowOk cs y)
    {z : Assignment F} (hz : Satisfies z cs) (hne : rowVal z x ≠ rowVal z y) (r : F) :
    ∃ out cs' z', Circ.isNeq x y cs = some (out, cs') ∧ AgreeOn cs z z' ∧ Satisfies z' cs' ∧ z' out = r := by
  set vx := rowVal (stored cs) x
  set vy := rowVal (stored cs) y
  have hd : rowVal z x - rowVal z y ≠ 0 := sub_ne_zero.mpr hne
  -- the two fresh wires, given values of our choice
  obtain ⟨ne, c1, e1, al1, na1, -, k1, r1⟩ := Circ.binWit_run wf (if vx ≠ vy then 1 else 0)
  obtain ⟨z1, ag1, sat1, v1⟩ := override_free wf k1 na1 hz r
  obtain ⟨mw, c2, e2, al2, na2, -, k2, r2⟩ := Circ.witWire_run r1.wf (if vx ≠ vy then (vx - vy)⁻¹ else 1)
  have e2' : Circ.wit (if vx ≠ vy then (vx - vy)⁻¹ else 1) c1 = some (Row.ofWire mw, c2) := by
    simp only [Circ.witWire, Option.some.injEq, Prod.mk.injEq] at e2
    obtain ⟨rfl, rfl⟩ := e2; rfl
  obtain ⟨z2, ag2, sat2, v2⟩ := override_free r1.wf k2 na2 sat1 (r * (rowVal z x - rowVal z y)⁻¹)
  have r12 := r1.trans r2
  have hx2 := hx.mono r12.ext
  have hy2 := hy.mono r12.ext
  have ag12 : AgreeOn cs z z2 := fun w hw => (ag1 w hw).trans (ag2 w (r1.ext.alloc hw))
  have hxz : rowVal z2 x = rowVal z x := (Row.rowVal_congr (fun e he => ag12 _ (hx.allocated e he))).symm
  have hyz : rowVal z2 y = rowVal z y := (Row.rowVal_congr (fun e he => ag12 _ (hy.allocated e he))).symm
  have hmw : RowOk c2 (Row.ofWire mw) := RowOk.ofWire al2
  -- product with the multiplier
  obtain ⟨m, c3, e3, ok3, r3⟩ := Circ.mul_run r2.wf (hx2.sub hy2) hmw
  have sh2 := Circ.sameShape_withValues c2 z2
  obtain ⟨o, c, e, -, r'⟩ := Circ.mul_run (Circ.wf_withValues r2.wf sat2.1) (sh2.rowOk (hx2.sub hy2)) (sh2.rowOk hmw)
  obtain ⟨z3, ag3, sat3⟩ := Circ.completion (Uniform.mul _ _) e3 sat2 r2.wf ⟨o, c, e, r'⟩ trivial
  have hm3 := r3.sound z3 sat3.1 ((satisfies_iff r3.ext z3).mp sat3).2
  have ag23 : AgreeOn c2 z2 z3 := ag3
  rw [← Row.rowVal_congr (fun e he => ag23 _ ((hx2.sub hy2).allocated e he)),
    ← Row.rowVal_congr (fun e he => ag23 _ (hmw.allocated e he)), Row.rowVal_sub z2 hx.1 hy.1, hxz, hyz,
    Row.rowVal_ofWire, v2, mul_comm r, mul_inv_cancel_left₀ hd] at hm3
  have hne3 : Allocated c3 ne := (r2.trans r3).ext.alloc al1
  have v3 : z3 ne = r := by rw [← ag23 ne (r2.ext.alloc al1), ← ag2 ne al1, v1]
  -- equality with the flag
  obtain ⟨c4, e4, h4⟩ := C32_enforce_eq r3.wf ok3 (Circ.ofBin_ok hne3)
  obtain ⟨z4, ag4, sat4⟩ := h4.complete z3 sat3 (by rw [Circ.rowVal_ofBin, hm3, v3])
  -- the negated flag, set to zero
  obtain ⟨nne, c5, e5, al5, na5, -, k5, r5⟩ := Circ.not_run h4.wf (h4.grows.alloc hne3)
  obtain ⟨z5, ag5, sat5, v5⟩ := override_free h4.wf k5 na5 sat4 0
  have ext15 : Extends cs c5 := r12.ext.trans (r3.ext.trans (h4.grows.trans r5.ext))
  -- last product and its constraint
  obtain ⟨m2, c6, e6, ok6, h6⟩ := C32_mul r5.wf ((hx.mono ext15).sub (hy.mono ext15)) (Circ.ofBin_ok al5)
  obtain ⟨z6, ag6, sat6⟩ := h6.complete z5 sat5 trivial
  have hm6 := (h6.sound z6 sat6).2
  obtain ⟨c7, e7, h7⟩ := C32_enforce_eq h6.wf ok6 (Circ.const_ok h6.wf 0)
  obtain ⟨z7, ag7, sat7⟩ := h7.complete z6 sat6 (by
    rw [hm6, Circ.rowVal_ofBin, ← ag6 nne al5, v5]; simp)
  refine ⟨ne, c7, z7, ?_, fun w hw => ?_, sat7, ?_⟩
  · unfold Circ.isNeq
    rw [Circ.bind_eq (Circ.value_eq hx), Circ.bind_eq (Circ.value_eq hy), Circ.bind_eq e1, Circ.bind_eq e2',
      Circ.bind_eq e3, Circ.bind_eq e4, Circ.bind_eq e5, Circ.bind_eq e6, Circ.bind_eq e7]; rfl
  · have w2 := r12.ext.alloc hw
    have w3 := r3.ext.alloc w2
    have w4 := h4.grows.alloc w3
    have w5 := r5.ext.alloc w4
    exact (ag12 w hw).trans ((ag3 w w2).trans ((ag4 w w3).trans ((ag5 w w4).trans ((ag6 w w5).trans
      (ag7 w (h6.grows.alloc w5))))))
  · have w4 := h4.grows.alloc hne3
    have w5 := r5.ext.alloc w4
    rw [← ag7 ne (h6.grows.alloc w5), ← ag6 ne w5, ← ag5 ne w4, ← ag4 ne hne3, v3]

/-- **C35, what does hold**: the honest builder stores the right truth values and satisfies the
constraints; in every satisfying assignment `is_neq` of equal values is 0.  Missing: everything else. -/
theorem C35_honest_partial {cs : CS F} (wf : Wf cs) {x y : Row F} (hx : RowOk cs x) (hy : RowOk cs y)
    {a b : Wire} (ha : Allocated cs a) (hb : Allocated cs b) :
    (∃ out cs', Circ.isNeq x y cs = some (out, cs') ∧ Allocated cs' out ∧
      stored cs' out = (if rowVal (stored cs) x = rowVal (stored cs) y then 0 else 1) ∧
      Implements cs cs' (fun z => rowVal z x = rowVal z y → z out = 0) (fun _ => True)) ∧
    (∃ out cs', Circ.isEq x y cs = some (out, cs') ∧ Allocated cs' out ∧
      stored cs' out = (if rowVal (stored cs) x = rowVal (stored cs) y then 1 else 0) ∧
      Implements cs cs' (fun _ => True) (fun _ => True)) ∧
    (∃ out cs', Circ.not a cs = some (out, cs') ∧ Allocated cs' out ∧
      stored cs' out = (if stored cs a = 1 then 0 else 1) ∧ cs'.cons = cs.cons) ∧
    (∃ out cs', Circ.and a b cs = some (out, cs') ∧ Allocated cs' out ∧
      stored cs' out = (if stored cs a = 1 ∧ stored cs b = 1 then 1 else 0) ∧ cs'.cons = cs.cons) := by
  refine ⟨?_, ?_, ?_, ?_⟩
  · obtain ⟨o, c, e, al, s, r⟩ := Circ.isNeq_run wf hx hy
    refine ⟨o, c, e, al, s, implements_of_run wf (Uniform.isNeq x y) e r (fun z hz _ => ?_)⟩
    have hs := Circ.sameShape_withValues cs z
    obtain ⟨o, c, e, -, -, r⟩ := Circ.isNeq_run (Circ.wf_withValues wf hz) (hs.rowOk hx) (hs.rowOk hy)
    exact ⟨o, c, _, _, e, r, trivial⟩
  · obtain ⟨o, c, e, al, s, r⟩ := Circ.isEq_run wf hx hy
    refine ⟨o, c, e, al, s, implements_of_run wf (Uniform.isEq x y) e r (fun z hz _ => ?_)⟩
    have hs := Circ.sameShape_withValues cs z
    obtain ⟨o, c, e, -, -, r⟩ := Circ.isEq_run (Circ.wf_withValues wf hz) (hs.rowOk hx) (hs.rowOk hy)
    exact ⟨o, c, _, _, e, r, trivial⟩
  · obtain ⟨o, c, e, al, -, s, k, -⟩ := Circ.not_run wf ha
    exact ⟨o, c, e, al, s, k⟩
  · obtain ⟨o, c, e, al, -, s, k, -⟩ := Circ.and_run wf ha hb
    exact ⟨o, c, e, al, s, k⟩

example : Wf demo ∧ RowOk demo demoRow ∧ RowOk demo (Row.ofWire (.wit 1)) ∧ Satisfies (stored demo) demo ∧
    rowVal (stored demo) demoRow ≠ rowVal (stored demo) (Row.ofWire (.wit 1)) :=
  ⟨demo_wf, demo_row, RowOk.ofWire (by decide : 1 < 5), demo_sat, by decide⟩

/-! ### C36 -/

/-- **C36 is false**: the public wire made by `inputize` can be given any value. -/
theorem C36_inputize_refuted {cs : CS F} (wf : Wf cs) {x : Row F} (hx : RowOk cs x)
    {z : Assignment F} (hz : Satisfies z cs) (v : F) :
    ∃ out cs' z', Circ.inputize x cs = some (out, cs') ∧ AgreeOn cs z z' ∧ Satisfies z' cs' ∧
      rowVal z' x = rowVal z x ∧ rowVal z' out = v := by
  obtain ⟨z', h1, h2, h3⟩ := override_free (cs' := { cs with x := cs.x ++ [rowVal (stored cs) x] }) wf rfl
    (out := .inst cs.x.length) (by simp [Allocated]) hz v
  refine ⟨Row.ofWire (.inst cs.x.length), _, z', ?_, h1, h2, ?_, by rw [Row.rowVal_ofWire, h3]⟩
  · unfold Circ.inputize; rw [Circ.bind_eq (Circ.value_eq hx)]; rfl
  · exact (Row.rowVal_congr (fun e he => h1 _ (hx.allocated e he))).symm

/-- **C36, what does hold**: the honest builder publishes the value.  Missing: soundness. -/
theorem C36_inputize_partial {cs : CS F} (wf : Wf cs) {x : Row F} (hx : RowOk cs x) :
    ∃ out cs', Circ.inputize x cs = some (out, cs') ∧ RowOk cs' out ∧
      rowVal (stored cs') out = rowVal (stored cs) x ∧ cs'.x = cs.x ++ [rowVal (stored cs) x] ∧
      cs'.cons = cs.cons := by
  obtain ⟨o, c, e, ok, v, -⟩ := Circ.inst_run wf (rowVal (stored cs) x)
  refine ⟨o, c, ?_, ok, v, ?_, ?_⟩
  · unfold Circ.inputize; rw [Circ.bind_eq (Circ.value_eq hx)]; exact e
  · simp only [Circ.inst, Option.some.injEq, Prod.mk.injEq] at e; rw [← e.2]
  · simp only [Circ.inst, Option.some.injEq, Prod.mk.injEq] at e; rw [← e.2]

/-! ### C39 -/

/-- **C39, field gadgets.** Each gadget, run with the same rows but on any two systems of equal shape —
and, for allocations, with any two values — yields the same output rows/wires, the same matrices and
the same wire counts. -/
theorem C39_field_gadgets (x y : Row F) (s t : Wire) (bs : List Wire) (u v c : F) (b b' : Nat) :
    Uniform (Circ.inst u) (Circ.inst v) ∧ Uniform (Circ.wit u) (Circ.wit v) ∧
    Uniform (Circ.binInst b : Circ F Wire) (Circ.binInst b') ∧
    Uniform (Circ.binWit b : Circ F Wire) (Circ.binWit b') ∧
    Uniform (Circ.inputize x) (Circ.inputize x) ∧ Uniform (Circ.mul x y) (Circ.mul x y) ∧
    Uniform (Circ.add x y) (Circ.add x y) ∧ Uniform (Circ.enforceEq x y) (Circ.enforceEq x y) ∧
    Uniform (Circ.enforceEqConstant x c) (Circ.enforceEqConstant x c) ∧
    Uniform (Circ.enforceEqBits x bs) (Circ.enforceEqBits x bs) ∧
    Uniform (Circ.conditionalEnforceEqual x y s) (Circ.conditionalEnforceEqual x y s) ∧
    Uniform (Circ.conditionalSelect x y s) (Circ.conditionalSelect x y s) ∧
    Uniform (Circ.not s : Circ F Wire) (Circ.not s) ∧ Uniform (Circ.and s t : Circ F Wire) (Circ.and s t) ∧
    Uniform (Circ.isNeq x y) (Circ.isNeq x y) ∧ Uniform (Circ.isEq x y) (Circ.isEq x y) :=
  ⟨.inst u v, .wit u v, .binInst b b', .binWit b b', .inputize x, .mul x y, .add x y, .enforceEq x y,
    .enforceEqConstant x c, .enforceEqBits x bs, .conditionalEnforceEqual x y s, .conditionalSelect x y s,
    .not s, .and s t, .isNeq x y, .isEq x y⟩

/-- **C39, bit gadgets.** -/
theorem C39_bit_gadgets {p : Nat} [Fact p.Prime] (bs : List Wire) (c : ZMod p) (x : Row (ZMod p)) (nb n : Nat) :
    Uniform (Circ.rangeCheck bs c) (Circ.rangeCheck bs c) ∧
    Uniform (Circ.rangeCheckBits bs n : Circ (ZMod p) Unit) (Circ.rangeCheckBits bs n) ∧
    Uniform (Circ.toBits nb x n) (Circ.toBits nb x n) :=
  ⟨.rangeCheck bs c, .rangeCheck bs _, .toBits nb x n⟩

/-- **C39, sequences.** Sequencing preserves it, so it holds of every circuit made of these gadgets. -/
theorem C39_sequence {α β : Type} {g h : Circ F α} {f k : α → Circ F β} (hg : Uniform g h)
    (hf : ∀ a, Uniform (f a) (k a)) : Uniform (g >>= f) (h >>= k) := hg.bind hf

example : SameShape demo (demo.withValues (fun _ => 7)) ∧ (Circ.isEq demoRow demoRow demo).isSome :=
  ⟨Circ.sameShape_withValues _ _, by decide⟩

end Kogarashi.Props
