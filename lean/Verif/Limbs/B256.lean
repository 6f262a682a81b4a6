import Verif.Limbs.Word

/-!
# The 256-bit limb back end

Models `zkstd/src/arithmetic/limbs/bits_256/normal.rs` (`add`, `sub`, `double`, `mul`, `square`,
`neg`, `mont`) statement by statement. The back end in `assembly.rs`, behind a feature that no
manifest declares, is modelled in `Verif.Limbs.Asm`.
-/

namespace Kogarashi.Limbs

/-- `[u64; 4]`, least significant limb first. -/
structure L4 where
  l0 : Nat
  l1 : Nat
  l2 : Nat
  l3 : Nat
deriving DecidableEq, Repr

/-- The integer denoted by a limb array. -/
def L4.val (a : L4) : Nat := a.l0 + a.l1 * 2^64 + a.l2 * 2^128 + a.l3 * 2^192

/-- Every limb is a `u64`. -/
def L4.Wf (a : L4) : Prop := a.l0 < 2^64 ∧ a.l1 < 2^64 ∧ a.l2 < 2^64 ∧ a.l3 < 2^64

instance L4.decWf (a : L4) : Decidable a.Wf := by unfold L4.Wf; infer_instance

/-- `[u64; 8]`, least significant limb first. -/
structure L8 where
  l0 : Nat
  l1 : Nat
  l2 : Nat
  l3 : Nat
  l4 : Nat
  l5 : Nat
  l6 : Nat
  l7 : Nat
deriving DecidableEq, Repr

/-- The integer denoted by a limb array. -/
def L8.val (a : L8) : Nat := a.l0 + a.l1 * 2^64 + a.l2 * 2^128 + a.l3 * 2^192 + a.l4 * 2^256 + a.l5 * 2^320 + a.l6 * 2^384 + a.l7 * 2^448

/-- Every limb is a `u64`. -/
def L8.Wf (a : L8) : Prop := a.l0 < 2^64 ∧ a.l1 < 2^64 ∧ a.l2 < 2^64 ∧ a.l3 < 2^64 ∧ a.l4 < 2^64 ∧ a.l5 < 2^64 ∧ a.l6 < 2^64 ∧ a.l7 < 2^64

instance L8.decWf (a : L8) : Decidable a.Wf := by unfold L8.Wf; infer_instance

namespace B256

/-- Models `zkstd/src/arithmetic/limbs/bits_256/normal.rs` lines 34-53 (`sub`).
Limb-wise subtraction with borrows, then a masked add-back of `p`.
One Lean `let` per Rust `let`; shadowed names get a numeric suffix. -/
def sub (a b p : L4) : L4 :=
  let s_0 := wsub128 a.l0 (b.l0)
  let l0_0 := lo s_0
  let brw_0 := hi s_0
  let s_1 := wsub128 a.l1 (b.l1 + brw_0 / 2^63)
  let l1_0 := lo s_1
  let brw_1 := hi s_1
  let s_2 := wsub128 a.l2 (b.l2 + brw_1 / 2^63)
  let l2_0 := lo s_2
  let brw_2 := hi s_2
  let s_3 := wsub128 a.l3 (b.l3 + brw_2 / 2^63)
  let l3_0 := lo s_3
  let brw_3 := hi s_3
  let s_4 := l0_0 + (p.l0 &&& brw_3)
  let l0_1 := lo s_4
  let c_0 := hi s_4
  let s_5 := l1_0 + (p.l1 &&& brw_3) + c_0
  let l1_1 := lo s_5
  let c_1 := hi s_5
  let s_6 := l2_0 + (p.l2 &&& brw_3) + c_1
  let l2_1 := lo s_6
  let c_2 := hi s_6
  let l3_1 := wadd (wadd l3_0 (p.l3 &&& brw_3)) c_2
  ⟨l0_1, l1_1, l2_1, l3_1⟩

/-- Models `zkstd/src/arithmetic/limbs/bits_256/normal.rs` lines 4-31 (`add`).
Limb-wise addition with carries, then a branch-free conditional subtraction of `p`.
One Lean `let` per Rust `let`; shadowed names get a numeric suffix. -/
def add (a b p : L4) : L4 :=
  let s_0 := a.l0 + b.l0
  let l0_0 := lo s_0
  let c_0 := hi s_0
  let s_1 := a.l1 + b.l1 + c_0
  let l1_0 := lo s_1
  let c_1 := hi s_1
  let s_2 := a.l2 + b.l2 + c_1
  let l2_0 := lo s_2
  let c_2 := hi s_2
  let l3_0 := wadd (wadd a.l3 b.l3) c_2
  let s_3 := wsub128 l0_0 (p.l0)
  let l0_1 := lo s_3
  let brw_0 := hi s_3
  let s_4 := wsub128 l1_0 (p.l1 + brw_0 / 2^63)
  let l1_1 := lo s_4
  let brw_1 := hi s_4
  let s_5 := wsub128 l2_0 (p.l2 + brw_1 / 2^63)
  let l2_1 := lo s_5
  let brw_2 := hi s_5
  let s_6 := wsub128 l3_0 (p.l3 + brw_2 / 2^63)
  let l3_1 := lo s_6
  let brw_3 := hi s_6
  let s_7 := l0_1 + (p.l0 &&& brw_3)
  let l0_2 := lo s_7
  let c_3 := hi s_7
  let s_8 := l1_1 + (p.l1 &&& brw_3) + c_3
  let l1_2 := lo s_8
  let c_4 := hi s_8
  let s_9 := l2_1 + (p.l2 &&& brw_3) + c_4
  let l2_2 := lo s_9
  let c_5 := hi s_9
  let l3_2 := wadd (wadd l3_1 (p.l3 &&& brw_3)) c_5
  ⟨l0_2, l1_2, l2_2, l3_2⟩

/-- Models `zkstd/src/arithmetic/limbs/bits_256/normal.rs` lines 56-80 (`double`).
Shift left by one bit, then a branch-free conditional subtraction of `p`.
One Lean `let` per Rust `let`; shadowed names get a numeric suffix. -/
def double (a p : L4) : L4 :=
  let l0_0 := shl1 a.l0
  let l1_0 := shl1 a.l1 ||| a.l0 / 2^63
  let l2_0 := shl1 a.l2 ||| a.l1 / 2^63
  let l3_0 := shl1 a.l3 ||| a.l2 / 2^63
  let s_0 := wsub128 l0_0 (p.l0)
  let l0_1 := lo s_0
  let brw_0 := hi s_0
  let s_1 := wsub128 l1_0 (p.l1 + brw_0 / 2^63)
  let l1_1 := lo s_1
  let brw_1 := hi s_1
  let s_2 := wsub128 l2_0 (p.l2 + brw_1 / 2^63)
  let l2_1 := lo s_2
  let brw_2 := hi s_2
  let s_3 := wsub128 l3_0 (p.l3 + brw_2 / 2^63)
  let l3_1 := lo s_3
  let brw_3 := hi s_3
  let s_4 := l0_1 + (p.l0 &&& brw_3)
  let l0_2 := lo s_4
  let c_0 := hi s_4
  let s_5 := l1_1 + (p.l1 &&& brw_3) + c_0
  let l1_2 := lo s_5
  let c_1 := hi s_5
  let s_6 := l2_1 + (p.l2 &&& brw_3) + c_1
  let l2_2 := lo s_6
  let c_2 := hi s_6
  let l3_2 := wadd (wadd l3_1 (p.l3 &&& brw_3)) c_2
  ⟨l0_2, l1_2, l2_2, l3_2⟩

/-- Models `zkstd/src/arithmetic/limbs/bits_256/normal.rs` lines 170-184 (`neg`).
Zero is returned unchanged, otherwise `p - a`.
One Lean `let` per Rust `let`; shadowed names get a numeric suffix. -/
def neg (a p : L4) : L4 :=
  if (a.l0 ||| a.l1 ||| a.l2 ||| a.l3) = 0 then a else
    let s_0 := wsub128 p.l0 (a.l0)
    let l0_0 := lo s_0
    let b_0 := hi s_0
    let s_1 := wsub128 p.l1 (a.l1 + b_0 / 2^63)
    let l1_0 := lo s_1
    let b_1 := hi s_1
    let s_2 := wsub128 p.l2 (a.l2 + b_1 / 2^63)
    let l2_0 := lo s_2
    let b_2 := hi s_2
    let l3_0 := wsub (wsub p.l3 a.l3) (b_2 / 2^63)
    ⟨l0_0, l1_0, l2_0, l3_0⟩

/-- Models `zkstd/src/arithmetic/limbs/bits_256/normal.rs` lines 187-253 (`mont`).
Montgomery reduction of a double-width integer.
One Lean `let` per Rust `let`; shadowed names get a numeric suffix. -/
def mont (a : L8) (p : L4) (inv : Nat) : L4 :=
  let rhs_0 := wmul a.l0 inv
  let s_0 := rhs_0 * p.l0 + a.l0
  let d_0 := hi s_0
  let s_1 := a.l1 + rhs_0 * p.l1 + d_0
  let l1_0 := lo s_1
  let d_1 := hi s_1
  let s_2 := a.l2 + rhs_0 * p.l2 + d_1
  let l2_0 := lo s_2
  let d_2 := hi s_2
  let s_3 := a.l3 + rhs_0 * p.l3 + d_2
  let l3_0 := lo s_3
  let d_3 := hi s_3
  let s_4 := a.l4 + d_3
  let l4_0 := lo s_4
  let e_0 := hi s_4
  let rhs_1 := wmul l1_0 inv
  let s_5 := rhs_1 * p.l0 + l1_0
  let d_4 := hi s_5
  let s_6 := l2_0 + rhs_1 * p.l1 + d_4
  let l2_1 := lo s_6
  let d_5 := hi s_6
  let s_7 := l3_0 + rhs_1 * p.l2 + d_5
  let l3_1 := lo s_7
  let d_6 := hi s_7
  let s_8 := l4_0 + rhs_1 * p.l3 + d_6
  let l4_1 := lo s_8
  let d_7 := hi s_8
  let s_9 := a.l5 + e_0 + d_7
  let l5_0 := lo s_9
  let e_1 := hi s_9
  let rhs_2 := wmul l2_1 inv
  let s_10 := rhs_2 * p.l0 + l2_1
  let d_8 := hi s_10
  let s_11 := l3_1 + rhs_2 * p.l1 + d_8
  let l3_2 := lo s_11
  let d_9 := hi s_11
  let s_12 := l4_1 + rhs_2 * p.l2 + d_9
  let l4_2 := lo s_12
  let d_10 := hi s_12
  let s_13 := l5_0 + rhs_2 * p.l3 + d_10
  let l5_1 := lo s_13
  let d_11 := hi s_13
  let s_14 := a.l6 + e_1 + d_11
  let l6_0 := lo s_14
  let e_2 := hi s_14
  let rhs_3 := wmul l3_2 inv
  let s_15 := rhs_3 * p.l0 + l3_2
  let d_12 := hi s_15
  let s_16 := l4_2 + rhs_3 * p.l1 + d_12
  let l4_3 := lo s_16
  let d_13 := hi s_16
  let s_17 := l5_1 + rhs_3 * p.l2 + d_13
  let l5_2 := lo s_17
  let d_14 := hi s_17
  let s_18 := l6_0 + rhs_3 * p.l3 + d_14
  let l6_1 := lo s_18
  let d_15 := hi s_18
  let l7_0 := wadd (wadd a.l7 e_2) d_15
  let s_19 := wsub128 l4_3 (p.l0)
  let l0_0 := lo s_19
  let brw_0 := hi s_19
  let s_20 := wsub128 l5_2 (p.l1 + brw_0 / 2^63)
  let l1_1 := lo s_20
  let brw_1 := hi s_20
  let s_21 := wsub128 l6_1 (p.l2 + brw_1 / 2^63)
  let l2_2 := lo s_21
  let brw_2 := hi s_21
  let s_22 := wsub128 l7_0 (p.l3 + brw_2 / 2^63)
  let l3_3 := lo s_22
  let brw_3 := hi s_22
  let s_23 := l0_0 + (p.l0 &&& brw_3)
  let l0_1 := lo s_23
  let c_0 := hi s_23
  let s_24 := l1_1 + (p.l1 &&& brw_3) + c_0
  let l1_2 := lo s_24
  let c_1 := hi s_24
  let s_25 := l2_2 + (p.l2 &&& brw_3) + c_1
  let l2_3 := lo s_25
  let c_2 := hi s_25
  let l3_4 := wadd (wadd l3_3 (p.l3 &&& brw_3)) c_2
  ⟨l0_1, l1_2, l2_3, l3_4⟩

/-- Models `zkstd/src/arithmetic/limbs/bits_256/normal.rs` lines 83-121 (`mul`).
Schoolbook product followed by `mont`.
One Lean `let` per Rust `let`; shadowed names get a numeric suffix. -/
def mul (a b p : L4) (inv : Nat) : L4 :=
  let s_0 := a.l0 * b.l0
  let l0_0 := lo s_0
  let c_0 := hi s_0
  let s_1 := a.l0 * b.l1 + c_0
  let l1_0 := lo s_1
  let c_1 := hi s_1
  let s_2 := a.l0 * b.l2 + c_1
  let l2_0 := lo s_2
  let c_2 := hi s_2
  let s_3 := a.l0 * b.l3 + c_2
  let l3_0 := lo s_3
  let l4_0 := hi s_3
  let s_4 := a.l1 * b.l0 + l1_0
  let l1_1 := lo s_4
  let c_3 := hi s_4
  let s_5 := l2_0 + a.l1 * b.l1 + c_3
  let l2_1 := lo s_5
  let c_4 := hi s_5
  let s_6 := l3_0 + a.l1 * b.l2 + c_4
  let l3_1 := lo s_6
  let c_5 := hi s_6
  let s_7 := l4_0 + a.l1 * b.l3 + c_5
  let l4_1 := lo s_7
  let l5_0 := hi s_7
  let s_8 := a.l2 * b.l0 + l2_1
  let l2_2 := lo s_8
  let c_6 := hi s_8
  let s_9 := l3_1 + a.l2 * b.l1 + c_6
  let l3_2 := lo s_9
  let c_7 := hi s_9
  let s_10 := l4_1 + a.l2 * b.l2 + c_7
  let l4_2 := lo s_10
  let c_8 := hi s_10
  let s_11 := l5_0 + a.l2 * b.l3 + c_8
  let l5_1 := lo s_11
  let l6_0 := hi s_11
  let s_12 := a.l3 * b.l0 + l3_2
  let l3_3 := lo s_12
  let c_9 := hi s_12
  let s_13 := l4_2 + a.l3 * b.l1 + c_9
  let l4_3 := lo s_13
  let c_10 := hi s_13
  let s_14 := l5_1 + a.l3 * b.l2 + c_10
  let l5_2 := lo s_14
  let c_11 := hi s_14
  let s_15 := l6_0 + a.l3 * b.l3 + c_11
  let l6_1 := lo s_15
  let l7_0 := hi s_15
  mont ⟨l0_0, l1_1, l2_2, l3_3, l4_3, l5_2, l6_1, l7_0⟩ p inv

/-- Models `zkstd/src/arithmetic/limbs/bits_256/normal.rs` lines 124-166 (`square`).
Off-diagonal products, doubled by a shift, plus the diagonal squares, then `mont`.
One Lean `let` per Rust `let`; shadowed names get a numeric suffix. -/
def square (a p : L4) (inv : Nat) : L4 :=
  let s_0 := a.l1 * a.l0
  let l1_0 := lo s_0
  let c_0 := hi s_0
  let s_1 := a.l2 * a.l0 + c_0
  let l2_0 := lo s_1
  let c_1 := hi s_1
  let s_2 := a.l3 * a.l0 + c_1
  let l3_0 := lo s_2
  let c_2 := hi s_2
  let s_3 := a.l1 * a.l3 + c_2
  let l4_0 := lo s_3
  let c_3 := hi s_3
  let s_4 := a.l2 * a.l3 + c_3
  let l5_0 := lo s_4
  let l6_0 := hi s_4
  let s_5 := a.l1 * a.l2 + l3_0
  let l3_1 := lo s_5
  let c_4 := hi s_5
  let s_6 := l4_0 + c_4
  let l4_1 := lo s_6
  let c_5 := hi s_6
  let l5_1 := wadd l5_0 c_5
  let l7_0 := l6_0 / 2^63
  let l6_1 := shl1 l6_0 ||| l5_1 / 2^63
  let l5_2 := shl1 l5_1 ||| l4_1 / 2^63
  let l4_2 := shl1 l4_1 ||| l3_1 / 2^63
  let l3_2 := shl1 l3_1 ||| l2_0 / 2^63
  let l2_1 := shl1 l2_0 ||| l1_0 / 2^63
  let l1_1 := shl1 l1_0
  let s_7 := a.l0 * a.l0
  let l0_0 := lo s_7
  let c_6 := hi s_7
  let s_8 := l1_1 + c_6
  let l1_2 := lo s_8
  let c_7 := hi s_8
  let s_9 := l2_1 + a.l1 * a.l1 + c_7
  let l2_2 := lo s_9
  let c_8 := hi s_9
  let s_10 := l3_2 + c_8
  let l3_3 := lo s_10
  let c_9 := hi s_10
  let s_11 := l4_2 + a.l2 * a.l2 + c_9
  let l4_3 := lo s_11
  let c_10 := hi s_11
  let s_12 := l5_2 + c_10
  let l5_3 := lo s_12
  let c_11 := hi s_12
  let s_13 := l6_1 + a.l3 * a.l3 + c_11
  let l6_2 := lo s_13
  let c_12 := hi s_13
  let l7_1 := wadd l7_0 c_12
  mont ⟨l0_0, l1_2, l2_2, l3_3, l4_3, l5_3, l6_2, l7_1⟩ p inv

end B256
end Kogarashi.Limbs
