import Verif.Limbs.Word

/-!
# The 384-bit limb back end

Models `zkstd/src/arithmetic/limbs/bits_384/normal.rs` (`add`, `sub`, `double`, `mul`, `square`,
`neg`, `mont`) statement by statement. The back end in `assembly.rs` is behind a feature that no
manifest declares and is not modelled.
-/

namespace Kogarashi.Limbs

/-- `[u64; 6]`, least significant limb first. -/
structure L6 where
  l0 : Nat
  l1 : Nat
  l2 : Nat
  l3 : Nat
  l4 : Nat
  l5 : Nat
deriving DecidableEq, Repr

/-- The integer denoted by a limb array. -/
def L6.val (a : L6) : Nat := a.l0 + a.l1 * 2^64 + a.l2 * 2^128 + a.l3 * 2^192 + a.l4 * 2^256 + a.l5 * 2^320

/-- Every limb is a `u64`. -/
def L6.Wf (a : L6) : Prop := a.l0 < 2^64 ∧ a.l1 < 2^64 ∧ a.l2 < 2^64 ∧ a.l3 < 2^64 ∧ a.l4 < 2^64 ∧ a.l5 < 2^64

instance L6.decWf (a : L6) : Decidable a.Wf := by unfold L6.Wf; infer_instance

/-- `[u64; 12]`, least significant limb first. -/
structure L12 where
  l0 : Nat
  l1 : Nat
  l2 : Nat
  l3 : Nat
  l4 : Nat
  l5 : Nat
  l6 : Nat
  l7 : Nat
  l8 : Nat
  l9 : Nat
  l10 : Nat
  l11 : Nat
deriving DecidableEq, Repr

/-- The integer denoted by a limb array. -/
def L12.val (a : L12) : Nat := a.l0 + a.l1 * 2^64 + a.l2 * 2^128 + a.l3 * 2^192 + a.l4 * 2^256 + a.l5 * 2^320 + a.l6 * 2^384 + a.l7 * 2^448 + a.l8 * 2^512 + a.l9 * 2^576 + a.l10 * 2^640 + a.l11 * 2^704

/-- Every limb is a `u64`. -/
def L12.Wf (a : L12) : Prop := a.l0 < 2^64 ∧ a.l1 < 2^64 ∧ a.l2 < 2^64 ∧ a.l3 < 2^64 ∧ a.l4 < 2^64 ∧ a.l5 < 2^64 ∧ a.l6 < 2^64 ∧ a.l7 < 2^64 ∧ a.l8 < 2^64 ∧ a.l9 < 2^64 ∧ a.l10 < 2^64 ∧ a.l11 < 2^64

instance L12.decWf (a : L12) : Decidable a.Wf := by unfold L12.Wf; infer_instance

namespace B384

/-- Models `zkstd/src/arithmetic/limbs/bits_384/normal.rs` lines 46-73 (`sub`).
Limb-wise subtraction with borrows, then a masked add-back of `p`.
One Lean `let` per Rust `let`; shadowed names get a numeric suffix. -/
def sub (a b p : L6) : L6 :=
  let s_0 := wsub128 a.l0 (b.l0)
  let l0_0 := lo s_0
  let brw_0 := hi s_0
  let s_1 := wsub128 a.l1 (b.l1 + brw_0 / 2^63)
  let l1_0 := lo s_1
  let brw_1 := hi s_1
  let s_2 := wsub128 a.l2 (b.l2 + brw_1 / 2^63)
  let l2_0 := lo s_2
  let brw_2 := hi s_2
  let s_3 := wsub128 a.l3 (b.l3 + brw_2 / 2^63)
  let l3_0 := lo s_3
  let brw_3 := hi s_3
  let s_4 := wsub128 a.l4 (b.l4 + brw_3 / 2^63)
  let l4_0 := lo s_4
  let brw_4 := hi s_4
  let s_5 := wsub128 a.l5 (b.l5 + brw_4 / 2^63)
  let l5_0 := lo s_5
  let brw_5 := hi s_5
  let s_6 := l0_0 + (p.l0 &&& brw_5)
  let l0_1 := lo s_6
  let c_0 := hi s_6
  let s_7 := l1_0 + (p.l1 &&& brw_5) + c_0
  let l1_1 := lo s_7
  let c_1 := hi s_7
  let s_8 := l2_0 + (p.l2 &&& brw_5) + c_1
  let l2_1 := lo s_8
  let c_2 := hi s_8
  let s_9 := l3_0 + (p.l3 &&& brw_5) + c_2
  let l3_1 := lo s_9
  let c_3 := hi s_9
  let s_10 := l4_0 + (p.l4 &&& brw_5) + c_3
  let l4_1 := lo s_10
  let c_4 := hi s_10
  let l5_1 := wadd (wadd l5_0 (p.l5 &&& brw_5)) c_4
  ⟨l0_1, l1_1, l2_1, l3_1, l4_1, l5_1⟩

/-- Models `zkstd/src/arithmetic/limbs/bits_384/normal.rs` lines 4-43 (`add`).
Limb-wise addition with carries, then a branch-free conditional subtraction of `p`.
One Lean `let` per Rust `let`; shadowed names get a numeric suffix. -/
def add (a b p : L6) : L6 :=
  let s_0 := a.l0 + b.l0
  let l0_0 := lo s_0
  let c_0 := hi s_0
  let s_1 := a.l1 + b.l1 + c_0
  let l1_0 := lo s_1
  let c_1 := hi s_1
  let s_2 := a.l2 + b.l2 + c_1
  let l2_0 := lo s_2
  let c_2 := hi s_2
  let s_3 := a.l3 + b.l3 + c_2
  let l3_0 := lo s_3
  let c_3 := hi s_3
  let s_4 := a.l4 + b.l4 + c_3
  let l4_0 := lo s_4
  let c_4 := hi s_4
  let l5_0 := wadd (wadd a.l5 b.l5) c_4
  let s_5 := wsub128 l0_0 (p.l0)
  let l0_1 := lo s_5
  let brw_0 := hi s_5
  let s_6 := wsub128 l1_0 (p.l1 + brw_0 / 2^63)
  let l1_1 := lo s_6
  let brw_1 := hi s_6
  let s_7 := wsub128 l2_0 (p.l2 + brw_1 / 2^63)
  let l2_1 := lo s_7
  let brw_2 := hi s_7
  let s_8 := wsub128 l3_0 (p.l3 + brw_2 / 2^63)
  let l3_1 := lo s_8
  let brw_3 := hi s_8
  let s_9 := wsub128 l4_0 (p.l4 + brw_3 / 2^63)
  let l4_1 := lo s_9
  let brw_4 := hi s_9
  let s_10 := wsub128 l5_0 (p.l5 + brw_4 / 2^63)
  let l5_1 := lo s_10
  let brw_5 := hi s_10
  let s_11 := l0_1 + (p.l0 &&& brw_5)
  let l0_2 := lo s_11
  let c_5 := hi s_11
  let s_12 := l1_1 + (p.l1 &&& brw_5) + c_5
  let l1_2 := lo s_12
  let c_6 := hi s_12
  let s_13 := l2_1 + (p.l2 &&& brw_5) + c_6
  let l2_2 := lo s_13
  let c_7 := hi s_13
  let s_14 := l3_1 + (p.l3 &&& brw_5) + c_7
  let l3_2 := lo s_14
  let c_8 := hi s_14
  let s_15 := l4_1 + (p.l4 &&& brw_5) + c_8
  let l4_2 := lo s_15
  let c_9 := hi s_15
  let l5_2 := wadd (wadd l5_1 (p.l5 &&& brw_5)) c_9
  ⟨l0_2, l1_2, l2_2, l3_2, l4_2, l5_2⟩

/-- Models `zkstd/src/arithmetic/limbs/bits_384/normal.rs` lines 76-110 (`double`).
Shift left by one bit, then a branch-free conditional subtraction of `p`.
One Lean `let` per Rust `let`; shadowed names get a numeric suffix. -/
def double (a p : L6) : L6 :=
  let l0_0 := shl1 a.l0
  let l1_0 := shl1 a.l1 ||| a.l0 / 2^63
  let l2_0 := shl1 a.l2 ||| a.l1 / 2^63
  let l3_0 := shl1 a.l3 ||| a.l2 / 2^63
  let l4_0 := shl1 a.l4 ||| a.l3 / 2^63
  let l5_0 := shl1 a.l5 ||| a.l4 / 2^63
  let s_0 := wsub128 l0_0 (p.l0)
  let l0_1 := lo s_0
  let brw_0 := hi s_0
  let s_1 := wsub128 l1_0 (p.l1 + brw_0 / 2^63)
  let l1_1 := lo s_1
  let brw_1 := hi s_1
  let s_2 := wsub128 l2_0 (p.l2 + brw_1 / 2^63)
  let l2_1 := lo s_2
  let brw_2 := hi s_2
  let s_3 := wsub128 l3_0 (p.l3 + brw_2 / 2^63)
  let l3_1 := lo s_3
  let brw_3 := hi s_3
  let s_4 := wsub128 l4_0 (p.l4 + brw_3 / 2^63)
  let l4_1 := lo s_4
  let brw_4 := hi s_4
  let s_5 := wsub128 l5_0 (p.l5 + brw_4 / 2^63)
  let l5_1 := lo s_5
  let brw_5 := hi s_5
  let s_6 := l0_1 + (p.l0 &&& brw_5)
  let l0_2 := lo s_6
  let c_0 := hi s_6
  let s_7 := l1_1 + (p.l1 &&& brw_5) + c_0
  let l1_2 := lo s_7
  let c_1 := hi s_7
  let s_8 := l2_1 + (p.l2 &&& brw_5) + c_1
  let l2_2 := lo s_8
  let c_2 := hi s_8
  let s_9 := l3_1 + (p.l3 &&& brw_5) + c_2
  let l3_2 := lo s_9
  let c_3 := hi s_9
  let s_10 := l4_1 + (p.l4 &&& brw_5) + c_3
  let l4_2 := lo s_10
  let c_4 := hi s_10
  let l5_2 := wadd (wadd l5_1 (p.l5 &&& brw_5)) c_4
  ⟨l0_2, l1_2, l2_2, l3_2, l4_2, l5_2⟩

/-- Models `zkstd/src/arithmetic/limbs/bits_384/normal.rs` lines 276-294 (`neg`).
Zero is returned unchanged, otherwise `p - a`.
One Lean `let` per Rust `let`; shadowed names get a numeric suffix. -/
def neg (a p : L6) : L6 :=
  if (a.l0 ||| a.l1 ||| a.l2 ||| a.l3 ||| a.l4 ||| a.l5) = 0 then a else
    let s_0 := wsub128 p.l0 (a.l0)
    let l0_0 := lo s_0
    let b_0 := hi s_0
    let s_1 := wsub128 p.l1 (a.l1 + b_0 / 2^63)
    let l1_0 := lo s_1
    let b_1 := hi s_1
    let s_2 := wsub128 p.l2 (a.l2 + b_1 / 2^63)
    let l2_0 := lo s_2
    let b_2 := hi s_2
    let s_3 := wsub128 p.l3 (a.l3 + b_2 / 2^63)
    let l3_0 := lo s_3
    let b_3 := hi s_3
    let s_4 := wsub128 p.l4 (a.l4 + b_3 / 2^63)
    let l4_0 := lo s_4
    let b_4 := hi s_4
    let l5_0 := wsub (wsub p.l5 a.l5) (b_4 / 2^63)
    ⟨l0_0, l1_0, l2_0, l3_0, l4_0, l5_0⟩

/-- Models `zkstd/src/arithmetic/limbs/bits_384/normal.rs` lines 297-394 (`mont`).
Montgomery reduction of a double-width integer.
One Lean `let` per Rust `let`; shadowed names get a numeric suffix. -/
def mont (a : L12) (p : L6) (inv : Nat) : L6 :=
  let rhs_0 := wmul a.l0 inv
  let s_0 := rhs_0 * p.l0 + a.l0
  let d_0 := hi s_0
  let s_1 := a.l1 + rhs_0 * p.l1 + d_0
  let l1_0 := lo s_1
  let d_1 := hi s_1
  let s_2 := a.l2 + rhs_0 * p.l2 + d_1
  let l2_0 := lo s_2
  let d_2 := hi s_2
  let s_3 := a.l3 + rhs_0 * p.l3 + d_2
  let l3_0 := lo s_3
  let d_3 := hi s_3
  let s_4 := a.l4 + rhs_0 * p.l4 + d_3
  let l4_0 := lo s_4
  let d_4 := hi s_4
  let s_5 := a.l5 + rhs_0 * p.l5 + d_4
  let l5_0 := lo s_5
  let d_5 := hi s_5
  let s_6 := a.l6 + d_5
  let l6_0 := lo s_6
  let e_0 := hi s_6
  let rhs_1 := wmul l1_0 inv
  let s_7 := rhs_1 * p.l0 + l1_0
  let d_6 := hi s_7
  let s_8 := l2_0 + rhs_1 * p.l1 + d_6
  let l2_1 := lo s_8
  let d_7 := hi s_8
  let s_9 := l3_0 + rhs_1 * p.l2 + d_7
  let l3_1 := lo s_9
  let d_8 := hi s_9
  let s_10 := l4_0 + rhs_1 * p.l3 + d_8
  let l4_1 := lo s_10
  let d_9 := hi s_10
  let s_11 := l5_0 + rhs_1 * p.l4 + d_9
  let l5_1 := lo s_11
  let d_10 := hi s_11
  let s_12 := l6_0 + rhs_1 * p.l5 + d_10
  let l6_1 := lo s_12
  let d_11 := hi s_12
  let s_13 := a.l7 + e_0 + d_11
  let l7_0 := lo s_13
  let e_1 := hi s_13
  let rhs_2 := wmul l2_1 inv
  let s_14 := rhs_2 * p.l0 + l2_1
  let d_12 := hi s_14
  let s_15 := l3_1 + rhs_2 * p.l1 + d_12
  let l3_2 := lo s_15
  let d_13 := hi s_15
  let s_16 := l4_1 + rhs_2 * p.l2 + d_13
  let l4_2 := lo s_16
  let d_14 := hi s_16
  let s_17 := l5_1 + rhs_2 * p.l3 + d_14
  let l5_2 := lo s_17
  let d_15 := hi s_17
  let s_18 := l6_1 + rhs_2 * p.l4 + d_15
  let l6_2 := lo s_18
  let d_16 := hi s_18
  let s_19 := l7_0 + rhs_2 * p.l5 + d_16
  let l7_1 := lo s_19
  let d_17 := hi s_19
  let s_20 := a.l8 + e_1 + d_17
  let l8_0 := lo s_20
  let e_2 := hi s_20
  let rhs_3 := wmul l3_2 inv
  let s_21 := rhs_3 * p.l0 + l3_2
  let d_18 := hi s_21
  let s_22 := l4_2 + rhs_3 * p.l1 + d_18
  let l4_3 := lo s_22
  let d_19 := hi s_22
  let s_23 := l5_2 + rhs_3 * p.l2 + d_19
  let l5_3 := lo s_23
  let d_20 := hi s_23
  let s_24 := l6_2 + rhs_3 * p.l3 + d_20
  let l6_3 := lo s_24
  let d_21 := hi s_24
  let s_25 := l7_1 + rhs_3 * p.l4 + d_21
  let l7_2 := lo s_25
  let d_22 := hi s_25
  let s_26 := l8_0 + rhs_3 * p.l5 + d_22
  let l8_1 := lo s_26
  let d_23 := hi s_26
  let s_27 := a.l9 + e_2 + d_23
  let l9_0 := lo s_27
  let e_3 := hi s_27
  let rhs_4 := wmul l4_3 inv
  let s_28 := rhs_4 * p.l0 + l4_3
  let d_24 := hi s_28
  let s_29 := l5_3 + rhs_4 * p.l1 + d_24
  let l5_4 := lo s_29
  let d_25 := hi s_29
  let s_30 := l6_3 + rhs_4 * p.l2 + d_25
  let l6_4 := lo s_30
  let d_26 := hi s_30
  let s_31 := l7_2 + rhs_4 * p.l3 + d_26
  let l7_3 := lo s_31
  let d_27 := hi s_31
  let s_32 := l8_1 + rhs_4 * p.l4 + d_27
  let l8_2 := lo s_32
  let d_28 := hi s_32
  let s_33 := l9_0 + rhs_4 * p.l5 + d_28
  let l9_1 := lo s_33
  let d_29 := hi s_33
  let s_34 := a.l10 + e_3 + d_29
  let l10_0 := lo s_34
  let e_4 := hi s_34
  let rhs_5 := wmul l5_4 inv
  let s_35 := rhs_5 * p.l0 + l5_4
  let d_30 := hi s_35
  let s_36 := l6_4 + rhs_5 * p.l1 + d_30
  let l6_5 := lo s_36
  let d_31 := hi s_36
  let s_37 := l7_3 + rhs_5 * p.l2 + d_31
  let l7_4 := lo s_37
  let d_32 := hi s_37
  let s_38 := l8_2 + rhs_5 * p.l3 + d_32
  let l8_3 := lo s_38
  let d_33 := hi s_38
  let s_39 := l9_1 + rhs_5 * p.l4 + d_33
  let l9_2 := lo s_39
  let d_34 := hi s_39
  let s_40 := l10_0 + rhs_5 * p.l5 + d_34
  let l10_1 := lo s_40
  let d_35 := hi s_40
  let l11_0 := wadd (wadd a.l11 e_4) d_35
  sub ⟨l6_5, l7_4, l8_3, l9_2, l10_1, l11_0⟩ p p

/-- Models `zkstd/src/arithmetic/limbs/bits_384/normal.rs` lines 113-193 (`mul`).
Schoolbook product followed by `mont`.
One Lean `let` per Rust `let`; shadowed names get a numeric suffix. -/
def mul (a b p : L6) (inv : Nat) : L6 :=
  let s_0 := a.l0 * b.l0
  let l0_0 := lo s_0
  let c_0 := hi s_0
  let s_1 := a.l0 * b.l1 + c_0
  let l1_0 := lo s_1
  let c_1 := hi s_1
  let s_2 := a.l0 * b.l2 + c_1
  let l2_0 := lo s_2
  let c_2 := hi s_2
  let s_3 := a.l0 * b.l3 + c_2
  let l3_0 := lo s_3
  let c_3 := hi s_3
  let s_4 := a.l0 * b.l4 + c_3
  let l4_0 := lo s_4
  let c_4 := hi s_4
  let s_5 := a.l0 * b.l5 + c_4
  let l5_0 := lo s_5
  let l6_0 := hi s_5
  let s_6 := a.l1 * b.l0 + l1_0
  let l1_1 := lo s_6
  let c_5 := hi s_6
  let s_7 := l2_0 + a.l1 * b.l1 + c_5
  let l2_1 := lo s_7
  let c_6 := hi s_7
  let s_8 := l3_0 + a.l1 * b.l2 + c_6
  let l3_1 := lo s_8
  let c_7 := hi s_8
  let s_9 := l4_0 + a.l1 * b.l3 + c_7
  let l4_1 := lo s_9
  let c_8 := hi s_9
  let s_10 := l5_0 + a.l1 * b.l4 + c_8
  let l5_1 := lo s_10
  let c_9 := hi s_10
  let s_11 := l6_0 + a.l1 * b.l5 + c_9
  let l6_1 := lo s_11
  let l7_0 := hi s_11
  let s_12 := a.l2 * b.l0 + l2_1
  let l2_2 := lo s_12
  let c_10 := hi s_12
  let s_13 := l3_1 + a.l2 * b.l1 + c_10
  let l3_2 := lo s_13
  let c_11 := hi s_13
  let s_14 := l4_1 + a.l2 * b.l2 + c_11
  let l4_2 := lo s_14
  let c_12 := hi s_14
  let s_15 := l5_1 + a.l2 * b.l3 + c_12
  let l5_2 := lo s_15
  let c_13 := hi s_15
  let s_16 := l6_1 + a.l2 * b.l4 + c_13
  let l6_2 := lo s_16
  let c_14 := hi s_16
  let s_17 := l7_0 + a.l2 * b.l5 + c_14
  let l7_1 := lo s_17
  let l8_0 := hi s_17
  let s_18 := a.l3 * b.l0 + l3_2
  let l3_3 := lo s_18
  let c_15 := hi s_18
  let s_19 := l4_2 + a.l3 * b.l1 + c_15
  let l4_3 := lo s_19
  let c_16 := hi s_19
  let s_20 := l5_2 + a.l3 * b.l2 + c_16
  let l5_3 := lo s_20
  let c_17 := hi s_20
  let s_21 := l6_2 + a.l3 * b.l3 + c_17
  let l6_3 := lo s_21
  let c_18 := hi s_21
  let s_22 := l7_1 + a.l3 * b.l4 + c_18
  let l7_2 := lo s_22
  let c_19 := hi s_22
  let s_23 := l8_0 + a.l3 * b.l5 + c_19
  let l8_1 := lo s_23
  let l9_0 := hi s_23
  let s_24 := a.l4 * b.l0 + l4_3
  let l4_4 := lo s_24
  let c_20 := hi s_24
  let s_25 := l5_3 + a.l4 * b.l1 + c_20
  let l5_4 := lo s_25
  let c_21 := hi s_25
  let s_26 := l6_3 + a.l4 * b.l2 + c_21
  let l6_4 := lo s_26
  let c_22 := hi s_26
  let s_27 := l7_2 + a.l4 * b.l3 + c_22
  let l7_3 := lo s_27
  let c_23 := hi s_27
  let s_28 := l8_1 + a.l4 * b.l4 + c_23
  let l8_2 := lo s_28
  let c_24 := hi s_28
  let s_29 := l9_0 + a.l4 * b.l5 + c_24
  let l9_1 := lo s_29
  let l10_0 := hi s_29
  let s_30 := a.l5 * b.l0 + l5_4
  let l5_5 := lo s_30
  let c_25 := hi s_30
  let s_31 := l6_4 + a.l5 * b.l1 + c_25
  let l6_5 := lo s_31
  let c_26 := hi s_31
  let s_32 := l7_3 + a.l5 * b.l2 + c_26
  let l7_4 := lo s_32
  let c_27 := hi s_32
  let s_33 := l8_2 + a.l5 * b.l3 + c_27
  let l8_3 := lo s_33
  let c_28 := hi s_33
  let s_34 := l9_1 + a.l5 * b.l4 + c_28
  let l9_2 := lo s_34
  let c_29 := hi s_34
  let s_35 := l10_0 + a.l5 * b.l5 + c_29
  let l10_1 := lo s_35
  let l11_0 := hi s_35
  mont ⟨l0_0, l1_1, l2_2, l3_3, l4_4, l5_5, l6_5, l7_4, l8_3, l9_2, l10_1, l11_0⟩ p inv

/-- Models `zkstd/src/arithmetic/limbs/bits_384/normal.rs` lines 196-273 (`square`).
Off-diagonal products, doubled by a shift, plus the diagonal squares, then `mont`.
One Lean `let` per Rust `let`; shadowed names get a numeric suffix. -/
def square (a p : L6) (inv : Nat) : L6 :=
  let s_0 := a.l1 * a.l0
  let l1_0 := lo s_0
  let c_0 := hi s_0
  let s_1 := a.l2 * a.l0 + c_0
  let l2_0 := lo s_1
  let c_1 := hi s_1
  let s_2 := a.l3 * a.l0 + c_1
  let l3_0 := lo s_2
  let c_2 := hi s_2
  let s_3 := a.l4 * a.l0 + c_2
  let l4_0 := lo s_3
  let c_3 := hi s_3
  let s_4 := a.l5 * a.l0 + c_3
  let l5_0 := lo s_4
  let c_4 := hi s_4
  let s_5 := a.l1 * a.l5 + c_4
  let l6_0 := lo s_5
  let c_5 := hi s_5
  let s_6 := a.l2 * a.l5 + c_5
  let l7_0 := lo s_6
  let c_6 := hi s_6
  let s_7 := a.l3 * a.l5 + c_6
  let l8_0 := lo s_7
  let c_7 := hi s_7
  let s_8 := a.l4 * a.l5 + c_7
  let l9_0 := lo s_8
  let l10_0 := hi s_8
  let s_9 := a.l1 * a.l2 + l3_0
  let l3_1 := lo s_9
  let c_8 := hi s_9
  let s_10 := l4_0 + a.l1 * a.l3 + c_8
  let l4_1 := lo s_10
  let c_9 := hi s_10
  let s_11 := l5_0 + a.l1 * a.l4 + c_9
  let l5_1 := lo s_11
  let c_10 := hi s_11
  let s_12 := l6_0 + a.l2 * a.l4 + c_10
  let l6_1 := lo s_12
  let c_11 := hi s_12
  let s_13 := l7_0 + a.l3 * a.l4 + c_11
  let l7_1 := lo s_13
  let c_12 := hi s_13
  let s_14 := l8_0 + c_12
  let l8_1 := lo s_14
  let c_13 := hi s_14
  let l9_1 := wadd l9_0 c_13
  let s_15 := a.l2 * a.l3 + l5_1
  let l5_2 := lo s_15
  let c_14 := hi s_15
  let s_16 := l6_1 + c_14
  let l6_2 := lo s_16
  let c_15 := hi s_16
  let l7_2 := wadd l7_1 c_15
  let l11_0 := l10_0 / 2^63
  let l10_1 := shl1 l10_0 ||| l9_1 / 2^63
  let l9_2 := shl1 l9_1 ||| l8_1 / 2^63
  let l8_2 := shl1 l8_1 ||| l7_2 / 2^63
  let l7_3 := shl1 l7_2 ||| l6_2 / 2^63
  let l6_3 := shl1 l6_2 ||| l5_2 / 2^63
  let l5_3 := shl1 l5_2 ||| l4_1 / 2^63
  let l4_2 := shl1 l4_1 ||| l3_1 / 2^63
  let l3_2 := shl1 l3_1 ||| l2_0 / 2^63
  let l2_1 := shl1 l2_0 ||| l1_0 / 2^63
  let l1_1 := shl1 l1_0
  let s_17 := a.l0 * a.l0
  let l0_0 := lo s_17
  let c_16 := hi s_17
  let s_18 := l1_1 + c_16
  let l1_2 := lo s_18
  let c_17 := hi s_18
  let s_19 := l2_1 + a.l1 * a.l1 + c_17
  let l2_2 := lo s_19
  let c_18 := hi s_19
  let s_20 := l3_2 + c_18
  let l3_3 := lo s_20
  let c_19 := hi s_20
  let s_21 := l4_2 + a.l2 * a.l2 + c_19
  let l4_3 := lo s_21
  let c_20 := hi s_21
  let s_22 := l5_3 + c_20
  let l5_4 := lo s_22
  let c_21 := hi s_22
  let s_23 := l6_3 + a.l3 * a.l3 + c_21
  let l6_4 := lo s_23
  let c_22 := hi s_23
  let s_24 := l7_3 + c_22
  let l7_4 := lo s_24
  let c_23 := hi s_24
  let s_25 := l8_2 + a.l4 * a.l4 + c_23
  let l8_3 := lo s_25
  let c_24 := hi s_25
  let s_26 := l9_2 + c_24
  let l9_3 := lo s_26
  let c_25 := hi s_26
  let s_27 := l10_1 + a.l5 * a.l5 + c_25
  let l10_2 := lo s_27
  let c_26 := hi s_27
  let l11_1 := wadd l11_0 c_26
  mont ⟨l0_0, l1_2, l2_2, l3_3, l4_3, l5_4, l6_4, l7_4, l8_3, l9_3, l10_2, l11_1⟩ p inv

end B384
end Kogarashi.Limbs
