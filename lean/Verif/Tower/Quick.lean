import Verif.Tower.CodeRun

/-!
# Evaluating the pairing on numbers

The kernel multiplies large numbers quickly and limb arrays slowly.  `quick` runs the pairing on the numbers that the limbs
spell; the simulations below carry its results over to the limbs.
-/

namespace Kogarashi.Tower

open Limbs Kogarashi.Field Spec Props Curve Curve.Limb

namespace Quick

/-- The inverse of `2^256` modulo the prime. -/
def rInv : Nat := 0x2e67157159e5c639cf63e9cfb74492d9eb2022850278edf8ed84884a014afa37

/-- The modulus. -/
def q : Nat := 0x30644e72e131a029b85045b68181585d97816a916871ca8d3c208c16d87cfd47

theorem q_eq : fqParams.m = q := by decide +kernel

/-- Evaluates the number before going on. -/
def force {α : Type} (n : Nat) (k : Nat → α) : α :=
  match n with
  | 0 => k 0
  | n + 1 => k (n + 1)

theorem force_eq {α : Type} (n : Nat) (k : Nat → α) : force n k = k n := by cases n <;> rfl

/-- Montgomery product. -/
def mulN (a b : Nat) : Nat := a * b * rInv % q

/-- Four limbs of a number. -/
def spell (n : Nat) : L4 := ⟨n % 2 ^ 64, n / 2 ^ 64 % 2 ^ 64, n / 2 ^ 128 % 2 ^ 64, n / 2 ^ 192 % 2 ^ 64⟩

/-- Power, by squaring. -/
def powN : Nat → Nat → Nat → Nat
  | 0, _, _ => 1
  | fuel + 1, a, e => force (a * a % q) fun a2 => force (powN fuel a2 (e / 2)) fun h => if e % 2 = 1 then a * h % q else h

/-- A candidate for the inverse, in Montgomery form. -/
def invN (n : Nat) : Nat := powN 256 n (q - 2) * (2 ^ 512 % q) % q

/-- Comparison with zero. -/
def isZeroN (n : Nat) : Bool := n == 0

/-- The pairing's operations on numbers. -/
def quick (sq inv : Nat → Option Nat) : Base (Option Nat) where
  zero := some 0
  one := some (2 ^ 256 % q)
  add a b := a.bind fun x => b.bind fun y => force ((x + y) % q) some
  sub a b := a.bind fun x => b.bind fun y => force ((x + q - y) % q) some
  neg a := a.bind fun x => force ((q - x) % q) some
  double a := a.bind fun x => force ((x + x) % q) some
  mul a b := a.bind fun x => b.bind fun y => force (mulN x y) some
  square a := a.bind sq
  invert a := (a.bind inv).map some
  isZero a := a.elim true isZeroN

theorem val_of {c : L4} {k : Nat} (hc : Canonical fqParams c) (h : denote fqParams c = (k : ZMod fqParams.m) * (montR : ZMod fqParams.m)⁻¹) :
    c.val = k % q := by
  unfold denote at h
  have hR := R_mul_inv fqParams_valid
  have h2 : (c.val : ZMod fqParams.m) = k := by
    have h3 := congrArg (· * (montR : ZMod fqParams.m)) h
    simp only [mul_assoc] at h3
    rw [mul_comm ((montR : ZMod fqParams.m)⁻¹), hR, mul_one, mul_one] at h3
    exact h3
  rw [ZMod.natCast_eq_natCast_iff'] at h2
  rw [q_eq] at h2
  rw [← h2, Nat.mod_eq_of_lt]
  have := hc.2
  rw [q_eq] at this
  exact this

theorem rInv_cast : (rInv : ZMod fqParams.m) = (montR : ZMod fqParams.m)⁻¹ := by
  have h1 : ((rInv * montR : Nat) : ZMod fqParams.m) = ((1 : Nat) : ZMod fqParams.m) := by
    rw [ZMod.natCast_eq_natCast_iff']
    decide +kernel
  rw [Nat.cast_mul, Nat.cast_one] at h1
  have hR := R_mul_inv fqParams_valid
  calc (rInv : ZMod fqParams.m) = rInv * ((montR : ZMod fqParams.m) * (montR : ZMod fqParams.m)⁻¹) := by rw [hR, mul_one]
    _ = _ := by rw [← mul_assoc, h1, one_mul]

theorem val_mul (a b : FqW) : (a * b).limbs.val = mulN a.limbs.val b.limbs.val := by
  have h := mul_denote fqParams_valid a.canonical b.canonical
  refine val_of h.1 (h.2.trans ?_)
  rw [Nat.cast_mul, Nat.cast_mul, rInv_cast]
  unfold denote
  ring
theorem val_add (a b : FqW) : (a + b).limbs.val = (a.limbs.val + b.limbs.val) % q := by
  have h := add_denote fqParams_valid a.canonical b.canonical
  refine val_of h.1 (h.2.trans ?_)
  rw [Nat.cast_add]
  unfold denote
  ring
theorem val_lt (a : FqW) : a.limbs.val < q := by
  have := a.canonical.2
  rw [q_eq] at this
  exact this
theorem val_sub (a b : FqW) : (a - b).limbs.val = (a.limbs.val + q - b.limbs.val) % q := by
  have h := sub_denote fqParams_valid a.canonical b.canonical
  refine val_of h.1 (h.2.trans ?_)
  have hb := val_lt b
  rw [Nat.cast_sub (by omega), Nat.cast_add, ← q_eq, ZMod.natCast_self fqParams.m]
  unfold denote
  ring
theorem val_neg (a : FqW) : (-a).limbs.val = (q - a.limbs.val) % q := by
  have h := neg_denote fqParams_valid a.canonical
  refine val_of h.1 (h.2.trans ?_)
  have hb := val_lt a
  rw [Nat.cast_sub (by omega), ← q_eq, ZMod.natCast_self fqParams.m]
  unfold denote
  ring

theorem spell_val {a : L4} (h : Canonical fqParams a) : spell a.val = a := by
  obtain ⟨⟨h0, h1, h2, h3⟩, -⟩ := h
  obtain ⟨a0, a1, a2, a3⟩ := a
  dsimp only at h0 h1 h2 h3
  unfold spell L4.val
  dsimp only
  congr 1 <;> omega

theorem val_inj {a b : FqW} (h : a.limbs.val = b.limbs.val) : a = b := by
  apply Words.ext
  rw [← spell_val a.canonical, ← spell_val b.canonical, h]

theorem val_one : (1 : FqW).limbs.val = 2 ^ 256 % q := by decide +kernel
theorem val_zero : (0 : FqW).limbs.val = 0 := by decide +kernel

theorem canon_spell {n : Nat} (h : n < q) : Canonical fqParams (spell n) ∧ (spell n).val = n := by
  have hv : (spell n).val = n := by
    unfold spell L4.val
    dsimp only
    have : q < 2 ^ 256 := by decide +kernel
    omega
  refine ⟨⟨?_, by rw [hv, q_eq]; exact h⟩, hv⟩
  unfold spell L4.Wf
  dsimp only
  refine ⟨?_, ?_, ?_, ?_⟩ <;> exact Nat.mod_lt _ (by norm_num)

attribute [local irreducible] q rInv mulN spell invN

/-- A number and the word it spells. -/
def OnW (e : Option Nat) (f : Option FqW) : Prop := ∀ n, e = some n → ∃ w, f = some w ∧ w.limbs.val = n
/-- A number and the word it spells. -/
def OnF (e : Option Nat) (w : FqW) : Prop := ∀ n, e = some n → w.limbs.val = n
/-- A number and the limbs it spells. -/
def OnL (e : Option Nat) (x : L4) : Prop := ∀ n, e = some n → Canonical fqParams x ∧ x.val = n

theorem limbs_mul {P : FieldParams} [ValidWords P] (a b : Words P) : (a * b).limbs = P.mul a.limbs b.limbs := rfl

theorem isZero_some {s i : Nat → Option Nat} {x : Nat} (h : (quick s i).isZero (some x) = false) : isZeroN x = false := by
  have e : (quick s i).isZero (some x) = (some x).elim true isZeroN := rfl
  rw [e, Option.elim_some] at h
  exact h

theorem ne_of_val {w : FqW} {x : Nat} (hw : w.limbs.val = x) (h : isZeroN x = false) : w ≠ 0 := by
  intro e
  have h0 : x ≠ 0 := by unfold isZeroN at h; simpa using h
  exact h0 (hw.symm.trans ((congrArg (fun u : FqW => u.limbs.val) e).trans val_zero))

theorem watchZero_false {w : FqW} (h : w ≠ 0) : watchZero w = false := by unfold watchZero; exact decide_eq_false h

theorem op2W {f : FqW → FqW → FqW} {g : Nat → Nat → Nat} (h : ∀ a b : FqW, (f a b).limbs.val = g a.limbs.val b.limbs.val)
    {a b : Option Nat} {c d : Option FqW} (ha : OnW a c) (hb : OnW b d) :
    OnW (a.bind fun x => b.bind fun y => force (g x y) some) (c.bind fun x => d.map fun y => f x y) := by
  intro n hn
  obtain ⟨x, hx, hn⟩ := Option.bind_eq_some_iff.mp hn
  obtain ⟨y, hy, hn⟩ := Option.bind_eq_some_iff.mp hn
  rw [force_eq] at hn
  obtain ⟨u, rfl, hu⟩ := ha x hx
  obtain ⟨v, rfl, hv⟩ := hb y hy
  exact ⟨f u v, rfl, by rw [h, hu, hv, Option.some_inj.mp hn]⟩

theorem op1W {f : FqW → FqW} {g : Nat → Nat} (h : ∀ a : FqW, (f a).limbs.val = g a.limbs.val) {a : Option Nat}
    {c : Option FqW} (ha : OnW a c) : OnW (a.bind fun x => force (g x) some) (c.map fun x => f x) := by
  intro n hn
  obtain ⟨x, hx, hn⟩ := Option.bind_eq_some_iff.mp hn
  rw [force_eq] at hn
  obtain ⟨u, rfl, hu⟩ := ha x hx
  exact ⟨f u, rfl, by rw [h, hu, Option.some_inj.mp hn]⟩

theorem op2F {f : FqW → FqW → FqW} {g : Nat → Nat → Nat} (h : ∀ a b : FqW, (f a b).limbs.val = g a.limbs.val b.limbs.val)
    {a b : Option Nat} {c d : FqW} (ha : OnF a c) (hb : OnF b d) :
    OnF (a.bind fun x => b.bind fun y => force (g x y) some) (f c d) := by
  intro n hn
  obtain ⟨x, hx, hn⟩ := Option.bind_eq_some_iff.mp hn
  obtain ⟨y, hy, hn⟩ := Option.bind_eq_some_iff.mp hn
  rw [force_eq] at hn
  rw [h, ha x hx, hb y hy, Option.some_inj.mp hn]

theorem op1F {f : FqW → FqW} {g : Nat → Nat} (h : ∀ a : FqW, (f a).limbs.val = g a.limbs.val) {a : Option Nat}
    {c : FqW} (ha : OnF a c) : OnF (a.bind fun x => force (g x) some) (f c) := by
  intro n hn
  obtain ⟨x, hx, hn⟩ := Option.bind_eq_some_iff.mp hn
  rw [force_eq] at hn
  rw [h, ha x hx, Option.some_inj.mp hn]

theorem op2L {f : L4 → L4 → L4} {f' : FqW → FqW → FqW} {g : Nat → Nat → Nat}
    (h : ∀ a b : FqW, (f' a b).limbs.val = g a.limbs.val b.limbs.val) (hf : ∀ a b : FqW, (f' a b).limbs = f a.limbs b.limbs)
    {a b : Option Nat} {c d : L4} (ha : OnL a c) (hb : OnL b d) :
    OnL (a.bind fun x => b.bind fun y => force (g x y) some) (f c d) := by
  intro n hn
  obtain ⟨x, hx, hn⟩ := Option.bind_eq_some_iff.mp hn
  obtain ⟨y, hy, hn⟩ := Option.bind_eq_some_iff.mp hn
  rw [force_eq] at hn
  obtain ⟨h1, h2⟩ := ha x hx
  obtain ⟨h3, h4⟩ := hb y hy
  have e := hf ⟨c, h1⟩ ⟨d, h3⟩
  have e' := h ⟨c, h1⟩ ⟨d, h3⟩
  have ec := (f' ⟨c, h1⟩ ⟨d, h3⟩).canonical
  dsimp only at e e'
  rw [e] at e' ec
  exact ⟨ec, by rw [e', h2, h4, Option.some_inj.mp hn]⟩

theorem op1L {f : L4 → L4} {f' : FqW → FqW} {g : Nat → Nat}
    (h : ∀ a : FqW, (f' a).limbs.val = g a.limbs.val) (hf : ∀ a : FqW, (f' a).limbs = f a.limbs)
    {a : Option Nat} {c : L4} (ha : OnL a c) : OnL (a.bind fun x => force (g x) some) (f c) := by
  intro n hn
  obtain ⟨x, hx, hn⟩ := Option.bind_eq_some_iff.mp hn
  rw [force_eq] at hn
  obtain ⟨h1, h2⟩ := ha x hx
  have e := hf ⟨c, h1⟩
  have e' := h ⟨c, h1⟩
  have ec := (f' ⟨c, h1⟩).canonical
  dsimp only at e e'
  rw [e] at e' ec
  exact ⟨ec, by rw [e', h2, Option.some_inj.mp hn]⟩

/-- A squaring that gives up when the limbs say something else. -/
def sqW (n : Nat) : Option Nat := force (mulN n n) fun m => if fqParams.square (spell n) == spell m then some m else none
/-- The product. -/
def sqF (n : Nat) : Option Nat := force (mulN n n) some
/-- The squaring of the code. -/
def sqL (n : Nat) : Option Nat :=
  force (fqParams.square (spell n)).val fun m => if m < q && fqParams.square (spell n) == spell m then some m else none
/-- The inverse, checked by a product. -/
def invF (n : Nat) : Option Nat :=
  if n = 0 then none else force (invN n) fun m => if mulN n m == 2 ^ 256 % q && decide (m < q) then some m else none
/-- The inverse, if all squarings on the way are right. -/
def invW (n : Nat) : Option Nat := if InvertRight (spell n) then invF n else none
/-- The inverse of the code. -/
def invL (n : Nat) : Option Nat :=
  (fqParams.invert (spell n)).bind fun x => force x.val fun m => if m < q && x == spell m then some m else none

theorem invF_ok {n m : Nat} (h : invF n = some m) {w : FqW} (hw : w.limbs.val = n) : w ≠ 0 ∧ (w⁻¹).limbs.val = m := by
  unfold invF at h
  split at h
  · exact absurd h (by simp)
  · rename_i h0
    rw [force_eq] at h
    split at h
    · rename_i hc
      rw [Bool.and_eq_true, beq_iff_eq, decide_eq_true_eq] at hc
      obtain ⟨h1, h2⟩ := hc
      rw [Option.some_inj.mp h] at h1 h2
      obtain ⟨c1, c2⟩ := canon_spell h2
      refine ⟨?_, ?_⟩
      · intro e
        apply h0
        rw [← hw, e, val_zero]
      · have e : w * ⟨spell m, c1⟩ = 1 := by
          apply val_inj
          rw [val_mul, hw, val_one, ← h1]
          exact congrArg (mulN n) c2
        rw [← eq_inv_of_mul_eq_one_right e]
        exact c2
    · exact absurd h (by simp)

theorem watched_isZero {w : FqW} (h : w ≠ 0) : watched.isZero (some w) = false := by
  have e2 : watched.isZero (some w) = (some w).elim true watchZero := rfl
  rw [e2, Option.elim_some]
  exact watchZero_false h

theorem isZero_cases {s i : Nat → Option Nat} {a : Option Nat} (h : (quick s i).isZero a = false) :
    ∃ x, a = some x ∧ isZeroN x = false := by
  cases a with
  | none => exact absurd h (by simp [quick])
  | some x => exact ⟨x, rfl, isZero_some h⟩

theorem sim_watched : Sim (quick sqW invW) watched OnW where
  zero n hn := ⟨0, rfl, by rw [val_zero]; exact Option.some_inj.mp hn⟩
  one n hn := ⟨1, rfl, by rw [val_one]; exact Option.some_inj.mp hn⟩
  add := op2W (f := fun x y => x + y) (g := fun x y => (x + y) % q) val_add
  sub := op2W (f := fun x y => x - y) (g := fun x y => (x + q - y) % q) val_sub
  neg := op1W (f := fun x => -x) (g := fun x => (q - x) % q) val_neg
  double := op1W (f := fun x => x + x) (g := fun x => (x + x) % q) (fun a => val_add a a)
  mul := op2W (f := fun x y => x * y) (g := mulN) val_mul
  square := by
    intro a c h n hn
    obtain ⟨x, hx, hn⟩ := Option.bind_eq_some_iff.mp hn
    obtain ⟨w, rfl, hw⟩ := h x hx
    unfold sqW at hn
    rw [force_eq] at hn
    split at hn
    · rename_i hs
      have hs := eq_of_beq hs
      refine ⟨w * w, ?_, by rw [val_mul, hw, Option.some_inj.mp hn]⟩
      have hr : SquareRight w.limbs := by
        unfold SquareRight
        rw [← hw, spell_val w.canonical, ← val_mul, spell_val (w * w).canonical, limbs_mul] at hs
        exact hs
      have e : watchSquare w = some (w * w) := by unfold watchSquare; exact if_pos hr
      have e2 : watched.square (some w) = (some w).bind watchSquare := rfl
      rw [e2, Option.bind_some, e]
    · exact absurd hn (by simp)
  invert := by
    intro a c n h hn
    obtain ⟨m, hm, hn⟩ := Option.map_eq_some_iff.mp hn
    obtain ⟨x, hx, hm⟩ := Option.bind_eq_some_iff.mp hm
    obtain ⟨w, rfl, hw⟩ := h x hx
    unfold invW at hm
    split at hm
    · rename_i hi
      obtain ⟨h0, h1⟩ := invF_ok hm hw
      rw [← hw, spell_val w.canonical] at hi
      refine ⟨some w⁻¹, ?_, ?_⟩
      · have e : watchInvert w = some (some w⁻¹) := by unfold watchInvert; exact (if_neg h0).trans (if_pos hi)
        have e2 : watched.invert (some w) = (some w).bind watchInvert := rfl
        rw [e2, Option.bind_some, e]
      · intro k hk
        refine ⟨w⁻¹, rfl, ?_⟩
        rw [h1]
        rw [← hn] at hk
        exact Option.some_inj.mp hk
    · exact absurd hm (by simp)
  isZero := by
    intro a c h hz
    obtain ⟨x, hx, hz⟩ := isZero_cases hz
    obtain ⟨w, hw, hv⟩ := h x hx
    rw [hw]
    exact watched_isZero (ne_of_val hv hz)

theorem sim_product : Sim (quick sqF invF) (fieldBase FqW) OnF where
  zero n hn := by rw [← Option.some_inj.mp hn]; exact val_zero
  one n hn := by rw [← Option.some_inj.mp hn]; exact val_one
  add := op2F (f := fun x y => x + y) (g := fun x y => (x + y) % q) val_add
  sub := op2F (f := fun x y => x - y) (g := fun x y => (x + q - y) % q) val_sub
  neg := op1F (f := fun x => -x) (g := fun x => (q - x) % q) val_neg
  double := op1F (f := fun x => x + x) (g := fun x => (x + x) % q) (fun a => val_add a a)
  mul := op2F (f := fun x y => x * y) (g := mulN) val_mul
  square := by
    intro a w h n hn
    obtain ⟨x, hx, hn⟩ := Option.bind_eq_some_iff.mp hn
    unfold sqF at hn
    rw [force_eq] at hn
    have e : (w * w).limbs.val = n := by rw [val_mul, h x hx, Option.some_inj.mp hn]
    exact e
  invert := by
    intro a w n h hn
    obtain ⟨m, hm, hn⟩ := Option.map_eq_some_iff.mp hn
    obtain ⟨x, hx, hm⟩ := Option.bind_eq_some_iff.mp hm
    obtain ⟨h0, h1⟩ := invF_ok hm (h x hx)
    refine ⟨w⁻¹, if_neg h0, ?_⟩
    intro k hk
    rw [← hn] at hk
    rw [h1]
    exact Option.some_inj.mp hk
  isZero := by
    intro a w h hz
    match a, h, hz with
    | none, _, hz => exact absurd hz (by simp [quick])
    | some x, h, hz =>
      exact decide_eq_false (ne_of_val (h x rfl) (isZero_some hz))

theorem sim_code : Sim (quick sqL invL) codeBase OnL where
  zero n hn := by rw [← Option.some_inj.mp hn]; exact ⟨(0 : FqW).canonical, val_zero⟩
  one n hn := by rw [← Option.some_inj.mp hn]; exact ⟨(1 : FqW).canonical, val_one⟩
  add := op2L (f := codeBase.add) (f' := fun x y => x + y) (g := fun x y => (x + y) % q) val_add (fun _ _ => rfl)
  sub := op2L (f := codeBase.sub) (f' := fun x y => x - y) (g := fun x y => (x + q - y) % q) val_sub (fun _ _ => rfl)
  neg := op1L (f := codeBase.neg) (f' := fun x => -x) (g := fun x => (q - x) % q) val_neg (fun _ => rfl)
  double := op1L (f := codeBase.double) (f' := fun x => x + x) (g := fun x => (x + x) % q) (fun a => val_add a a) limbs_double
  mul := op2L (f := codeBase.mul) (f' := fun x y => x * y) (g := mulN) val_mul (fun _ _ => rfl)
  square := by
    intro a x h n hn
    obtain ⟨y, hy, hn⟩ := Option.bind_eq_some_iff.mp hn
    obtain ⟨h1, h2⟩ := h y hy
    unfold sqL at hn
    rw [force_eq] at hn
    split at hn
    · rename_i hs
      rw [Bool.and_eq_true, beq_iff_eq, decide_eq_true_eq] at hs
      obtain ⟨h3, h4⟩ := hs
      rw [Option.some_inj.mp hn] at h3 h4
      rw [← h2, spell_val h1] at h4
      have e : codeBase.square x = spell n := h4
      rw [e]
      exact canon_spell h3
    · exact absurd hn (by simp)
  invert := by
    intro a x n h hn
    obtain ⟨m, hm, hn⟩ := Option.map_eq_some_iff.mp hn
    obtain ⟨y, hy, hm⟩ := Option.bind_eq_some_iff.mp hm
    obtain ⟨h1, h2⟩ := h y hy
    unfold invL at hm
    obtain ⟨u, hu, hm⟩ := Option.bind_eq_some_iff.mp hm
    rw [force_eq] at hm
    rw [← h2, spell_val h1] at hu
    split at hm
    · rename_i hs
      rw [Bool.and_eq_true, beq_iff_eq, decide_eq_true_eq] at hs
      obtain ⟨h3, h4⟩ := hs
      refine ⟨u, hu, ?_⟩
      intro k hk
      rw [← hn, ← Option.some_inj.mp hm] at hk
      rw [← Option.some_inj.mp hk]
      have c := canon_spell h3
      rw [← h4] at c
      exact ⟨c.1, rfl⟩
    · exact absurd hm (by simp)
  isZero := by
    intro a x h hz
    match a, h, hz with
    | none, _, hz => exact absurd hz (by simp [quick])
    | some y, h, hz =>
      apply decide_eq_false
      intro e
      obtain ⟨h1, h2⟩ := h y rfl
      have e0 : x.val = 0 := by rw [e]; exact val_zero
      have h3 := isZero_some hz
      rw [← h2, e0] at h3
      exact absurd h3 (by decide)

end Quick

end Kogarashi.Tower
