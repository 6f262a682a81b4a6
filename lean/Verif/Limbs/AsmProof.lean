import Verif.Spec.AsmCarry
import Verif.Limbs.B256Lemmas
import Mathlib.Tactic.LinearCombination
import Mathlib.Data.Nat.GCD.Basic
import Mathlib.Data.Nat.ModEq

/-!
# The assembly blocks, executed symbolically

One lemma per kind of instruction turns an execution into limb equations; the six blocks are then walked
instruction by instruction. Generated from the instruction lists.
-/

namespace Kogarashi.Limbs.Asm

open Kogarashi.Spec.AsmCarry

section steps
variable {mem : Mem} {is : List Ins} {st : St} {P : St → Prop}

/-- The outcome of an execution satisfies `P`. -/
def RP (mem : Mem) (P : St → Prop) (is : List Ins) (st : St) : Prop := P (run mem is st)

theorem mov_step {d : Reg} {s : Src} (h : RP mem P is (st.set (s.eval mem st) d)) :
    RP mem P (.mov d s :: is) st := h

theorem xor_step {d : Reg} (h : RP mem P is { st.set 0 d with cf := 0, zf := true }) :
    RP mem P (.xor d (.reg d) :: is) st := by
  have e : step mem st (.xor d (.reg d)) = { st.set 0 d with cf := 0, zf := true } := by
    simp [step, Src.eval, Nat.xor_self]
  rw [RP, run, e]; exact h

theorem or_step {d : Reg} {s : Src}
    (h : RP mem P is { st.set (st.get d ||| s.eval mem st) d with cf := 0, zf := (st.get d ||| s.eval mem st) == 0 }) :
    RP mem P (.or d s :: is) st := h

theorem and_step {d : Reg} {s : Src}
    (h : RP mem P is { st.set (st.get d &&& s.eval mem st) d with cf := 0, zf := (st.get d &&& s.eval mem st) == 0 }) :
    RP mem P (.and d s :: is) st := h

theorem cmp_step {d : Reg} {s : Src}
    (h : RP mem P is { st with cf := if st.get d < s.eval mem st then 1 else 0, zf := st.get d == s.eval mem st }) :
    RP mem P (.cmp d s :: is) st := h

theorem add_step {d : Reg} {s : Src}
    (h : ∀ v c, v + 2^64 * c = st.get d + s.eval mem st → v < 2^64 →
      ∀ z, RP mem P is { st.set v d with cf := c, zf := z }) :
    RP mem P (.add d s :: is) st :=
  h _ _ (Nat.mod_add_div _ _) (Nat.mod_lt _ (by norm_num)) _

theorem adc_step {d : Reg} {s : Src}
    (h : ∀ v c, v + 2^64 * c = st.get d + s.eval mem st + st.cf → v < 2^64 →
      ∀ z, RP mem P is { st.set v d with cf := c, zf := z }) :
    RP mem P (.adc d s :: is) st :=
  h _ _ (Nat.mod_add_div _ _) (Nat.mod_lt _ (by norm_num)) _

theorem diff_eq {x t : Nat} (hx : x < 2^64) (ht : t ≤ 2^64) :
    (x + 2^64 - t) % 2^64 + t = x + 2^64 * (if x < t then 1 else 0) := by
  split <;> omega

theorem bit_le {q : Prop} [Decidable q] : (if q then 1 else 0) ≤ 1 := by split <;> omega

theorem sub_step {d : Reg} {s : Src} (hx : st.get d < 2^64) (hy : s.eval mem st < 2^64)
    (h : ∀ v k, v + s.eval mem st = st.get d + 2^64 * k → v < 2^64 → k ≤ 1 →
      ∀ z, RP mem P is { st.set v d with cf := k, zf := z }) :
    RP mem P (.sub d s :: is) st :=
  h _ _ (diff_eq hx hy.le) (Nat.mod_lt _ (by norm_num)) bit_le _

theorem sbb_step {d : Reg} {s : Src} (hx : st.get d < 2^64) (hy : s.eval mem st < 2^64)
    (hc : st.cf ≤ 1)
    (h : ∀ v k, v + (s.eval mem st + st.cf) = st.get d + 2^64 * k → v < 2^64 → k ≤ 1 →
      ∀ z, RP mem P is { st.set v d with cf := k, zf := z }) :
    RP mem P (.sbb d s :: is) st :=
  h _ _ (diff_eq hx (by omega)) (Nat.mod_lt _ (by norm_num)) bit_le _

theorem cmovc_take {d : Reg} {s : Src} (hc : st.cf = 1)
    (h : RP mem P is (st.set (s.eval mem st) d)) : RP mem P (.cmovc d s :: is) st := by
  have e : step mem st (.cmovc d s) = st.set (s.eval mem st) d := if_pos hc
  rw [RP, run, e]; exact h

theorem cmovc_skip {d : Reg} {s : Src} (hc : st.cf = 0)
    (h : RP mem P is st) : RP mem P (.cmovc d s :: is) st := by
  have e : step mem st (.cmovc d s) = st := if_neg (by rw [hc]; decide)
  rw [RP, run, e]; exact h

theorem cmove_take {d : Reg} {s : Src} (hc : st.zf = true)
    (h : RP mem P is (st.set (s.eval mem st) d)) : RP mem P (.cmove d s :: is) st := by
  have e : step mem st (.cmove d s) = st.set (s.eval mem st) d := if_pos hc
  rw [RP, run, e]; exact h

theorem cmove_skip {d : Reg} {s : Src} (hc : st.zf = false)
    (h : RP mem P is st) : RP mem P (.cmove d s :: is) st := by
  have e : step mem st (.cmove d s) = st := if_neg (by rw [hc]; decide)
  rw [RP, run, e]; exact h

/-- Executions that keep their carries. -/
def KP (mem : Mem) (P : St → Prop) (is : List Ins) (st : St) : Prop :=
  keepsCarries mem is st = true → P (run mem is st)

theorem KP_next {i : Ins} (h : KP mem P is (step mem st i)) : KP mem P (i :: is) st := by
  intro hk
  rw [keepsCarries, Bool.and_eq_true] at hk
  exact h hk.2

theorem kmov {d : Reg} {s : Src} (h : KP mem P is (st.set (s.eval mem st) d)) :
    KP mem P (.mov d s :: is) st := KP_next h

theorem kxor {d : Reg} (h : KP mem P is { st.set 0 d with cf := 0, zf := true }) :
    KP mem P (.xor d (.reg d) :: is) st := by
  have e : step mem st (.xor d (.reg d)) = { st.set 0 d with cf := 0, zf := true } := by
    simp [step, Src.eval, Nat.xor_self]
  exact KP_next (by rw [e]; exact h)

theorem kmulx {hi lo : Reg} {s : Src}
    (h : ∀ u v, v + 2^64 * u = st.rdx * s.eval mem st → v < 2^64 →
      KP mem P is ((st.set v lo).set u hi)) :
    KP mem P (.mulx hi lo s :: is) st :=
  KP_next (h _ _ (Nat.mod_add_div _ _) (Nat.mod_lt _ (by norm_num)))

theorem kadd {d : Reg} {s : Src}
    (h : ∀ v c, v + 2^64 * c = st.get d + s.eval mem st → v < 2^64 →
      ∀ z, KP mem P is { st.set v d with cf := c, zf := z }) :
    KP mem P (.add d s :: is) st :=
  KP_next (h _ _ (Nat.mod_add_div _ _) (Nat.mod_lt _ (by norm_num)) _)

theorem kadc {d : Reg} {s : Src}
    (h : ∀ v c, v + 2^64 * c = st.get d + s.eval mem st + st.cf → v < 2^64 →
      ∀ z, KP mem P is { st.set v d with cf := c, zf := z }) :
    KP mem P (.adc d s :: is) st :=
  KP_next (h _ _ (Nat.mod_add_div _ _) (Nat.mod_lt _ (by norm_num)) _)

theorem kadcx {d : Reg} {s : Src}
    (h : ∀ v c, v + 2^64 * c = st.get d + s.eval mem st + st.cf → v < 2^64 →
      ∀ z, KP mem P is { st.set v d with cf := c, zf := z }) :
    KP mem P (.adcx d s :: is) st := by
  have := h _ _ (Nat.mod_add_div _ _) (Nat.mod_lt _ (by norm_num)) st.zf
  refine KP_next ?_
  have e : step mem st (.adcx d s) =
      { st.set ((st.get d + s.eval mem st + st.cf) % 2^64) d with
        cf := (st.get d + s.eval mem st + st.cf) / 2^64
        zf := st.zf } := by
    cases d <;> rfl
  rw [e]; exact this

theorem drop_zero {i : Ins} (hi : isAdd i = true) (hr : readsCarry is = false)
    (hk : keepsCarries mem (i :: is) st = true) : (step mem st i).cf = 0 := by
  rw [keepsCarries, Bool.and_eq_true, hi, hr] at hk
  simpa using hk.1

theorem kadc_drop {d : Reg} {s : Src} (hr : readsCarry is = false)
    (h : ∀ v, v = st.get d + s.eval mem st + st.cf → v < 2^64 →
      ∀ z, KP mem P is { st.set v d with cf := 0, zf := z }) :
    KP mem P (.adc d s :: is) st := by
  intro hk
  have h0 : (st.get d + s.eval mem st + st.cf) / 2^64 = 0 := drop_zero (i := .adc d s) rfl hr hk
  refine kadc (fun v c e u z => ?_) hk
  have hc : c = 0 := by
    generalize st.get d + s.eval mem st + st.cf = t at *
    omega
  subst hc
  exact h v (by rw [← e]; rfl) u z

theorem kadcx_drop {d : Reg} {s : Src} (hr : readsCarry is = false)
    (h : ∀ v, v = st.get d + s.eval mem st + st.cf → v < 2^64 →
      ∀ z, KP mem P is { st.set v d with cf := 0, zf := z }) :
    KP mem P (.adcx d s :: is) st := by
  intro hk
  have h0 : (step mem st (.adcx d s)).cf = 0 := drop_zero (i := .adcx d s) rfl hr hk
  have h0 : (st.get d + s.eval mem st + st.cf) / 2^64 = 0 := h0
  refine kadcx (fun v c e u z => ?_) hk
  have hc : c = 0 := by
    generalize st.get d + s.eval mem st + st.cf = t at *
    omega
  subst hc
  exact h v (by rw [← e]; rfl) u z

theorem KP_run (h : P (run mem is st)) : KP mem P is st := fun _ => h

end steps

/-- The limb the reduction clears. -/
theorem low_zero {q h r lo hi v c m0 n : Nat} (hn : (m0 * n + 1) % 2^64 = 0)
    (eq : q + 2^64 * h = n * r) (el : lo + 2^64 * hi = q * m0)
    (ev : v + 2^64 * c = r + lo) (hv : v < 2^64) : v = 0 := by
  obtain ⟨t, ht⟩ : ∃ t, m0 * n + 1 = 2^64 * t := ⟨(m0 * n + 1) / 2^64, by omega⟩
  have key : v + 2^64 * (c + hi + h * m0) = 2^64 * (t * r) := by
    linear_combination ev + el + m0 * eq + r * ht
  generalize c + hi + h * m0 = x at key
  generalize t * r = y at key
  omega

theorem hi_bound {x y lo hi : Nat} (hx : x < 2^64) (hy : y < 2^64) (e : lo + 2^64 * hi = x * y) :
    hi + 1 < 2^64 := by
  have : x * y ≤ (2^64 - 1) * (2^64 - 1) := Nat.mul_le_mul (by omega) (by omega)
  omega

theorem add_run (st : St) {a0 a1 a2 a3 : Nat} {b0 b1 b2 b3 : Nat} {m0 m1 m2 m3 : Nat} (ha0 : a0 < 2^64) (ha1 : a1 < 2^64) (ha2 : a2 < 2^64) (ha3 : a3 < 2^64) (hb0 : b0 < 2^64) (hb1 : b1 < 2^64) (hb2 : b2 < 2^64) (hb3 : b3 < 2^64) (hm0 : m0 < 2^64) (hm1 : m1 < 2^64) (hm2 : m2 < 2^64) (hm3 : m3 < 2^64)
    (h : (L4.mk a0 a1 a2 a3).val + (L4.mk b0 b1 b2 b3).val < 2^256) :
    (add st ⟨a0, a1, a2, a3⟩ ⟨b0, b1, b2, b3⟩ ⟨m0, m1, m2, m3⟩).Wf ∧ ((L4.mk a0 a1 a2 a3).val + (L4.mk b0 b1 b2 b3).val < (L4.mk m0 m1 m2 m3).val → (add st ⟨a0, a1, a2, a3⟩ ⟨b0, b1, b2, b3⟩ ⟨m0, m1, m2, m3⟩).val = (L4.mk a0 a1 a2 a3).val + (L4.mk b0 b1 b2 b3).val) ∧ ((L4.mk m0 m1 m2 m3).val ≤ (L4.mk a0 a1 a2 a3).val + (L4.mk b0 b1 b2 b3).val → (add st ⟨a0, a1, a2, a3⟩ ⟨b0, b1, b2, b3⟩ ⟨m0, m1, m2, m3⟩).val + (L4.mk m0 m1 m2 m3).val = (L4.mk a0 a1 a2 a3).val + (L4.mk b0 b1 b2 b3).val) := by
  change RP _ (fun st : St => (⟨st.r12, st.r13, st.r14, st.r15⟩ : L4).Wf ∧ ((L4.mk a0 a1 a2 a3).val + (L4.mk b0 b1 b2 b3).val < (L4.mk m0 m1 m2 m3).val → (⟨st.r12, st.r13, st.r14, st.r15⟩ : L4).val = (L4.mk a0 a1 a2 a3).val + (L4.mk b0 b1 b2 b3).val) ∧ ((L4.mk m0 m1 m2 m3).val ≤ (L4.mk a0 a1 a2 a3).val + (L4.mk b0 b1 b2 b3).val → (⟨st.r12, st.r13, st.r14, st.r15⟩ : L4).val + (L4.mk m0 m1 m2 m3).val = (L4.mk a0 a1 a2 a3).val + (L4.mk b0 b1 b2 b3).val)) addProg st
  unfold addProg
  refine mov_step ?_
  change RP _ _ _ ⟨st.rax, st.rcx, st.rdx, a0, st.r9, st.r10, st.r11, st.r12, st.r13, st.r14, st.r15, st.cf, st.zf⟩
  refine mov_step ?_
  change RP _ _ _ ⟨st.rax, st.rcx, st.rdx, a0, a1, st.r10, st.r11, st.r12, st.r13, st.r14, st.r15, st.cf, st.zf⟩
  refine mov_step ?_
  change RP _ _ _ ⟨st.rax, st.rcx, st.rdx, a0, a1, a2, st.r11, st.r12, st.r13, st.r14, st.r15, st.cf, st.zf⟩
  refine mov_step ?_
  change RP _ _ _ ⟨st.rax, st.rcx, st.rdx, a0, a1, a2, a3, st.r12, st.r13, st.r14, st.r15, st.cf, st.zf⟩
  refine add_step fun v0 c0 (E0 : v0 + 2^64 * c0 = a0 + b0) (Q0 : v0 < 2^64) z0 => ?_
  change RP _ _ _ ⟨st.rax, st.rcx, st.rdx, v0, a1, a2, a3, st.r12, st.r13, st.r14, st.r15, c0, z0⟩
  refine adc_step fun v1 c1 (E1 : v1 + 2^64 * c1 = a1 + b1 + c0) (Q1 : v1 < 2^64) z1 => ?_
  change RP _ _ _ ⟨st.rax, st.rcx, st.rdx, v0, v1, a2, a3, st.r12, st.r13, st.r14, st.r15, c1, z1⟩
  refine adc_step fun v2 c2 (E2 : v2 + 2^64 * c2 = a2 + b2 + c1) (Q2 : v2 < 2^64) z2 => ?_
  change RP _ _ _ ⟨st.rax, st.rcx, st.rdx, v0, v1, v2, a3, st.r12, st.r13, st.r14, st.r15, c2, z2⟩
  refine adc_step fun v3 c3 (E3 : v3 + 2^64 * c3 = a3 + b3 + c2) (Q3 : v3 < 2^64) z3 => ?_
  change RP _ _ _ ⟨st.rax, st.rcx, st.rdx, v0, v1, v2, v3, st.r12, st.r13, st.r14, st.r15, c3, z3⟩
  refine mov_step ?_
  change RP _ _ _ ⟨st.rax, st.rcx, st.rdx, v0, v1, v2, v3, v0, st.r13, st.r14, st.r15, c3, z3⟩
  refine mov_step ?_
  change RP _ _ _ ⟨st.rax, st.rcx, st.rdx, v0, v1, v2, v3, v0, v1, st.r14, st.r15, c3, z3⟩
  refine mov_step ?_
  change RP _ _ _ ⟨st.rax, st.rcx, st.rdx, v0, v1, v2, v3, v0, v1, v2, st.r15, c3, z3⟩
  refine mov_step ?_
  change RP _ _ _ ⟨st.rax, st.rcx, st.rdx, v0, v1, v2, v3, v0, v1, v2, v3, c3, z3⟩
  refine sub_step Q0 hm0 fun v4 k4 (E4 : v4 + m0 = v0 + 2^64 * k4) (Q4 : v4 < 2^64) (B4 : k4 ≤ 1) z4 => ?_
  change RP _ _ _ ⟨st.rax, st.rcx, st.rdx, v0, v1, v2, v3, v4, v1, v2, v3, k4, z4⟩
  refine sbb_step Q1 hm1 B4 fun v5 k5 (E5 : v5 + (m1 + k4) = v1 + 2^64 * k5) (Q5 : v5 < 2^64) (B5 : k5 ≤ 1) z5 => ?_
  change RP _ _ _ ⟨st.rax, st.rcx, st.rdx, v0, v1, v2, v3, v4, v5, v2, v3, k5, z5⟩
  refine sbb_step Q2 hm2 B5 fun v6 k6 (E6 : v6 + (m2 + k5) = v2 + 2^64 * k6) (Q6 : v6 < 2^64) (B6 : k6 ≤ 1) z6 => ?_
  change RP _ _ _ ⟨st.rax, st.rcx, st.rdx, v0, v1, v2, v3, v4, v5, v6, v3, k6, z6⟩
  refine sbb_step Q3 hm3 B6 fun v7 k7 (E7 : v7 + (m3 + k6) = v3 + 2^64 * k7) (Q7 : v7 < 2^64) (B7 : k7 ≤ 1) z7 => ?_
  change RP _ _ _ ⟨st.rax, st.rcx, st.rdx, v0, v1, v2, v3, v4, v5, v6, v7, k7, z7⟩
  obtain rfl | rfl : k7 = 0 ∨ k7 = 1 := by omega
  · refine cmovc_skip rfl ?_
    refine cmovc_skip rfl ?_
    refine cmovc_skip rfl ?_
    refine cmovc_skip rfl ?_
    have G0 : (L4.mk v0 v1 v2 v3).val + 2^256 * c3 = (L4.mk a0 a1 a2 a3).val + (L4.mk b0 b1 b2 b3).val := by
      unfold L4.val
      linear_combination 2^0 * E0 + 2^64 * E1 + 2^128 * E2 + 2^192 * E3
    have G4 : (L4.mk v4 v5 v6 v7).val + (L4.mk m0 m1 m2 m3).val = (L4.mk v0 v1 v2 v3).val + 2^256 * 0 := by
      unfold L4.val
      linear_combination 2^0 * E4 + 2^64 * E5 + 2^128 * E6 + 2^192 * E7
    have T0 : (L4.mk v0 v1 v2 v3).val < 2^256 := L4.Wf.val_lt ⟨Q0, Q1, Q2, Q3⟩
    have T1 : (L4.mk a0 a1 a2 a3).val < 2^256 := L4.Wf.val_lt ⟨ha0, ha1, ha2, ha3⟩
    have T2 : (L4.mk b0 b1 b2 b3).val < 2^256 := L4.Wf.val_lt ⟨hb0, hb1, hb2, hb3⟩
    have T3 : (L4.mk v4 v5 v6 v7).val < 2^256 := L4.Wf.val_lt ⟨Q4, Q5, Q6, Q7⟩
    have T4 : (L4.mk m0 m1 m2 m3).val < 2^256 := L4.Wf.val_lt ⟨hm0, hm1, hm2, hm3⟩
    have F : ((L4.mk a0 a1 a2 a3).val + (L4.mk b0 b1 b2 b3).val < (L4.mk m0 m1 m2 m3).val → (L4.mk v4 v5 v6 v7).val = (L4.mk a0 a1 a2 a3).val + (L4.mk b0 b1 b2 b3).val) ∧ ((L4.mk m0 m1 m2 m3).val ≤ (L4.mk a0 a1 a2 a3).val + (L4.mk b0 b1 b2 b3).val → (L4.mk v4 v5 v6 v7).val + (L4.mk m0 m1 m2 m3).val = (L4.mk a0 a1 a2 a3).val + (L4.mk b0 b1 b2 b3).val) := by
      generalize (L4.mk v0 v1 v2 v3).val = x0 at *
      generalize (L4.mk a0 a1 a2 a3).val = x1 at *
      generalize (L4.mk b0 b1 b2 b3).val = x2 at *
      generalize (L4.mk v4 v5 v6 v7).val = x3 at *
      generalize (L4.mk m0 m1 m2 m3).val = x4 at *
      clear * - h G0 G4 T0 T1 T2 T3 T4
      omega
    exact ⟨⟨Q4, Q5, Q6, Q7⟩, F⟩
  · refine cmovc_take rfl ?_
    change RP _ _ _ ⟨st.rax, st.rcx, st.rdx, v0, v1, v2, v3, v0, v5, v6, v7, 1, z7⟩
    refine cmovc_take rfl ?_
    change RP _ _ _ ⟨st.rax, st.rcx, st.rdx, v0, v1, v2, v3, v0, v1, v6, v7, 1, z7⟩
    refine cmovc_take rfl ?_
    change RP _ _ _ ⟨st.rax, st.rcx, st.rdx, v0, v1, v2, v3, v0, v1, v2, v7, 1, z7⟩
    refine cmovc_take rfl ?_
    change RP _ _ _ ⟨st.rax, st.rcx, st.rdx, v0, v1, v2, v3, v0, v1, v2, v3, 1, z7⟩
    have G0 : (L4.mk v0 v1 v2 v3).val + 2^256 * c3 = (L4.mk a0 a1 a2 a3).val + (L4.mk b0 b1 b2 b3).val := by
      unfold L4.val
      linear_combination 2^0 * E0 + 2^64 * E1 + 2^128 * E2 + 2^192 * E3
    have G4 : (L4.mk v4 v5 v6 v7).val + (L4.mk m0 m1 m2 m3).val = (L4.mk v0 v1 v2 v3).val + 2^256 * 1 := by
      unfold L4.val
      linear_combination 2^0 * E4 + 2^64 * E5 + 2^128 * E6 + 2^192 * E7
    have T0 : (L4.mk v0 v1 v2 v3).val < 2^256 := L4.Wf.val_lt ⟨Q0, Q1, Q2, Q3⟩
    have T1 : (L4.mk a0 a1 a2 a3).val < 2^256 := L4.Wf.val_lt ⟨ha0, ha1, ha2, ha3⟩
    have T2 : (L4.mk b0 b1 b2 b3).val < 2^256 := L4.Wf.val_lt ⟨hb0, hb1, hb2, hb3⟩
    have T3 : (L4.mk v4 v5 v6 v7).val < 2^256 := L4.Wf.val_lt ⟨Q4, Q5, Q6, Q7⟩
    have T4 : (L4.mk m0 m1 m2 m3).val < 2^256 := L4.Wf.val_lt ⟨hm0, hm1, hm2, hm3⟩
    have F : ((L4.mk a0 a1 a2 a3).val + (L4.mk b0 b1 b2 b3).val < (L4.mk m0 m1 m2 m3).val → (L4.mk v0 v1 v2 v3).val = (L4.mk a0 a1 a2 a3).val + (L4.mk b0 b1 b2 b3).val) ∧ ((L4.mk m0 m1 m2 m3).val ≤ (L4.mk a0 a1 a2 a3).val + (L4.mk b0 b1 b2 b3).val → (L4.mk v0 v1 v2 v3).val + (L4.mk m0 m1 m2 m3).val = (L4.mk a0 a1 a2 a3).val + (L4.mk b0 b1 b2 b3).val) := by
      generalize (L4.mk v0 v1 v2 v3).val = x0 at *
      generalize (L4.mk a0 a1 a2 a3).val = x1 at *
      generalize (L4.mk b0 b1 b2 b3).val = x2 at *
      generalize (L4.mk v4 v5 v6 v7).val = x3 at *
      generalize (L4.mk m0 m1 m2 m3).val = x4 at *
      clear * - h G0 G4 T0 T1 T2 T3 T4
      omega
    exact ⟨⟨Q0, Q1, Q2, Q3⟩, F⟩

theorem double_run (st : St) {a0 a1 a2 a3 : Nat} {m0 m1 m2 m3 : Nat} (ha0 : a0 < 2^64) (ha1 : a1 < 2^64) (ha2 : a2 < 2^64) (ha3 : a3 < 2^64) (hm0 : m0 < 2^64) (hm1 : m1 < 2^64) (hm2 : m2 < 2^64) (hm3 : m3 < 2^64)
    (h : 2 * (L4.mk a0 a1 a2 a3).val < 2^256) :
    (double st ⟨a0, a1, a2, a3⟩ ⟨m0, m1, m2, m3⟩).Wf ∧ (2 * (L4.mk a0 a1 a2 a3).val < (L4.mk m0 m1 m2 m3).val → (double st ⟨a0, a1, a2, a3⟩ ⟨m0, m1, m2, m3⟩).val = 2 * (L4.mk a0 a1 a2 a3).val) ∧ ((L4.mk m0 m1 m2 m3).val ≤ 2 * (L4.mk a0 a1 a2 a3).val → (double st ⟨a0, a1, a2, a3⟩ ⟨m0, m1, m2, m3⟩).val + (L4.mk m0 m1 m2 m3).val = 2 * (L4.mk a0 a1 a2 a3).val) := by
  change RP _ (fun st : St => (⟨st.r12, st.r13, st.r14, st.r15⟩ : L4).Wf ∧ (2 * (L4.mk a0 a1 a2 a3).val < (L4.mk m0 m1 m2 m3).val → (⟨st.r12, st.r13, st.r14, st.r15⟩ : L4).val = 2 * (L4.mk a0 a1 a2 a3).val) ∧ ((L4.mk m0 m1 m2 m3).val ≤ 2 * (L4.mk a0 a1 a2 a3).val → (⟨st.r12, st.r13, st.r14, st.r15⟩ : L4).val + (L4.mk m0 m1 m2 m3).val = 2 * (L4.mk a0 a1 a2 a3).val)) doubleProg st
  unfold doubleProg
  refine mov_step ?_
  change RP _ _ _ ⟨st.rax, st.rcx, st.rdx, a0, st.r9, st.r10, st.r11, st.r12, st.r13, st.r14, st.r15, st.cf, st.zf⟩
  refine mov_step ?_
  change RP _ _ _ ⟨st.rax, st.rcx, st.rdx, a0, a1, st.r10, st.r11, st.r12, st.r13, st.r14, st.r15, st.cf, st.zf⟩
  refine mov_step ?_
  change RP _ _ _ ⟨st.rax, st.rcx, st.rdx, a0, a1, a2, st.r11, st.r12, st.r13, st.r14, st.r15, st.cf, st.zf⟩
  refine mov_step ?_
  change RP _ _ _ ⟨st.rax, st.rcx, st.rdx, a0, a1, a2, a3, st.r12, st.r13, st.r14, st.r15, st.cf, st.zf⟩
  refine add_step fun v0 c0 (E0 : v0 + 2^64 * c0 = a0 + a0) (Q0 : v0 < 2^64) z0 => ?_
  change RP _ _ _ ⟨st.rax, st.rcx, st.rdx, v0, a1, a2, a3, st.r12, st.r13, st.r14, st.r15, c0, z0⟩
  refine adc_step fun v1 c1 (E1 : v1 + 2^64 * c1 = a1 + a1 + c0) (Q1 : v1 < 2^64) z1 => ?_
  change RP _ _ _ ⟨st.rax, st.rcx, st.rdx, v0, v1, a2, a3, st.r12, st.r13, st.r14, st.r15, c1, z1⟩
  refine adc_step fun v2 c2 (E2 : v2 + 2^64 * c2 = a2 + a2 + c1) (Q2 : v2 < 2^64) z2 => ?_
  change RP _ _ _ ⟨st.rax, st.rcx, st.rdx, v0, v1, v2, a3, st.r12, st.r13, st.r14, st.r15, c2, z2⟩
  refine adc_step fun v3 c3 (E3 : v3 + 2^64 * c3 = a3 + a3 + c2) (Q3 : v3 < 2^64) z3 => ?_
  change RP _ _ _ ⟨st.rax, st.rcx, st.rdx, v0, v1, v2, v3, st.r12, st.r13, st.r14, st.r15, c3, z3⟩
  refine mov_step ?_
  change RP _ _ _ ⟨st.rax, st.rcx, st.rdx, v0, v1, v2, v3, v0, st.r13, st.r14, st.r15, c3, z3⟩
  refine mov_step ?_
  change RP _ _ _ ⟨st.rax, st.rcx, st.rdx, v0, v1, v2, v3, v0, v1, st.r14, st.r15, c3, z3⟩
  refine mov_step ?_
  change RP _ _ _ ⟨st.rax, st.rcx, st.rdx, v0, v1, v2, v3, v0, v1, v2, st.r15, c3, z3⟩
  refine mov_step ?_
  change RP _ _ _ ⟨st.rax, st.rcx, st.rdx, v0, v1, v2, v3, v0, v1, v2, v3, c3, z3⟩
  refine sub_step Q0 hm0 fun v4 k4 (E4 : v4 + m0 = v0 + 2^64 * k4) (Q4 : v4 < 2^64) (B4 : k4 ≤ 1) z4 => ?_
  change RP _ _ _ ⟨st.rax, st.rcx, st.rdx, v0, v1, v2, v3, v4, v1, v2, v3, k4, z4⟩
  refine sbb_step Q1 hm1 B4 fun v5 k5 (E5 : v5 + (m1 + k4) = v1 + 2^64 * k5) (Q5 : v5 < 2^64) (B5 : k5 ≤ 1) z5 => ?_
  change RP _ _ _ ⟨st.rax, st.rcx, st.rdx, v0, v1, v2, v3, v4, v5, v2, v3, k5, z5⟩
  refine sbb_step Q2 hm2 B5 fun v6 k6 (E6 : v6 + (m2 + k5) = v2 + 2^64 * k6) (Q6 : v6 < 2^64) (B6 : k6 ≤ 1) z6 => ?_
  change RP _ _ _ ⟨st.rax, st.rcx, st.rdx, v0, v1, v2, v3, v4, v5, v6, v3, k6, z6⟩
  refine sbb_step Q3 hm3 B6 fun v7 k7 (E7 : v7 + (m3 + k6) = v3 + 2^64 * k7) (Q7 : v7 < 2^64) (B7 : k7 ≤ 1) z7 => ?_
  change RP _ _ _ ⟨st.rax, st.rcx, st.rdx, v0, v1, v2, v3, v4, v5, v6, v7, k7, z7⟩
  obtain rfl | rfl : k7 = 0 ∨ k7 = 1 := by omega
  · refine cmovc_skip rfl ?_
    refine cmovc_skip rfl ?_
    refine cmovc_skip rfl ?_
    refine cmovc_skip rfl ?_
    have G0 : (L4.mk v0 v1 v2 v3).val + 2^256 * c3 = (L4.mk a0 a1 a2 a3).val + (L4.mk a0 a1 a2 a3).val := by
      unfold L4.val
      linear_combination 2^0 * E0 + 2^64 * E1 + 2^128 * E2 + 2^192 * E3
    have G4 : (L4.mk v4 v5 v6 v7).val + (L4.mk m0 m1 m2 m3).val = (L4.mk v0 v1 v2 v3).val + 2^256 * 0 := by
      unfold L4.val
      linear_combination 2^0 * E4 + 2^64 * E5 + 2^128 * E6 + 2^192 * E7
    have T0 : (L4.mk v0 v1 v2 v3).val < 2^256 := L4.Wf.val_lt ⟨Q0, Q1, Q2, Q3⟩
    have T1 : (L4.mk a0 a1 a2 a3).val < 2^256 := L4.Wf.val_lt ⟨ha0, ha1, ha2, ha3⟩
    have T2 : (L4.mk v4 v5 v6 v7).val < 2^256 := L4.Wf.val_lt ⟨Q4, Q5, Q6, Q7⟩
    have T3 : (L4.mk m0 m1 m2 m3).val < 2^256 := L4.Wf.val_lt ⟨hm0, hm1, hm2, hm3⟩
    have F : (2 * (L4.mk a0 a1 a2 a3).val < (L4.mk m0 m1 m2 m3).val → (L4.mk v4 v5 v6 v7).val = 2 * (L4.mk a0 a1 a2 a3).val) ∧ ((L4.mk m0 m1 m2 m3).val ≤ 2 * (L4.mk a0 a1 a2 a3).val → (L4.mk v4 v5 v6 v7).val + (L4.mk m0 m1 m2 m3).val = 2 * (L4.mk a0 a1 a2 a3).val) := by
      generalize (L4.mk v0 v1 v2 v3).val = x0 at *
      generalize (L4.mk a0 a1 a2 a3).val = x1 at *
      generalize (L4.mk v4 v5 v6 v7).val = x2 at *
      generalize (L4.mk m0 m1 m2 m3).val = x3 at *
      clear * - h G0 G4 T0 T1 T2 T3
      omega
    exact ⟨⟨Q4, Q5, Q6, Q7⟩, F⟩
  · refine cmovc_take rfl ?_
    change RP _ _ _ ⟨st.rax, st.rcx, st.rdx, v0, v1, v2, v3, v0, v5, v6, v7, 1, z7⟩
    refine cmovc_take rfl ?_
    change RP _ _ _ ⟨st.rax, st.rcx, st.rdx, v0, v1, v2, v3, v0, v1, v6, v7, 1, z7⟩
    refine cmovc_take rfl ?_
    change RP _ _ _ ⟨st.rax, st.rcx, st.rdx, v0, v1, v2, v3, v0, v1, v2, v7, 1, z7⟩
    refine cmovc_take rfl ?_
    change RP _ _ _ ⟨st.rax, st.rcx, st.rdx, v0, v1, v2, v3, v0, v1, v2, v3, 1, z7⟩
    have G0 : (L4.mk v0 v1 v2 v3).val + 2^256 * c3 = (L4.mk a0 a1 a2 a3).val + (L4.mk a0 a1 a2 a3).val := by
      unfold L4.val
      linear_combination 2^0 * E0 + 2^64 * E1 + 2^128 * E2 + 2^192 * E3
    have G4 : (L4.mk v4 v5 v6 v7).val + (L4.mk m0 m1 m2 m3).val = (L4.mk v0 v1 v2 v3).val + 2^256 * 1 := by
      unfold L4.val
      linear_combination 2^0 * E4 + 2^64 * E5 + 2^128 * E6 + 2^192 * E7
    have T0 : (L4.mk v0 v1 v2 v3).val < 2^256 := L4.Wf.val_lt ⟨Q0, Q1, Q2, Q3⟩
    have T1 : (L4.mk a0 a1 a2 a3).val < 2^256 := L4.Wf.val_lt ⟨ha0, ha1, ha2, ha3⟩
    have T2 : (L4.mk v4 v5 v6 v7).val < 2^256 := L4.Wf.val_lt ⟨Q4, Q5, Q6, Q7⟩
    have T3 : (L4.mk m0 m1 m2 m3).val < 2^256 := L4.Wf.val_lt ⟨hm0, hm1, hm2, hm3⟩
    have F : (2 * (L4.mk a0 a1 a2 a3).val < (L4.mk m0 m1 m2 m3).val → (L4.mk v0 v1 v2 v3).val = 2 * (L4.mk a0 a1 a2 a3).val) ∧ ((L4.mk m0 m1 m2 m3).val ≤ 2 * (L4.mk a0 a1 a2 a3).val → (L4.mk v0 v1 v2 v3).val + (L4.mk m0 m1 m2 m3).val = 2 * (L4.mk a0 a1 a2 a3).val) := by
      generalize (L4.mk v0 v1 v2 v3).val = x0 at *
      generalize (L4.mk a0 a1 a2 a3).val = x1 at *
      generalize (L4.mk v4 v5 v6 v7).val = x2 at *
      generalize (L4.mk m0 m1 m2 m3).val = x3 at *
      clear * - h G0 G4 T0 T1 T2 T3
      omega
    exact ⟨⟨Q0, Q1, Q2, Q3⟩, F⟩

theorem sub_run (st : St) {a0 a1 a2 a3 : Nat} {b0 b1 b2 b3 : Nat} {m0 m1 m2 m3 : Nat} (ha0 : a0 < 2^64) (ha1 : a1 < 2^64) (ha2 : a2 < 2^64) (ha3 : a3 < 2^64) (hb0 : b0 < 2^64) (hb1 : b1 < 2^64) (hb2 : b2 < 2^64) (hb3 : b3 < 2^64) (hm0 : m0 < 2^64) (hm1 : m1 < 2^64) (hm2 : m2 < 2^64) (hm3 : m3 < 2^64)
    (h : (L4.mk b0 b1 b2 b3).val ≤ (L4.mk a0 a1 a2 a3).val + (L4.mk m0 m1 m2 m3).val) :
    (sub st ⟨a0, a1, a2, a3⟩ ⟨b0, b1, b2, b3⟩ ⟨m0, m1, m2, m3⟩).Wf ∧ ((L4.mk b0 b1 b2 b3).val ≤ (L4.mk a0 a1 a2 a3).val → (sub st ⟨a0, a1, a2, a3⟩ ⟨b0, b1, b2, b3⟩ ⟨m0, m1, m2, m3⟩).val + (L4.mk b0 b1 b2 b3).val = (L4.mk a0 a1 a2 a3).val) ∧ ((L4.mk a0 a1 a2 a3).val < (L4.mk b0 b1 b2 b3).val → (sub st ⟨a0, a1, a2, a3⟩ ⟨b0, b1, b2, b3⟩ ⟨m0, m1, m2, m3⟩).val + (L4.mk b0 b1 b2 b3).val = (L4.mk a0 a1 a2 a3).val + (L4.mk m0 m1 m2 m3).val) := by
  change RP _ (fun st : St => (⟨st.r12, st.r13, st.r14, st.r15⟩ : L4).Wf ∧ ((L4.mk b0 b1 b2 b3).val ≤ (L4.mk a0 a1 a2 a3).val → (⟨st.r12, st.r13, st.r14, st.r15⟩ : L4).val + (L4.mk b0 b1 b2 b3).val = (L4.mk a0 a1 a2 a3).val) ∧ ((L4.mk a0 a1 a2 a3).val < (L4.mk b0 b1 b2 b3).val → (⟨st.r12, st.r13, st.r14, st.r15⟩ : L4).val + (L4.mk b0 b1 b2 b3).val = (L4.mk a0 a1 a2 a3).val + (L4.mk m0 m1 m2 m3).val)) subProg st
  unfold subProg
  refine xor_step ?_
  change RP _ _ _ ⟨st.rax, st.rcx, st.rdx, st.r8, st.r9, st.r10, st.r11, 0, st.r13, st.r14, st.r15, 0, true⟩
  refine xor_step ?_
  change RP _ _ _ ⟨st.rax, st.rcx, st.rdx, st.r8, st.r9, st.r10, st.r11, 0, 0, st.r14, st.r15, 0, true⟩
  refine xor_step ?_
  change RP _ _ _ ⟨st.rax, st.rcx, st.rdx, st.r8, st.r9, st.r10, st.r11, 0, 0, 0, st.r15, 0, true⟩
  refine xor_step ?_
  change RP _ _ _ ⟨st.rax, st.rcx, st.rdx, st.r8, st.r9, st.r10, st.r11, 0, 0, 0, 0, 0, true⟩
  refine mov_step ?_
  change RP _ _ _ ⟨st.rax, st.rcx, st.rdx, a0, st.r9, st.r10, st.r11, 0, 0, 0, 0, 0, true⟩
  refine mov_step ?_
  change RP _ _ _ ⟨st.rax, st.rcx, st.rdx, a0, a1, st.r10, st.r11, 0, 0, 0, 0, 0, true⟩
  refine mov_step ?_
  change RP _ _ _ ⟨st.rax, st.rcx, st.rdx, a0, a1, a2, st.r11, 0, 0, 0, 0, 0, true⟩
  refine mov_step ?_
  change RP _ _ _ ⟨st.rax, st.rcx, st.rdx, a0, a1, a2, a3, 0, 0, 0, 0, 0, true⟩
  refine sub_step ha0 hb0 fun v0 k0 (E0 : v0 + b0 = a0 + 2^64 * k0) (Q0 : v0 < 2^64) (B0 : k0 ≤ 1) z0 => ?_
  change RP _ _ _ ⟨st.rax, st.rcx, st.rdx, v0, a1, a2, a3, 0, 0, 0, 0, k0, z0⟩
  refine sbb_step ha1 hb1 B0 fun v1 k1 (E1 : v1 + (b1 + k0) = a1 + 2^64 * k1) (Q1 : v1 < 2^64) (B1 : k1 ≤ 1) z1 => ?_
  change RP _ _ _ ⟨st.rax, st.rcx, st.rdx, v0, v1, a2, a3, 0, 0, 0, 0, k1, z1⟩
  refine sbb_step ha2 hb2 B1 fun v2 k2 (E2 : v2 + (b2 + k1) = a2 + 2^64 * k2) (Q2 : v2 < 2^64) (B2 : k2 ≤ 1) z2 => ?_
  change RP _ _ _ ⟨st.rax, st.rcx, st.rdx, v0, v1, v2, a3, 0, 0, 0, 0, k2, z2⟩
  refine sbb_step ha3 hb3 B2 fun v3 k3 (E3 : v3 + (b3 + k2) = a3 + 2^64 * k3) (Q3 : v3 < 2^64) (B3 : k3 ≤ 1) z3 => ?_
  change RP _ _ _ ⟨st.rax, st.rcx, st.rdx, v0, v1, v2, v3, 0, 0, 0, 0, k3, z3⟩
  obtain rfl | rfl : k3 = 0 ∨ k3 = 1 := by omega
  · refine cmovc_skip rfl ?_
    refine cmovc_skip rfl ?_
    refine cmovc_skip rfl ?_
    refine cmovc_skip rfl ?_
    refine add_step fun v4 c4 (E4 : v4 + 2^64 * c4 = 0 + v0) (Q4 : v4 < 2^64) z4 => ?_
    change RP _ _ _ ⟨st.rax, st.rcx, st.rdx, v0, v1, v2, v3, v4, 0, 0, 0, c4, z4⟩
    refine adc_step fun v5 c5 (E5 : v5 + 2^64 * c5 = 0 + v1 + c4) (Q5 : v5 < 2^64) z5 => ?_
    change RP _ _ _ ⟨st.rax, st.rcx, st.rdx, v0, v1, v2, v3, v4, v5, 0, 0, c5, z5⟩
    refine adc_step fun v6 c6 (E6 : v6 + 2^64 * c6 = 0 + v2 + c5) (Q6 : v6 < 2^64) z6 => ?_
    change RP _ _ _ ⟨st.rax, st.rcx, st.rdx, v0, v1, v2, v3, v4, v5, v6, 0, c6, z6⟩
    refine adc_step fun v7 c7 (E7 : v7 + 2^64 * c7 = 0 + v3 + c6) (Q7 : v7 < 2^64) z7 => ?_
    change RP _ _ _ ⟨st.rax, st.rcx, st.rdx, v0, v1, v2, v3, v4, v5, v6, v7, c7, z7⟩
    have G0 : (L4.mk v0 v1 v2 v3).val + (L4.mk b0 b1 b2 b3).val = (L4.mk a0 a1 a2 a3).val + 2^256 * 0 := by
      unfold L4.val
      linear_combination 2^0 * E0 + 2^64 * E1 + 2^128 * E2 + 2^192 * E3
    have G4 : (L4.mk v4 v5 v6 v7).val + 2^256 * c7 = (L4.mk 0 0 0 0).val + (L4.mk v0 v1 v2 v3).val := by
      unfold L4.val
      linear_combination 2^0 * E4 + 2^64 * E5 + 2^128 * E6 + 2^192 * E7
    have T0 : (L4.mk v0 v1 v2 v3).val < 2^256 := L4.Wf.val_lt ⟨Q0, Q1, Q2, Q3⟩
    have T1 : (L4.mk a0 a1 a2 a3).val < 2^256 := L4.Wf.val_lt ⟨ha0, ha1, ha2, ha3⟩
    have T2 : (L4.mk b0 b1 b2 b3).val < 2^256 := L4.Wf.val_lt ⟨hb0, hb1, hb2, hb3⟩
    have T3 : (L4.mk v4 v5 v6 v7).val < 2^256 := L4.Wf.val_lt ⟨Q4, Q5, Q6, Q7⟩
    have T4 : (L4.mk 0 0 0 0).val < 2^256 := L4.Wf.val_lt ⟨(by norm_num), (by norm_num), (by norm_num), (by norm_num)⟩
    have T0 : (L4.mk 0 0 0 0).val = 0 := rfl
    have F : ((L4.mk b0 b1 b2 b3).val ≤ (L4.mk a0 a1 a2 a3).val → (L4.mk v4 v5 v6 v7).val + (L4.mk b0 b1 b2 b3).val = (L4.mk a0 a1 a2 a3).val) ∧ ((L4.mk a0 a1 a2 a3).val < (L4.mk b0 b1 b2 b3).val → (L4.mk v4 v5 v6 v7).val + (L4.mk b0 b1 b2 b3).val = (L4.mk a0 a1 a2 a3).val + (L4.mk m0 m1 m2 m3).val) := by
      generalize (L4.mk v0 v1 v2 v3).val = x0 at *
      generalize (L4.mk a0 a1 a2 a3).val = x1 at *
      generalize (L4.mk b0 b1 b2 b3).val = x2 at *
      generalize (L4.mk v4 v5 v6 v7).val = x3 at *
      generalize (L4.mk 0 0 0 0).val = x4 at *
      clear * - h G0 G4 T0 T1 T2 T3 T4 T0
      omega
    exact ⟨⟨Q4, Q5, Q6, Q7⟩, F⟩
  · refine cmovc_take rfl ?_
    change RP _ _ _ ⟨st.rax, st.rcx, st.rdx, v0, v1, v2, v3, m0, 0, 0, 0, 1, z3⟩
    refine cmovc_take rfl ?_
    change RP _ _ _ ⟨st.rax, st.rcx, st.rdx, v0, v1, v2, v3, m0, m1, 0, 0, 1, z3⟩
    refine cmovc_take rfl ?_
    change RP _ _ _ ⟨st.rax, st.rcx, st.rdx, v0, v1, v2, v3, m0, m1, m2, 0, 1, z3⟩
    refine cmovc_take rfl ?_
    change RP _ _ _ ⟨st.rax, st.rcx, st.rdx, v0, v1, v2, v3, m0, m1, m2, m3, 1, z3⟩
    refine add_step fun v4 c4 (E4 : v4 + 2^64 * c4 = m0 + v0) (Q4 : v4 < 2^64) z4 => ?_
    change RP _ _ _ ⟨st.rax, st.rcx, st.rdx, v0, v1, v2, v3, v4, m1, m2, m3, c4, z4⟩
    refine adc_step fun v5 c5 (E5 : v5 + 2^64 * c5 = m1 + v1 + c4) (Q5 : v5 < 2^64) z5 => ?_
    change RP _ _ _ ⟨st.rax, st.rcx, st.rdx, v0, v1, v2, v3, v4, v5, m2, m3, c5, z5⟩
    refine adc_step fun v6 c6 (E6 : v6 + 2^64 * c6 = m2 + v2 + c5) (Q6 : v6 < 2^64) z6 => ?_
    change RP _ _ _ ⟨st.rax, st.rcx, st.rdx, v0, v1, v2, v3, v4, v5, v6, m3, c6, z6⟩
    refine adc_step fun v7 c7 (E7 : v7 + 2^64 * c7 = m3 + v3 + c6) (Q7 : v7 < 2^64) z7 => ?_
    change RP _ _ _ ⟨st.rax, st.rcx, st.rdx, v0, v1, v2, v3, v4, v5, v6, v7, c7, z7⟩
    have G0 : (L4.mk v0 v1 v2 v3).val + (L4.mk b0 b1 b2 b3).val = (L4.mk a0 a1 a2 a3).val + 2^256 * 1 := by
      unfold L4.val
      linear_combination 2^0 * E0 + 2^64 * E1 + 2^128 * E2 + 2^192 * E3
    have G4 : (L4.mk v4 v5 v6 v7).val + 2^256 * c7 = (L4.mk m0 m1 m2 m3).val + (L4.mk v0 v1 v2 v3).val := by
      unfold L4.val
      linear_combination 2^0 * E4 + 2^64 * E5 + 2^128 * E6 + 2^192 * E7
    have T0 : (L4.mk v0 v1 v2 v3).val < 2^256 := L4.Wf.val_lt ⟨Q0, Q1, Q2, Q3⟩
    have T1 : (L4.mk a0 a1 a2 a3).val < 2^256 := L4.Wf.val_lt ⟨ha0, ha1, ha2, ha3⟩
    have T2 : (L4.mk b0 b1 b2 b3).val < 2^256 := L4.Wf.val_lt ⟨hb0, hb1, hb2, hb3⟩
    have T3 : (L4.mk v4 v5 v6 v7).val < 2^256 := L4.Wf.val_lt ⟨Q4, Q5, Q6, Q7⟩
    have T4 : (L4.mk m0 m1 m2 m3).val < 2^256 := L4.Wf.val_lt ⟨hm0, hm1, hm2, hm3⟩
    have F : ((L4.mk b0 b1 b2 b3).val ≤ (L4.mk a0 a1 a2 a3).val → (L4.mk v4 v5 v6 v7).val + (L4.mk b0 b1 b2 b3).val = (L4.mk a0 a1 a2 a3).val) ∧ ((L4.mk a0 a1 a2 a3).val < (L4.mk b0 b1 b2 b3).val → (L4.mk v4 v5 v6 v7).val + (L4.mk b0 b1 b2 b3).val = (L4.mk a0 a1 a2 a3).val + (L4.mk m0 m1 m2 m3).val) := by
      generalize (L4.mk v0 v1 v2 v3).val = x0 at *
      generalize (L4.mk a0 a1 a2 a3).val = x1 at *
      generalize (L4.mk b0 b1 b2 b3).val = x2 at *
      generalize (L4.mk v4 v5 v6 v7).val = x3 at *
      generalize (L4.mk m0 m1 m2 m3).val = x4 at *
      clear * - h G0 G4 T0 T1 T2 T3 T4
      omega
    exact ⟨⟨Q4, Q5, Q6, Q7⟩, F⟩

theorem mask_all {x : Nat} (h : x < 2^64) : x &&& 0xffffffffffffffff = x := by
  have := Nat.and_two_pow_sub_one_eq_mod x 64
  rw [show (0xffffffffffffffff : Nat) = 2^64 - 1 by norm_num, this, Nat.mod_eq_of_lt h]

theorem neg_run (st : St) {a0 a1 a2 a3 : Nat} {m0 m1 m2 m3 : Nat} (ha0 : a0 < 2^64) (ha1 : a1 < 2^64) (ha2 : a2 < 2^64) (ha3 : a3 < 2^64) (hm0 : m0 < 2^64) (hm1 : m1 < 2^64) (hm2 : m2 < 2^64) (hm3 : m3 < 2^64)
    (h : (L4.mk a0 a1 a2 a3).val < (L4.mk m0 m1 m2 m3).val) :
    (neg st ⟨a0, a1, a2, a3⟩ ⟨m0, m1, m2, m3⟩).Wf ∧ ((L4.mk a0 a1 a2 a3).val = 0 → (neg st ⟨a0, a1, a2, a3⟩ ⟨m0, m1, m2, m3⟩).val = 0) ∧ ((L4.mk a0 a1 a2 a3).val ≠ 0 → (neg st ⟨a0, a1, a2, a3⟩ ⟨m0, m1, m2, m3⟩).val + (L4.mk a0 a1 a2 a3).val = (L4.mk m0 m1 m2 m3).val) := by
  change RP _ (fun st : St => (⟨st.r8, st.r9, st.r10, st.r11⟩ : L4).Wf ∧ ((L4.mk a0 a1 a2 a3).val = 0 → (⟨st.r8, st.r9, st.r10, st.r11⟩ : L4).val = 0) ∧ ((L4.mk a0 a1 a2 a3).val ≠ 0 → (⟨st.r8, st.r9, st.r10, st.r11⟩ : L4).val + (L4.mk a0 a1 a2 a3).val = (L4.mk m0 m1 m2 m3).val)) negProg st
  unfold negProg
  refine mov_step ?_
  change RP _ _ _ ⟨st.rax, st.rcx, st.rdx, m0, st.r9, st.r10, st.r11, st.r12, st.r13, st.r14, st.r15, st.cf, st.zf⟩
  refine mov_step ?_
  change RP _ _ _ ⟨st.rax, st.rcx, st.rdx, m0, m1, st.r10, st.r11, st.r12, st.r13, st.r14, st.r15, st.cf, st.zf⟩
  refine mov_step ?_
  change RP _ _ _ ⟨st.rax, st.rcx, st.rdx, m0, m1, m2, st.r11, st.r12, st.r13, st.r14, st.r15, st.cf, st.zf⟩
  refine mov_step ?_
  change RP _ _ _ ⟨st.rax, st.rcx, st.rdx, m0, m1, m2, m3, st.r12, st.r13, st.r14, st.r15, st.cf, st.zf⟩
  refine sub_step hm0 ha0 fun v0 k0 (E0 : v0 + a0 = m0 + 2^64 * k0) (Q0 : v0 < 2^64) (B0 : k0 ≤ 1) z0 => ?_
  change RP _ _ _ ⟨st.rax, st.rcx, st.rdx, v0, m1, m2, m3, st.r12, st.r13, st.r14, st.r15, k0, z0⟩
  refine sbb_step hm1 ha1 B0 fun v1 k1 (E1 : v1 + (a1 + k0) = m1 + 2^64 * k1) (Q1 : v1 < 2^64) (B1 : k1 ≤ 1) z1 => ?_
  change RP _ _ _ ⟨st.rax, st.rcx, st.rdx, v0, v1, m2, m3, st.r12, st.r13, st.r14, st.r15, k1, z1⟩
  refine sbb_step hm2 ha2 B1 fun v2 k2 (E2 : v2 + (a2 + k1) = m2 + 2^64 * k2) (Q2 : v2 < 2^64) (B2 : k2 ≤ 1) z2 => ?_
  change RP _ _ _ ⟨st.rax, st.rcx, st.rdx, v0, v1, v2, m3, st.r12, st.r13, st.r14, st.r15, k2, z2⟩
  refine sbb_step hm3 ha3 B2 fun v3 k3 (E3 : v3 + (a3 + k2) = m3 + 2^64 * k3) (Q3 : v3 < 2^64) (B3 : k3 ≤ 1) z3 => ?_
  change RP _ _ _ ⟨st.rax, st.rcx, st.rdx, v0, v1, v2, v3, st.r12, st.r13, st.r14, st.r15, k3, z3⟩
  refine mov_step ?_
  change RP _ _ _ ⟨st.rax, st.rcx, st.rdx, v0, v1, v2, v3, a0, st.r13, st.r14, st.r15, k3, z3⟩
  refine mov_step ?_
  change RP _ _ _ ⟨st.rax, st.rcx, st.rdx, v0, v1, v2, v3, a0, a1, st.r14, st.r15, k3, z3⟩
  refine mov_step ?_
  change RP _ _ _ ⟨st.rax, st.rcx, st.rdx, v0, v1, v2, v3, a0, a1, a2, st.r15, k3, z3⟩
  refine mov_step ?_
  change RP _ _ _ ⟨st.rax, st.rcx, st.rdx, v0, v1, v2, v3, a0, a1, a2, a3, k3, z3⟩
  refine or_step ?_
  refine or_step ?_
  refine or_step ?_
  refine mov_step ?_
  refine cmp_step ?_
  have hz : (((a0 ||| a1) ||| (a2 ||| a3)) == 0) = decide ((L4.mk a0 a1 a2 a3).val = 0) := by
    have e1 : (((a0 ||| a1) ||| (a2 ||| a3)) = 0) ↔ (L4.mk a0 a1 a2 a3).val = 0 := by
      simp only [Nat.or_eq_zero_iff, L4.val]; omega
    rw [Bool.eq_iff_iff, beq_iff_eq, decide_eq_true_iff]; exact e1
  change RP _ _ _ ⟨st.rax, st.rcx, st.rdx, v0, v1, v2, v3, ((a0 ||| a1) ||| (a2 ||| a3)), 0xffffffffffffffff, a2 ||| a3, a3, if ((a0 ||| a1) ||| (a2 ||| a3)) < 0 then 1 else 0, ((a0 ||| a1) ||| (a2 ||| a3)) == 0⟩
  rw [hz]
  have key : (L4.mk v0 v1 v2 v3).val + (L4.mk a0 a1 a2 a3).val = (L4.mk m0 m1 m2 m3).val := by
    have G0 : (L4.mk v0 v1 v2 v3).val + (L4.mk a0 a1 a2 a3).val = (L4.mk m0 m1 m2 m3).val + 2^256 * k3 := by
      unfold L4.val
      linear_combination 2^0 * E0 + 2^64 * E1 + 2^128 * E2 + 2^192 * E3
    have T0 : (L4.mk v0 v1 v2 v3).val < 2^256 := L4.Wf.val_lt ⟨Q0, Q1, Q2, Q3⟩
    have T1 : (L4.mk m0 m1 m2 m3).val < 2^256 := L4.Wf.val_lt ⟨hm0, hm1, hm2, hm3⟩
    have T2 : (L4.mk a0 a1 a2 a3).val < 2^256 := L4.Wf.val_lt ⟨ha0, ha1, ha2, ha3⟩
    generalize (L4.mk v0 v1 v2 v3).val = x0 at *
    generalize (L4.mk m0 m1 m2 m3).val = x1 at *
    generalize (L4.mk a0 a1 a2 a3).val = x2 at *
    clear * - h G0 T0 T1 T2
    omega
  by_cases h0 : (L4.mk a0 a1 a2 a3).val = 0
  · refine cmove_take (decide_eq_true h0) ?_
    refine and_step ?_
    refine and_step ?_
    refine and_step ?_
    refine and_step ?_
    have h1 : ((a0 ||| a1) ||| (a2 ||| a3)) = 0 := by simpa using hz.trans (decide_eq_true h0)
    change (⟨v0 &&& ((a0 ||| a1) ||| (a2 ||| a3)), v1 &&& ((a0 ||| a1) ||| (a2 ||| a3)), v2 &&& ((a0 ||| a1) ||| (a2 ||| a3)), v3 &&& ((a0 ||| a1) ||| (a2 ||| a3))⟩ : L4).Wf ∧ (_ → (⟨v0 &&& ((a0 ||| a1) ||| (a2 ||| a3)), v1 &&& ((a0 ||| a1) ||| (a2 ||| a3)), v2 &&& ((a0 ||| a1) ||| (a2 ||| a3)), v3 &&& ((a0 ||| a1) ||| (a2 ||| a3))⟩ : L4).val = _) ∧ (_ → (⟨v0 &&& ((a0 ||| a1) ||| (a2 ||| a3)), v1 &&& ((a0 ||| a1) ||| (a2 ||| a3)), v2 &&& ((a0 ||| a1) ||| (a2 ||| a3)), v3 &&& ((a0 ||| a1) ||| (a2 ||| a3))⟩ : L4).val + _ = _)
    rw [h1]
    simp only [Nat.and_zero]
    exact ⟨by decide, fun _ => rfl, fun h => absurd h0 h⟩
  · refine cmove_skip (decide_eq_false h0) ?_
    refine and_step ?_
    refine and_step ?_
    refine and_step ?_
    refine and_step ?_
    change (⟨v0 &&& 0xffffffffffffffff, v1 &&& 0xffffffffffffffff, v2 &&& 0xffffffffffffffff, v3 &&& 0xffffffffffffffff⟩ : L4).Wf ∧ (_ → (⟨v0 &&& 0xffffffffffffffff, v1 &&& 0xffffffffffffffff, v2 &&& 0xffffffffffffffff, v3 &&& 0xffffffffffffffff⟩ : L4).val = _) ∧ (_ → (⟨v0 &&& 0xffffffffffffffff, v1 &&& 0xffffffffffffffff, v2 &&& 0xffffffffffffffff, v3 &&& 0xffffffffffffffff⟩ : L4).val + _ = _)
    rw [mask_all Q0, mask_all Q1, mask_all Q2, mask_all Q3]
    exact ⟨⟨Q0, Q1, Q2, Q3⟩, fun h => absurd h h0, fun _ => key⟩

/-- The instructions after the reduction of `mul`. -/
def mulTail : List Ins :=
  [.mov .r8 (.reg .r12),
   .mov .r9 (.reg .r13),
   .mov .r10 (.reg .r14),
   .mov .r11 (.reg .r15),
   .sub .r8 (.mem .m 0),
   .sbb .r9 (.mem .m 1),
   .sbb .r10 (.mem .m 2),
   .sbb .r11 (.mem .m 3),
   .cmovc .r8 (.reg .r12),
   .cmovc .r9 (.reg .r13),
   .cmovc .r10 (.reg .r14),
   .cmovc .r11 (.reg .r15),
   .mov .r12 (.reg .r8),
   .mov .r13 (.reg .r9),
   .mov .r14 (.reg .r10),
   .mov .r15 (.reg .r11),
   .sub .r12 (.mem .m 0),
   .sbb .r13 (.mem .m 1),
   .sbb .r14 (.mem .m 2),
   .sbb .r15 (.mem .m 3),
   .cmovc .r12 (.reg .r8),
   .cmovc .r13 (.reg .r9),
   .cmovc .r14 (.reg .r10),
   .cmovc .r15 (.reg .r11)]

/-- The instructions after the reduction of `square`. -/
def squareTail : List Ins :=
  [.mov .r8 (.reg .r12),
   .mov .r9 (.reg .r13),
   .mov .r10 (.reg .r14),
   .mov .r11 (.reg .r15),
   .sub .r8 (.mem .m 0),
   .sbb .r9 (.mem .m 1),
   .sbb .r10 (.mem .m 2),
   .sbb .r11 (.mem .m 3),
   .cmovc .r8 (.reg .r12),
   .cmovc .r9 (.reg .r13),
   .cmovc .r10 (.reg .r14),
   .cmovc .r11 (.reg .r15)]

/-- The second conditional subtraction, whose result nobody reads. -/
def mulTail2 : List Ins :=
  [.mov .r12 (.reg .r8),
   .mov .r13 (.reg .r9),
   .mov .r14 (.reg .r10),
   .mov .r15 (.reg .r11),
   .sub .r12 (.mem .m 0),
   .sbb .r13 (.mem .m 1),
   .sbb .r14 (.mem .m 2),
   .sbb .r15 (.mem .m 3),
   .cmovc .r12 (.reg .r8),
   .cmovc .r13 (.reg .r9),
   .cmovc .r14 (.reg .r10),
   .cmovc .r15 (.reg .r11)]

theorem tail2 {ma mb : L4} {m0 m1 m2 m3 x0 x1 x2 x3 x4 x5 x6 x7 x8 x9 x10 y0 : Nat} {y1 : Bool} {R : L4 → Prop}
    (h0 : x3 < 2^64) (h1 : x4 < 2^64) (h2 : x5 < 2^64) (h3 : x6 < 2^64)
    (hm0 : m0 < 2^64) (hm1 : m1 < 2^64) (hm2 : m2 < 2^64) (hm3 : m3 < 2^64)
    (hp : R ⟨x3, x4, x5, x6⟩) :
    RP ⟨ma, mb, ⟨m0, m1, m2, m3⟩⟩ (fun st : St => R ⟨st.r8, st.r9, st.r10, st.r11⟩) mulTail2
      ⟨x0, x1, x2, x3, x4, x5, x6, x7, x8, x9, x10, y0, y1⟩ := by
  unfold mulTail2
  refine mov_step ?_
  change RP _ _ _ ⟨x0, x1, x2, x3, x4, x5, x6, x3, x8, x9, x10, y0, y1⟩
  refine mov_step ?_
  change RP _ _ _ ⟨x0, x1, x2, x3, x4, x5, x6, x3, x4, x9, x10, y0, y1⟩
  refine mov_step ?_
  change RP _ _ _ ⟨x0, x1, x2, x3, x4, x5, x6, x3, x4, x5, x10, y0, y1⟩
  refine mov_step ?_
  change RP _ _ _ ⟨x0, x1, x2, x3, x4, x5, x6, x3, x4, x5, x6, y0, y1⟩
  refine sub_step h0 hm0 fun v0 k0 (E0 : v0 + m0 = x3 + 2^64 * k0) (Q0 : v0 < 2^64) (B0 : k0 ≤ 1) z0 => ?_
  change RP _ _ _ ⟨x0, x1, x2, x3, x4, x5, x6, v0, x4, x5, x6, k0, z0⟩
  refine sbb_step h1 hm1 B0 fun v1 k1 (E1 : v1 + (m1 + k0) = x4 + 2^64 * k1) (Q1 : v1 < 2^64) (B1 : k1 ≤ 1) z1 => ?_
  change RP _ _ _ ⟨x0, x1, x2, x3, x4, x5, x6, v0, v1, x5, x6, k1, z1⟩
  refine sbb_step h2 hm2 B1 fun v2 k2 (E2 : v2 + (m2 + k1) = x5 + 2^64 * k2) (Q2 : v2 < 2^64) (B2 : k2 ≤ 1) z2 => ?_
  change RP _ _ _ ⟨x0, x1, x2, x3, x4, x5, x6, v0, v1, v2, x6, k2, z2⟩
  refine sbb_step h3 hm3 B2 fun v3 k3 (E3 : v3 + (m3 + k2) = x6 + 2^64 * k3) (Q3 : v3 < 2^64) (B3 : k3 ≤ 1) z3 => ?_
  change RP _ _ _ ⟨x0, x1, x2, x3, x4, x5, x6, v0, v1, v2, v3, k3, z3⟩
  obtain rfl | rfl : k3 = 0 ∨ k3 = 1 := by omega
  · refine cmovc_skip rfl ?_
    refine cmovc_skip rfl ?_
    refine cmovc_skip rfl ?_
    refine cmovc_skip rfl ?_
    exact hp
  · refine cmovc_take rfl ?_
    change RP _ _ _ ⟨x0, x1, x2, x3, x4, x5, x6, x3, v1, v2, v3, 1, z3⟩
    refine cmovc_take rfl ?_
    change RP _ _ _ ⟨x0, x1, x2, x3, x4, x5, x6, x3, x4, v2, v3, 1, z3⟩
    refine cmovc_take rfl ?_
    change RP _ _ _ ⟨x0, x1, x2, x3, x4, x5, x6, x3, x4, x5, v3, 1, z3⟩
    refine cmovc_take rfl ?_
    change RP _ _ _ ⟨x0, x1, x2, x3, x4, x5, x6, x3, x4, x5, x6, 1, z3⟩
    exact hp

theorem squareTail_run {mem : Mem} {x0 x1 x2 x3 x4 x5 x6 w0 w1 w2 w3 y0 m0 m1 m2 m3 : Nat} {y1 : Bool}
    (hm : mem.m = ⟨m0, m1, m2, m3⟩) (hm0 : m0 < 2^64) (hm1 : m1 < 2^64) (hm2 : m2 < 2^64) (hm3 : m3 < 2^64)
    (hw0 : w0 < 2^64) (hw1 : w1 < 2^64) (hw2 : w2 < 2^64) (hw3 : w3 < 2^64) :
    RP mem (fun st : St => (⟨st.r8, st.r9, st.r10, st.r11⟩ : L4).Wf ∧ ((L4.mk w0 w1 w2 w3).val < (L4.mk m0 m1 m2 m3).val → (⟨st.r8, st.r9, st.r10, st.r11⟩ : L4).val = (L4.mk w0 w1 w2 w3).val) ∧
      ((L4.mk m0 m1 m2 m3).val ≤ (L4.mk w0 w1 w2 w3).val → (⟨st.r8, st.r9, st.r10, st.r11⟩ : L4).val + (L4.mk m0 m1 m2 m3).val = (L4.mk w0 w1 w2 w3).val))
      squareTail ⟨x0, x1, x2, x3, x4, x5, x6, w0, w1, w2, w3, y0, y1⟩ := by
  obtain ⟨ma, mb, mm⟩ := mem
  subst hm
  unfold squareTail
  refine mov_step ?_
  change RP _ _ _ ⟨x0, x1, x2, w0, x4, x5, x6, w0, w1, w2, w3, y0, y1⟩
  refine mov_step ?_
  change RP _ _ _ ⟨x0, x1, x2, w0, w1, x5, x6, w0, w1, w2, w3, y0, y1⟩
  refine mov_step ?_
  change RP _ _ _ ⟨x0, x1, x2, w0, w1, w2, x6, w0, w1, w2, w3, y0, y1⟩
  refine mov_step ?_
  change RP _ _ _ ⟨x0, x1, x2, w0, w1, w2, w3, w0, w1, w2, w3, y0, y1⟩
  refine sub_step hw0 hm0 fun v0 k0 (E0 : v0 + m0 = w0 + 2^64 * k0) (Q0 : v0 < 2^64) (B0 : k0 ≤ 1) z0 => ?_
  change RP _ _ _ ⟨x0, x1, x2, v0, w1, w2, w3, w0, w1, w2, w3, k0, z0⟩
  refine sbb_step hw1 hm1 B0 fun v1 k1 (E1 : v1 + (m1 + k0) = w1 + 2^64 * k1) (Q1 : v1 < 2^64) (B1 : k1 ≤ 1) z1 => ?_
  change RP _ _ _ ⟨x0, x1, x2, v0, v1, w2, w3, w0, w1, w2, w3, k1, z1⟩
  refine sbb_step hw2 hm2 B1 fun v2 k2 (E2 : v2 + (m2 + k1) = w2 + 2^64 * k2) (Q2 : v2 < 2^64) (B2 : k2 ≤ 1) z2 => ?_
  change RP _ _ _ ⟨x0, x1, x2, v0, v1, v2, w3, w0, w1, w2, w3, k2, z2⟩
  refine sbb_step hw3 hm3 B2 fun v3 k3 (E3 : v3 + (m3 + k2) = w3 + 2^64 * k3) (Q3 : v3 < 2^64) (B3 : k3 ≤ 1) z3 => ?_
  change RP _ _ _ ⟨x0, x1, x2, v0, v1, v2, v3, w0, w1, w2, w3, k3, z3⟩
  obtain rfl | rfl : k3 = 0 ∨ k3 = 1 := by omega
  · refine cmovc_skip rfl ?_
    refine cmovc_skip rfl ?_
    refine cmovc_skip rfl ?_
    refine cmovc_skip rfl ?_
    have G0 : (L4.mk v0 v1 v2 v3).val + (L4.mk m0 m1 m2 m3).val = (L4.mk w0 w1 w2 w3).val + 2^256 * 0 := by
      unfold L4.val
      linear_combination 2^0 * E0 + 2^64 * E1 + 2^128 * E2 + 2^192 * E3
    have T0 : (L4.mk v0 v1 v2 v3).val < 2^256 := L4.Wf.val_lt ⟨Q0, Q1, Q2, Q3⟩
    have T1 : (L4.mk w0 w1 w2 w3).val < 2^256 := L4.Wf.val_lt ⟨hw0, hw1, hw2, hw3⟩
    have T2 : (L4.mk m0 m1 m2 m3).val < 2^256 := L4.Wf.val_lt ⟨hm0, hm1, hm2, hm3⟩
    have F : ((L4.mk w0 w1 w2 w3).val < (L4.mk m0 m1 m2 m3).val → (L4.mk v0 v1 v2 v3).val = (L4.mk w0 w1 w2 w3).val) ∧ ((L4.mk m0 m1 m2 m3).val ≤ (L4.mk w0 w1 w2 w3).val → (L4.mk v0 v1 v2 v3).val + (L4.mk m0 m1 m2 m3).val = (L4.mk w0 w1 w2 w3).val) := by
      generalize (L4.mk v0 v1 v2 v3).val = x0 at *
      generalize (L4.mk w0 w1 w2 w3).val = x1 at *
      generalize (L4.mk m0 m1 m2 m3).val = x2 at *
      clear * - G0 T0 T1 T2
      omega
    exact ⟨⟨Q0, Q1, Q2, Q3⟩, F⟩
  · refine cmovc_take rfl ?_
    change RP _ _ _ ⟨x0, x1, x2, w0, v1, v2, v3, w0, w1, w2, w3, 1, z3⟩
    refine cmovc_take rfl ?_
    change RP _ _ _ ⟨x0, x1, x2, w0, w1, v2, v3, w0, w1, w2, w3, 1, z3⟩
    refine cmovc_take rfl ?_
    change RP _ _ _ ⟨x0, x1, x2, w0, w1, w2, v3, w0, w1, w2, w3, 1, z3⟩
    refine cmovc_take rfl ?_
    change RP _ _ _ ⟨x0, x1, x2, w0, w1, w2, w3, w0, w1, w2, w3, 1, z3⟩
    have G0 : (L4.mk v0 v1 v2 v3).val + (L4.mk m0 m1 m2 m3).val = (L4.mk w0 w1 w2 w3).val + 2^256 * 1 := by
      unfold L4.val
      linear_combination 2^0 * E0 + 2^64 * E1 + 2^128 * E2 + 2^192 * E3
    have T0 : (L4.mk v0 v1 v2 v3).val < 2^256 := L4.Wf.val_lt ⟨Q0, Q1, Q2, Q3⟩
    have T1 : (L4.mk w0 w1 w2 w3).val < 2^256 := L4.Wf.val_lt ⟨hw0, hw1, hw2, hw3⟩
    have T2 : (L4.mk m0 m1 m2 m3).val < 2^256 := L4.Wf.val_lt ⟨hm0, hm1, hm2, hm3⟩
    have F : ((L4.mk w0 w1 w2 w3).val < (L4.mk m0 m1 m2 m3).val → (L4.mk w0 w1 w2 w3).val = (L4.mk w0 w1 w2 w3).val) ∧ ((L4.mk m0 m1 m2 m3).val ≤ (L4.mk w0 w1 w2 w3).val → (L4.mk w0 w1 w2 w3).val + (L4.mk m0 m1 m2 m3).val = (L4.mk w0 w1 w2 w3).val) := by
      generalize (L4.mk v0 v1 v2 v3).val = x0 at *
      generalize (L4.mk w0 w1 w2 w3).val = x1 at *
      generalize (L4.mk m0 m1 m2 m3).val = x2 at *
      clear * - G0 T0 T1 T2
      omega
    exact ⟨⟨hw0, hw1, hw2, hw3⟩, F⟩

theorem tail_run {mem : Mem} {x0 x1 x2 x3 x4 x5 x6 w0 w1 w2 w3 y0 m0 m1 m2 m3 : Nat} {y1 : Bool}
    (hm : mem.m = ⟨m0, m1, m2, m3⟩) (hm0 : m0 < 2^64) (hm1 : m1 < 2^64) (hm2 : m2 < 2^64) (hm3 : m3 < 2^64)
    (hw0 : w0 < 2^64) (hw1 : w1 < 2^64) (hw2 : w2 < 2^64) (hw3 : w3 < 2^64) :
    RP mem (fun st : St => (⟨st.r8, st.r9, st.r10, st.r11⟩ : L4).Wf ∧ ((L4.mk w0 w1 w2 w3).val < (L4.mk m0 m1 m2 m3).val → (⟨st.r8, st.r9, st.r10, st.r11⟩ : L4).val = (L4.mk w0 w1 w2 w3).val) ∧
      ((L4.mk m0 m1 m2 m3).val ≤ (L4.mk w0 w1 w2 w3).val → (⟨st.r8, st.r9, st.r10, st.r11⟩ : L4).val + (L4.mk m0 m1 m2 m3).val = (L4.mk w0 w1 w2 w3).val))
      mulTail ⟨x0, x1, x2, x3, x4, x5, x6, w0, w1, w2, w3, y0, y1⟩ := by
  obtain ⟨ma, mb, mm⟩ := mem
  subst hm
  unfold mulTail
  refine mov_step ?_
  change RP _ _ _ ⟨x0, x1, x2, w0, x4, x5, x6, w0, w1, w2, w3, y0, y1⟩
  refine mov_step ?_
  change RP _ _ _ ⟨x0, x1, x2, w0, w1, x5, x6, w0, w1, w2, w3, y0, y1⟩
  refine mov_step ?_
  change RP _ _ _ ⟨x0, x1, x2, w0, w1, w2, x6, w0, w1, w2, w3, y0, y1⟩
  refine mov_step ?_
  change RP _ _ _ ⟨x0, x1, x2, w0, w1, w2, w3, w0, w1, w2, w3, y0, y1⟩
  refine sub_step hw0 hm0 fun v0 k0 (E0 : v0 + m0 = w0 + 2^64 * k0) (Q0 : v0 < 2^64) (B0 : k0 ≤ 1) z0 => ?_
  change RP _ _ _ ⟨x0, x1, x2, v0, w1, w2, w3, w0, w1, w2, w3, k0, z0⟩
  refine sbb_step hw1 hm1 B0 fun v1 k1 (E1 : v1 + (m1 + k0) = w1 + 2^64 * k1) (Q1 : v1 < 2^64) (B1 : k1 ≤ 1) z1 => ?_
  change RP _ _ _ ⟨x0, x1, x2, v0, v1, w2, w3, w0, w1, w2, w3, k1, z1⟩
  refine sbb_step hw2 hm2 B1 fun v2 k2 (E2 : v2 + (m2 + k1) = w2 + 2^64 * k2) (Q2 : v2 < 2^64) (B2 : k2 ≤ 1) z2 => ?_
  change RP _ _ _ ⟨x0, x1, x2, v0, v1, v2, w3, w0, w1, w2, w3, k2, z2⟩
  refine sbb_step hw3 hm3 B2 fun v3 k3 (E3 : v3 + (m3 + k2) = w3 + 2^64 * k3) (Q3 : v3 < 2^64) (B3 : k3 ≤ 1) z3 => ?_
  change RP _ _ _ ⟨x0, x1, x2, v0, v1, v2, v3, w0, w1, w2, w3, k3, z3⟩
  obtain rfl | rfl : k3 = 0 ∨ k3 = 1 := by omega
  · refine cmovc_skip rfl ?_
    refine cmovc_skip rfl ?_
    refine cmovc_skip rfl ?_
    refine cmovc_skip rfl ?_
    have G0 : (L4.mk v0 v1 v2 v3).val + (L4.mk m0 m1 m2 m3).val = (L4.mk w0 w1 w2 w3).val + 2^256 * 0 := by
      unfold L4.val
      linear_combination 2^0 * E0 + 2^64 * E1 + 2^128 * E2 + 2^192 * E3
    have T0 : (L4.mk v0 v1 v2 v3).val < 2^256 := L4.Wf.val_lt ⟨Q0, Q1, Q2, Q3⟩
    have T1 : (L4.mk w0 w1 w2 w3).val < 2^256 := L4.Wf.val_lt ⟨hw0, hw1, hw2, hw3⟩
    have T2 : (L4.mk m0 m1 m2 m3).val < 2^256 := L4.Wf.val_lt ⟨hm0, hm1, hm2, hm3⟩
    have F : ((L4.mk w0 w1 w2 w3).val < (L4.mk m0 m1 m2 m3).val → (L4.mk v0 v1 v2 v3).val = (L4.mk w0 w1 w2 w3).val) ∧ ((L4.mk m0 m1 m2 m3).val ≤ (L4.mk w0 w1 w2 w3).val → (L4.mk v0 v1 v2 v3).val + (L4.mk m0 m1 m2 m3).val = (L4.mk w0 w1 w2 w3).val) := by
      generalize (L4.mk v0 v1 v2 v3).val = x0 at *
      generalize (L4.mk w0 w1 w2 w3).val = x1 at *
      generalize (L4.mk m0 m1 m2 m3).val = x2 at *
      clear * - G0 T0 T1 T2
      omega
    change RP _ _ mulTail2 _
    refine tail2 (R := fun o => o.Wf ∧ ((L4.mk w0 w1 w2 w3).val < (L4.mk m0 m1 m2 m3).val → o.val = (L4.mk w0 w1 w2 w3).val) ∧ ((L4.mk m0 m1 m2 m3).val ≤ (L4.mk w0 w1 w2 w3).val → o.val + (L4.mk m0 m1 m2 m3).val = (L4.mk w0 w1 w2 w3).val)) Q0 Q1 Q2 Q3 hm0 hm1 hm2 hm3 ⟨⟨Q0, Q1, Q2, Q3⟩, F⟩
  · refine cmovc_take rfl ?_
    change RP _ _ _ ⟨x0, x1, x2, w0, v1, v2, v3, w0, w1, w2, w3, 1, z3⟩
    refine cmovc_take rfl ?_
    change RP _ _ _ ⟨x0, x1, x2, w0, w1, v2, v3, w0, w1, w2, w3, 1, z3⟩
    refine cmovc_take rfl ?_
    change RP _ _ _ ⟨x0, x1, x2, w0, w1, w2, v3, w0, w1, w2, w3, 1, z3⟩
    refine cmovc_take rfl ?_
    change RP _ _ _ ⟨x0, x1, x2, w0, w1, w2, w3, w0, w1, w2, w3, 1, z3⟩
    have G0 : (L4.mk v0 v1 v2 v3).val + (L4.mk m0 m1 m2 m3).val = (L4.mk w0 w1 w2 w3).val + 2^256 * 1 := by
      unfold L4.val
      linear_combination 2^0 * E0 + 2^64 * E1 + 2^128 * E2 + 2^192 * E3
    have T0 : (L4.mk v0 v1 v2 v3).val < 2^256 := L4.Wf.val_lt ⟨Q0, Q1, Q2, Q3⟩
    have T1 : (L4.mk w0 w1 w2 w3).val < 2^256 := L4.Wf.val_lt ⟨hw0, hw1, hw2, hw3⟩
    have T2 : (L4.mk m0 m1 m2 m3).val < 2^256 := L4.Wf.val_lt ⟨hm0, hm1, hm2, hm3⟩
    have F : ((L4.mk w0 w1 w2 w3).val < (L4.mk m0 m1 m2 m3).val → (L4.mk w0 w1 w2 w3).val = (L4.mk w0 w1 w2 w3).val) ∧ ((L4.mk m0 m1 m2 m3).val ≤ (L4.mk w0 w1 w2 w3).val → (L4.mk w0 w1 w2 w3).val + (L4.mk m0 m1 m2 m3).val = (L4.mk w0 w1 w2 w3).val) := by
      generalize (L4.mk v0 v1 v2 v3).val = x0 at *
      generalize (L4.mk w0 w1 w2 w3).val = x1 at *
      generalize (L4.mk m0 m1 m2 m3).val = x2 at *
      clear * - G0 T0 T1 T2
      omega
    change RP _ _ mulTail2 _
    refine tail2 (R := fun o => o.Wf ∧ ((L4.mk w0 w1 w2 w3).val < (L4.mk m0 m1 m2 m3).val → o.val = (L4.mk w0 w1 w2 w3).val) ∧ ((L4.mk m0 m1 m2 m3).val ≤ (L4.mk w0 w1 w2 w3).val → o.val + (L4.mk m0 m1 m2 m3).val = (L4.mk w0 w1 w2 w3).val)) hw0 hw1 hw2 hw3 hm0 hm1 hm2 hm3 ⟨⟨hw0, hw1, hw2, hw3⟩, F⟩

end Kogarashi.Limbs.Asm
