import Verif.Limbs.AsmMul
import Verif.Limbs.AsmSquare
import Mathlib.Data.Nat.Prime.Basic

/-!
# The assembly blocks against the portable back end
-/

namespace Kogarashi.Limbs.Asm

open Kogarashi.Spec.AsmCarry

theorem add_eq (st : St) {a b p : L4} (ha : a.Wf) (hb : b.Wf) (hp : p.Wf) (h : a.val + b.val < 2^256) :
    add st a b p = B256.add a b p := by
  obtain ⟨w, hw, hv, e⟩ := B256.add_spec (p := p) ha hb h
  obtain ⟨s1, s2, s3⟩ := B256.sub_spec hw hp hp
  have r : (add st a b p).Wf ∧ (a.val + b.val < p.val → (add st a b p).val = a.val + b.val) ∧
      (p.val ≤ a.val + b.val → (add st a b p).val + p.val = a.val + b.val) :=
    add_run st ha.1 ha.2.1 ha.2.2.1 ha.2.2.2 hb.1 hb.2.1 hb.2.2.1 hb.2.2.2 hp.1 hp.2.1 hp.2.2.1
      hp.2.2.2 h
  obtain ⟨r1, r2, r3⟩ := r
  rw [e]
  refine L4.val_inj r1 s1 ?_
  rw [hv] at s2 s3
  generalize (add st a b p).val = x at *
  generalize (B256.sub w p p).val = y at *
  clear * - r2 r3 s2 s3
  omega

theorem double_eq (st : St) {a p : L4} (ha : a.Wf) (hp : p.Wf) (h : 2 * a.val < 2^256) :
    double st a p = B256.double a p := by
  obtain ⟨w, hw, hv, e⟩ := B256.double_spec (p := p) ha h
  obtain ⟨s1, s2, s3⟩ := B256.sub_spec hw hp hp
  have r : (double st a p).Wf ∧ (2 * a.val < p.val → (double st a p).val = 2 * a.val) ∧
      (p.val ≤ 2 * a.val → (double st a p).val + p.val = 2 * a.val) :=
    double_run st ha.1 ha.2.1 ha.2.2.1 ha.2.2.2 hp.1 hp.2.1 hp.2.2.1 hp.2.2.2 h
  obtain ⟨r1, r2, r3⟩ := r
  rw [e]
  refine L4.val_inj r1 s1 ?_
  rw [hv] at s2 s3
  generalize (double st a p).val = x at *
  generalize (B256.sub w p p).val = y at *
  clear * - r2 r3 s2 s3
  omega

theorem sub_eq (st : St) {a b p : L4} (ha : a.Wf) (hb : b.Wf) (hp : p.Wf) (h : b.val ≤ a.val + p.val) :
    sub st a b p = B256.sub a b p := by
  obtain ⟨s1, s2, s3⟩ := B256.sub_spec ha hb hp
  have r : (sub st a b p).Wf ∧ (b.val ≤ a.val → (sub st a b p).val + b.val = a.val) ∧
      (a.val < b.val → (sub st a b p).val + b.val = a.val + p.val) :=
    sub_run st ha.1 ha.2.1 ha.2.2.1 ha.2.2.2 hb.1 hb.2.1 hb.2.2.1 hb.2.2.2 hp.1 hp.2.1 hp.2.2.1
      hp.2.2.2 h
  obtain ⟨r1, r2, r3⟩ := r
  refine L4.val_inj r1 s1 ?_
  generalize (sub st a b p).val = x at *
  generalize (B256.sub a b p).val = y at *
  clear * - r2 r3 s2 s3 h
  omega

theorem neg_eq (st : St) {a p : L4} (ha : a.Wf) (hp : p.Wf) (h : a.val < p.val) :
    neg st a p = B256.neg a p := by
  obtain ⟨s1, s2, s3⟩ := B256.neg_spec ha hp h
  have r : (neg st a p).Wf ∧ (a.val = 0 → (neg st a p).val = 0) ∧
      (a.val ≠ 0 → (neg st a p).val + a.val = p.val) :=
    neg_run st ha.1 ha.2.1 ha.2.2.1 ha.2.2.2 hp.1 hp.2.1 hp.2.2.1 hp.2.2.2 h
  obtain ⟨r1, r2, r3⟩ := r
  refine L4.val_inj r1 s1 ?_
  generalize (neg st a p).val = x at *
  generalize (B256.neg a p).val = y at *
  clear * - r2 r3 s2 s3
  omega

/-- Two Montgomery representatives of the same product reduce to the same residue. -/
theorem same_residue {W w X q q' M x y : Nat} (hodd : M % 2 = 1)
    (hW : W * 2^256 = X + q * M) (hw : w * 2^256 = X + q' * M)
    (hW2 : W < 2 * M) (hw2 : w < 2 * M)
    (x1 : W < M → x = W) (x2 : M ≤ W → x + M = W) (y1 : w < M → y = w) (y2 : M ≤ w → y + M = w) :
    x = y := by
  have hcop : Nat.gcd M (2^256) = 1 := by
    refine Nat.Coprime.pow_right _ ?_
    exact Nat.coprime_two_right.2 (Nat.odd_iff.2 hodd)
  have hm : W * 2^256 ≡ w * 2^256 [MOD M] := by
    rw [hW, hw]
    exact (Nat.modEq_iff_dvd.2 ⟨(q' : Int) - q, by push_cast; ring⟩)
  have hm := Nat.ModEq.cancel_right_of_coprime hcop hm
  have h1 : W % M = x := by
    rcases Nat.lt_or_ge W M with h | h
    · rw [Nat.mod_eq_of_lt h, x1 h]
    · rw [Nat.mod_eq_sub_mod h, Nat.mod_eq_of_lt (by omega)]; have := x2 h; omega
  have h2 : w % M = y := by
    rcases Nat.lt_or_ge w M with h | h
    · rw [Nat.mod_eq_of_lt h, y1 h]
    · rw [Nat.mod_eq_sub_mod h, Nat.mod_eq_of_lt (by omega)]; have := y2 h; omega
  rw [← h1, ← h2]; exact hm

theorem lt_two_aux {R W X q M : Nat} (hq : q < R) (hX : X < M * R) (h : W * R = X + q * M) :
    W < 2 * M := by
  refine Nat.lt_of_mul_lt_mul_right (a := R) ?_
  have h1 : q * M ≤ R * M := Nat.mul_le_mul_right _ hq.le
  rw [h]
  calc X + q * M < M * R + R * M := Nat.add_lt_add_of_lt_of_le hX h1
    _ = 2 * M * R := by ring

theorem lt_two {W X q M : Nat} (hq : q < 2^256) (hX : X < M * 2^256) (h : W * 2^256 = X + q * M) :
    W < 2 * M := lt_two_aux hq hX h

theorem odd_of_inv {p : L4} {n : Nat} (h : (p.l0 * n + 1) % 2^64 = 0) : p.val % 2 = 1 := by
  rcases Nat.even_or_odd p.l0 with ⟨k, hk⟩ | ⟨k, hk⟩
  · exfalso
    rw [hk, show (k + k) * n = 2 * (k * n) by ring] at h
    omega
  · unfold L4.val; omega

theorem mul_eq (st : St) {a b p : L4} (ha : a.Wf) (hb : b.Wf) (hp : p.Wf)
    (hinv : (p.l0 * hardInv + 1) % 2^64 = 0) (hpb : 2 * p.val ≤ 2^256)
    (h : a.val * b.val < p.val * 2^256) (hk : keepsCarries ⟨a, b, p⟩ mulProg st = true) :
    mul st a b p = B256.mul a b p hardInv := by
  obtain ⟨w8, hw8, hv8, e8⟩ := B256.mul_wide p hardInv ha hb
  obtain ⟨w, m, hw, hwm, hw2, e⟩ := B256.mont_spec hw8 hp hinv hpb (by rw [hv8]; exact h)
  rw [e8, e]
  obtain ⟨s1, s2, s3⟩ := B256.sub_spec hw hp hp
  have key : ∃ W q : Nat, q < 2^256 ∧ W * 2^256 = a.val * b.val + q * p.val ∧ (mul st a b p).Wf ∧
      (W < p.val → (mul st a b p).val = W) ∧ (p.val ≤ W → (mul st a b p).val + p.val = W) := by
    refine mul_walk st ha.1 ha.2.1 ha.2.2.1 ha.2.2.2 hb.1 hb.2.1 hb.2.2.1 hb.2.2.2 hp.1 hp.2.1 hp.2.2.1
      hp.2.2.2 (P := fun o => ∃ W q : Nat, q < 2^256 ∧ W * 2^256 = a.val * b.val + q * p.val ∧
        (L4.mk o.r8 o.r9 o.r10 o.r11).Wf ∧ (W < p.val → (L4.mk o.r8 o.r9 o.r10 o.r11).val = W) ∧
        (p.val ≤ W → (L4.mk o.r8 o.r9 o.r10 o.r11).val + p.val = W)) hinv ?_ hk
    intro x0 x1 x2 x3 x4 x5 x6 w0 w1 w2 w3 y0 y1 h0 h1 h2 h3 q hq heq
    exact ⟨_, q, hq, heq, tail_run rfl hp.1 hp.2.1 hp.2.2.1 hp.2.2.2 h0 h1 h2 h3⟩
  obtain ⟨W, q, hq, hW, k1, k2, k3⟩ := key
  refine L4.val_inj k1 s1 ?_
  rw [hv8] at hwm
  exact same_residue (odd_of_inv hinv) hW hwm (lt_two hq h hW) hw2 k2 k3
    (fun hl => by have := s3 hl (by omega); omega) s2

theorem square_eq (st : St) {a p : L4} (ha : a.Wf) (hp : p.Wf)
    (hinv : (p.l0 * hardInv + 1) % 2^64 = 0) (hpb : 2 * p.val ≤ 2^256)
    (h : a.val * a.val < p.val * 2^256) (hk : keepsCarries ⟨a, a, p⟩ squareProg st = true) :
    square st a p = B256.mul a a p hardInv := by
  obtain ⟨w8, hw8, hv8, e8⟩ := B256.mul_wide p hardInv ha ha
  obtain ⟨w, m, hw, hwm, hw2, e⟩ := B256.mont_spec hw8 hp hinv hpb (by rw [hv8]; exact h)
  rw [e8, e]
  obtain ⟨s1, s2, s3⟩ := B256.sub_spec hw hp hp
  have key : ∃ W q : Nat, q < 2^256 ∧ W * 2^256 = a.val * a.val + q * p.val ∧ (square st a p).Wf ∧
      (W < p.val → (square st a p).val = W) ∧ (p.val ≤ W → (square st a p).val + p.val = W) := by
    refine square_walk st ha.1 ha.2.1 ha.2.2.1 ha.2.2.2 hp.1 hp.2.1 hp.2.2.1
      hp.2.2.2 (P := fun o => ∃ W q : Nat, q < 2^256 ∧ W * 2^256 = a.val * a.val + q * p.val ∧
        (L4.mk o.r8 o.r9 o.r10 o.r11).Wf ∧ (W < p.val → (L4.mk o.r8 o.r9 o.r10 o.r11).val = W) ∧
        (p.val ≤ W → (L4.mk o.r8 o.r9 o.r10 o.r11).val + p.val = W)) hinv ?_ hk
    intro x0 x1 x2 x3 x4 x5 x6 w0 w1 w2 w3 y0 y1 h0 h1 h2 h3 q hq heq
    exact ⟨_, q, hq, heq, squareTail_run rfl hp.1 hp.2.1 hp.2.2.1 hp.2.2.2 h0 h1 h2 h3⟩
  obtain ⟨W, q, hq, hW, k1, k2, k3⟩ := key
  refine L4.val_inj k1 s1 ?_
  rw [hv8] at hwm
  exact same_residue (odd_of_inv hinv) hW hwm (lt_two hq h hW) hw2 k2 k3
    (fun hl => by have := s3 hl (by omega); omega) s2

end Kogarashi.Limbs.Asm
