import Verif.Groth16.Msm
import Verif.Spec.Digits
import Mathlib.Algebra.BigOperators.Group.List.Basic
import Mathlib.Algebra.Module.NatInt
import Mathlib.Tactic.Ring
import Mathlib.Tactic.Abel
import Mathlib.Tactic.Linarith

/-! # Correctness of the multi-scalar multiplication -/

namespace Kogarashi.Groth16

open Spec

/-! ### Digits -/

theorem u64OfBytes_eq (bytes : List Nat) : u64OfBytes bytes = leValue 256 bytes := by
  unfold u64OfBytes
  induction bytes with
  | nil => rfl
  | cons b bs ih => rw [List.foldr_cons, ih]; rfl

theorem leValue_drop (bytes : List Nat) (hb : ∀ b ∈ bytes, b < 256) (s : Nat) :
    leValue 256 (bytes.drop s) = leValue 256 bytes / 256 ^ s := by
  induction s generalizing bytes with
  | zero => simp
  | succ s ih =>
    cases bytes with
    | nil => simp [leValue]
    | cons b bs =>
      have h0 := hb b (by simp)
      rw [List.drop_succ_cons, ih bs (fun x hx => hb x (by simp [hx])), pow_succ', ← Nat.div_div_eq_div_mul]
      congr 1
      simp only [leValue]; omega

theorem leValue_take (bytes : List Nat) (hb : ∀ b ∈ bytes, b < 256) (s : Nat) :
    leValue 256 (bytes.take s) = leValue 256 bytes % 256 ^ s := by
  induction s generalizing bytes with
  | zero => simp [leValue, Nat.mod_one]
  | succ s ih =>
    cases bytes with
    | nil => simp [leValue]
    | cons b bs =>
      have h0 := hb b (by simp)
      rw [List.take_succ_cons]
      simp only [leValue]
      rw [ih bs (fun x hx => hb x (by simp [hx])), pow_succ']
      generalize leValue 256 bs = v
      generalize 256 ^ s = n
      have h1 : (b + 256 * v) % (256 * n) = (b + 256 * v) % 256 + 256 * ((b + 256 * v) / 256 % n) := Nat.mod_mul
      have h2 : (b + 256 * v) % 256 = b := by omega
      have h3 : (b + 256 * v) / 256 = v := by omega
      rw [h1, h2, h3]

theorem leValue_lt (bytes : List Nat) (hb : ∀ b ∈ bytes, b < 256) : leValue 256 bytes < 256 ^ bytes.length := by
  induction bytes with
  | nil => simp [leValue]
  | cons b bs ih =>
    have h0 := hb b (by simp)
    have := ih (fun x hx => hb x (by simp [hx]))
    simp only [leValue, List.length_cons, pow_succ']
    omega

/-- The window arithmetic extracts the base-`2^c` digit. -/
theorem getAt_eq {bytes : List Nat} (hb : ∀ b ∈ bytes, b < 256) (hl : bytes.length = 32) {c : Nat} (hc : c ≤ 57) (i : Nat) :
    getAt i c bytes = leValue 256 bytes / 2 ^ (i * c) % 2 ^ c := by
  unfold getAt
  simp only
  have hlt := leValue_lt bytes hb
  rw [hl] at hlt
  split
  · rename_i h
    have : 256 ^ 32 ≤ 2 ^ (i * c) := by
      rw [show (256 : Nat) = 2 ^ 8 by norm_num, ← pow_mul]
      exact Nat.pow_le_pow_right (by norm_num) (by omega)
    rw [Nat.div_eq_of_lt (by omega), Nat.zero_mod]
  · rw [u64OfBytes_eq, leValue_take _ (fun b h => hb b (List.mem_of_mem_drop h)), leValue_drop _ hb]
    have e : i * c = 8 * (i * c / 8) + (i * c - i * c / 8 * 8) := by omega
    have hr : i * c - i * c / 8 * 8 < 8 := by omega
    generalize i * c / 8 = s at *
    generalize i * c - s * 8 = r at *
    rw [e, pow_add, pow_mul, ← Nat.div_div_eq_div_mul, show (2 : Nat) ^ 8 = 256 by norm_num]
    generalize leValue 256 bytes / 256 ^ s = v
    rw [show (256 : Nat) ^ 8 = 2 ^ r * (2 ^ c * 2 ^ (64 - r - c)) by
      rw [show (256 : Nat) = 2 ^ 8 by norm_num, ← pow_mul, ← pow_add, ← pow_add]; congr 1; omega]
    rw [Nat.mod_mul_right_div_self, Nat.mod_mul_right_mod]

theorem digits_sum (v c n : Nat) : ((List.range n).map (fun i => 2 ^ (c * i) * (v / 2 ^ (i * c) % 2 ^ c))).sum = v % 2 ^ (c * n) := by
  induction n with
  | zero => simp [Nat.mod_one]
  | succ n ih =>
    rw [List.range_succ, List.map_append, List.sum_append, ih, show c * (n + 1) = c * n + c by ring, pow_add, Nat.mod_mul]
    simp [mul_comm n c]

theorem windowSize_pos (n : Nat) : 0 < windowSize n := by
  unfold windowSize; split
  · omega
  · split <;> omega

theorem windowSize_le {n : Nat} (h : n < 2 ^ 64) : windowSize n ≤ 57 := by
  unfold windowSize
  split
  · omega
  · split
    · omega
    · have : n.log2 < 64 := (Nat.log2_lt (by omega)).mpr h
      unfold bitLength
      omega

/-! ### Buckets -/

variable {A E G : Type} [AddCommGroup G]

/-- The operators compute the group operations on whatever represents group elements. -/
structure MsmLaws (ops : MsmOps A E) (RA : A → G → Prop) (RE : E → G → Prop) : Prop where
  zero : RE ops.zero 0
  addAA : ∀ {a b P Q}, RA a P → RA b Q → RE (ops.addAA a b) (P + Q)
  addEA : ∀ {e b P Q}, RE e P → RA b Q → RE (ops.addEA e b) (P + Q)
  addEE : ∀ {e f P Q}, RE e P → RE f Q → RE (ops.addEE e f) (P + Q)
  dbl : ∀ {e P}, RE e P → RE (ops.dbl e) (P + P)

/-- The bucket stands for the group element. -/
def BRep (RA : A → G → Prop) (RE : E → G → Prop) : Bucket A E → G → Prop
  | .none, P => P = 0
  | .affine a, P => RA a P
  | .proj e, P => RE e P

variable {ops : MsmOps A E} {RA : A → G → Prop} {RE : E → G → Prop}

theorem addAssign_rep (L : MsmLaws ops RA RE) {b : Bucket A E} {P Q : G} {a : A} (hb : BRep RA RE b P) (ha : RA a Q) :
    BRep RA RE (b.addAssign ops a) (P + Q) := by
  cases b with
  | none => simp only [BRep] at hb; subst hb; simpa [Bucket.addAssign, BRep] using ha
  | affine c => exact L.addAA hb ha
  | proj e => exact L.addEA hb ha

theorem bucketAdd_rep (L : MsmLaws ops RA RE) {b : Bucket A E} {P Q : G} {e : E} (hb : BRep RA RE b P) (he : RE e Q) :
    RE (b.add ops e) (Q + P) := by
  cases b with
  | none => simp only [BRep] at hb; subst hb; simpa [Bucket.add] using he
  | affine c => exact L.addEA he hb
  | proj f => exact L.addEE he hb

/-- `1·P₀ + 2·P₁ + 3·P₂ + …` -/
def weighted : List G → G
  | [] => 0
  | P :: Ps => (P + Ps.sum) + weighted Ps

theorem sum_modify (Ps : List G) (d : Nat) (hd : d < Ps.length) (Q : G) : (Ps.modify d (· + Q)).sum = Ps.sum + Q := by
  induction Ps generalizing d with
  | nil => simp at hd
  | cons P Ps ih =>
    cases d with
    | zero => simp only [List.modify_zero_cons, List.sum_cons]; abel
    | succ d => simp only [List.modify_succ_cons, List.sum_cons, ih d (by simpa using hd)]; abel

theorem weighted_modify (Ps : List G) (d : Nat) (hd : d < Ps.length) (Q : G) :
    weighted (Ps.modify d (· + Q)) = weighted Ps + (d + 1) • Q := by
  induction Ps generalizing d with
  | nil => simp at hd
  | cons P Ps ih =>
    cases d with
    | zero => simp only [List.modify_zero_cons, weighted, zero_add, one_smul]; abel
    | succ d =>
      have hd' : d < Ps.length := by simpa using hd
      simp only [List.modify_succ_cons, weighted, ih d hd', sum_modify _ d hd', add_smul, one_smul]
      abel

theorem weighted_replicate (n : Nat) : weighted (List.replicate n (0 : G)) = 0 := by
  induction n with
  | zero => rfl
  | succ n ih => rw [List.replicate_succ, weighted, ih]; simp

theorem forall₂_modify {β γ : Type} {R : β → γ → Prop} {f : β → β} {g : γ → γ} {l : List β} {m : List γ} (h : List.Forall₂ R l m)
    (hfg : ∀ a b, R a b → R (f a) (g b)) (i : Nat) : List.Forall₂ R (l.modify i f) (m.modify i g) := by
  induction h generalizing i with
  | nil => simp
  | cons h1 h2 ih =>
    cases i with
    | zero => exact .cons (hfg _ _ h1) h2
    | succ i => exact .cons h1 (ih i)

theorem fill_rep (L : MsmLaws ops RA RE) (i c : Nat) : ∀ (l : List (List Nat × A)) (Ps : List G) (bucket : List (Bucket A E))
    (Bs : List G), List.Forall₂ (fun e P => RA e.2 P) l Ps → List.Forall₂ (BRep RA RE) bucket Bs →
    Bs.length = 2 ^ c - 1 → (∀ e ∈ l, getAt i c e.1 < 2 ^ c) →
    ∃ Bs', List.Forall₂ (BRep RA RE) (l.foldl (fillStep ops i c) bucket) Bs' ∧
      weighted Bs' = weighted Bs + (List.zipWith (fun e P => getAt i c e.1 • P) l Ps).sum := by
  intro l
  induction l with
  | nil => intro Ps bucket Bs h1 h2 _ _; exact ⟨Bs, h2, by simp⟩
  | cons e es ih =>
    intro Ps bucket Bs h1 h2 hlen hlt
    cases h1 with
    | @cons _ P _ Ps hP hPs =>
      have hd := hlt e (by simp)
      rw [List.foldl_cons, List.zipWith_cons_cons, List.sum_cons]
      unfold fillStep
      simp only
      by_cases h0 : getAt i c e.1 = 0
      · rw [if_neg (by simpa using h0), h0, zero_smul, zero_add]
        exact ih Ps bucket Bs hPs h2 hlen (fun x hx => hlt x (by simp [hx]))
      · rw [if_pos h0]
        obtain ⟨Bs', h3, h4⟩ := ih Ps (bucket.modify (getAt i c e.1 - 1) (Bucket.addAssign ops e.2))
          (Bs.modify (getAt i c e.1 - 1) (· + P)) hPs
          (forall₂_modify h2 (fun _ _ h => addAssign_rep L h hP) _) (by simpa using hlen)
          (fun x hx => hlt x (by simp [hx]))
        refine ⟨Bs', h3, ?_⟩
        rw [h4, weighted_modify _ _ (by omega), show getAt i c e.1 - 1 + 1 = getAt i c e.1 by omega]
        abel

theorem parts_rep (L : MsmLaws ops RA RE) {bucket : List (Bucket A E)} {Bs : List G} (h : List.Forall₂ (BRep RA RE) bucket Bs) :
    RE (bucket.reverse.foldl (partsStep ops) (ops.zero, ops.zero)).1 (weighted Bs) ∧
    RE (bucket.reverse.foldl (partsStep ops) (ops.zero, ops.zero)).2 Bs.sum := by
  rw [List.foldl_reverse]
  induction h with
  | nil => exact ⟨L.zero, L.zero⟩
  | cons h1 _ ih =>
    simp only [List.foldr_cons, weighted, List.sum_cons]
    have hs := bucketAdd_rep L h1 ih.2
    rw [add_comm] at hs
    refine ⟨?_, hs⟩
    rw [add_comm]
    exact L.addEE ih.1 hs

theorem dblTimes_rep (L : MsmLaws ops RA RE) (n : Nat) {e : E} {P : G} (h : RE e P) : RE (dblTimes ops n e) (2 ^ n • P) := by
  induction n generalizing e P with
  | zero => simpa [dblTimes] using h
  | succ n ih =>
    have := ih (L.dbl h)
    rwa [← two_nsmul, smul_smul, ← pow_succ] at this

theorem segment_rep (L : MsmLaws ops RA RE) {c : Nat} (hc : c ≤ 57) {coeffs : List (List Nat)} {bases : List A} {Ps : List G}
    (hP : List.Forall₂ RA bases Ps) (hb : ∀ bs ∈ coeffs, bs.length = 32 ∧ ∀ b ∈ bs, b < 256) (i : Nat) :
    RE (segment ops c coeffs bases i)
      (List.zipWith (fun bs P => (2 ^ (c * i) * (leValue 256 bs / 2 ^ (i * c) % 2 ^ c)) • P) coeffs Ps).sum := by
  have hz : ∀ (coeffs : List (List Nat)) (bases : List A) (Ps : List G), List.Forall₂ RA bases Ps →
      List.Forall₂ (fun (e : List Nat × A) P => RA e.2 P) (coeffs.zip bases) (Ps.take (coeffs.zip bases).length) ∧
      List.zipWith (fun (e : List Nat × A) P => getAt i c e.1 • P) (coeffs.zip bases) (Ps.take (coeffs.zip bases).length) =
        List.zipWith (fun bs P => getAt i c bs • P) coeffs Ps := by
    intro coeffs
    induction coeffs with
    | nil => intro bases Ps _; simp
    | cons x xs ih =>
      intro bases Ps h
      cases h with
      | nil => simp
      | cons h1 h2 =>
        obtain ⟨i1, i2⟩ := ih _ _ h2
        refine ⟨?_, ?_⟩
        · simpa using ⟨h1, by simpa using i1⟩
        · simp only [List.zip_cons_cons, List.length_cons, List.take_succ_cons, List.zipWith_cons_cons, i2]
  obtain ⟨z1, z2⟩ := hz coeffs bases Ps hP
  have hdig : ∀ bs ∈ coeffs, getAt i c bs = leValue 256 bs / 2 ^ (i * c) % 2 ^ c :=
    fun bs h => getAt_eq (hb bs h).2 (hb bs h).1 hc i
  obtain ⟨Bs', h3, h4⟩ := fill_rep L i c (coeffs.zip bases) _ (List.replicate (2 ^ c - 1) .none)
    (List.replicate (2 ^ c - 1) 0) z1 (by
      generalize 2 ^ c - 1 = n
      induction n with
      | zero => exact .nil
      | succ n ih => exact .cons rfl ih) (by simp) (by
      intro e he
      rw [hdig _ (List.of_mem_zip he).1]
      exact Nat.mod_lt _ (by positivity))
  have h5 := dblTimes_rep L (c * i) (parts_rep L h3).1
  rw [h4, weighted_replicate, zero_add, z2] at h5
  unfold segment
  simp only
  have e : ∀ (xs : List (List Nat)), (∀ bs ∈ xs, getAt i c bs = leValue 256 bs / 2 ^ (i * c) % 2 ^ c) → ∀ Ps : List G,
      2 ^ (c * i) • (List.zipWith (fun bs P => getAt i c bs • P) xs Ps).sum =
      (List.zipWith (fun bs P => (2 ^ (c * i) * (leValue 256 bs / 2 ^ (i * c) % 2 ^ c)) • P) xs Ps).sum := by
    intro xs
    induction xs with
    | nil => intro _ Ps; simp
    | cons x xs ih =>
      intro h Ps
      cases Ps with
      | nil => simp
      | cons P Ps =>
        simp only [List.zipWith_cons_cons, List.sum_cons, smul_add, ih (fun y hy => h y (by simp [hy])), smul_smul, h x (by simp)]
  rw [e coeffs hdig] at h5
  exact h5

theorem foldl_addEE_rep (L : MsmLaws ops RA RE) : ∀ (es : List E) (Ps : List G) (acc : E) (P : G), List.Forall₂ RE es Ps →
    RE acc P → RE (es.foldl ops.addEE acc) (P + Ps.sum) := by
  intro es
  induction es with
  | nil => intro Ps acc P h ha; cases h; simpa using ha
  | cons e es ih =>
    intro Ps acc P h ha
    cases h with
    | cons h1 h2 =>
      rw [List.foldl_cons, List.sum_cons, ← add_assoc]
      exact ih _ _ _ h2 (L.addEE ha h1)

theorem sum_map_reverse (l : List Nat) (f : Nat → G) : (l.reverse.map f).sum = (l.map f).sum := by
  rw [List.map_reverse]; exact List.sum_reverse _

theorem sum_zipWith_comm (is : List Nat) (g : List Nat → Nat → Nat) (coeffs : List (List Nat)) : ∀ (Ps : List G),
    (is.map (fun i => (List.zipWith (fun bs P => g bs i • P) coeffs Ps).sum)).sum =
      (List.zipWith (fun bs P => (is.map (g bs)).sum • P) coeffs Ps).sum := by
  induction coeffs with
  | nil => intro Ps; simp
  | cons x xs ih =>
    intro Ps
    cases Ps with
    | nil => simp
    | cons P Ps =>
      simp only [List.zipWith_cons_cons, List.sum_cons]
      rw [← ih Ps]
      clear ih
      induction is with
      | nil => simp
      | cons i is ih2 => simp only [List.map_cons, List.sum_cons, ih2, add_smul]; abel

theorem msm_rep (L : MsmLaws ops RA RE) {coeffs : List (List Nat)} {bases : List A} {Ps : List G}
    (hP : List.Forall₂ RA bases Ps) (hb : ∀ bs ∈ coeffs, bs.length = 32 ∧ ∀ b ∈ bs, b < 256) (hlen : bases.length < 2 ^ 64) :
    RE (msm ops bases coeffs) (List.zipWith (fun bs P => leValue 256 bs • P) coeffs Ps).sum := by
  unfold msm
  simp only
  have hc := windowSize_le hlen
  have hc0 := windowSize_pos bases.length
  generalize windowSize bases.length = c at *
  have h := foldl_addEE_rep L (((List.range (256 / c + 1)).reverse).map (segment ops c coeffs bases))
    (((List.range (256 / c + 1)).reverse).map (fun i =>
      (List.zipWith (fun bs P => (2 ^ (c * i) * (leValue 256 bs / 2 ^ (i * c) % 2 ^ c)) • P) coeffs Ps).sum)) ops.zero 0
    (by
      rw [List.forall₂_map_left_iff, List.forall₂_map_right_iff, List.forall₂_same]
      intro i _
      exact segment_rep L hc hP hb i) L.zero
  rw [zero_add, sum_map_reverse, sum_zipWith_comm] at h
  have e : ∀ (xs : List (List Nat)), (∀ bs ∈ xs, bs.length = 32 ∧ ∀ b ∈ bs, b < 256) → ∀ Ps : List G,
      (List.zipWith (fun bs P => ((List.range (256 / c + 1)).map
        (fun i => 2 ^ (c * i) * (leValue 256 bs / 2 ^ (i * c) % 2 ^ c))).sum • P) xs Ps).sum =
      (List.zipWith (fun bs P => leValue 256 bs • P) xs Ps).sum := by
    intro xs
    induction xs with
    | nil => intro _ Ps; simp
    | cons x xs ih =>
      intro hx Ps
      cases Ps with
      | nil => simp
      | cons P Ps =>
        rw [List.zipWith_cons_cons, List.zipWith_cons_cons, List.sum_cons, List.sum_cons,
          ih (fun y hy => hx y (by simp [hy])), digits_sum, Nat.mod_eq_of_lt]
        obtain ⟨h1, h2⟩ := hx x (by simp)
        have h3 := leValue_lt x h2
        rw [h1] at h3
        refine lt_of_lt_of_le h3 ?_
        rw [show (256 : Nat) ^ 32 = 2 ^ 256 by norm_num]
        refine Nat.pow_le_pow_right (by norm_num) ?_
        have := Nat.div_add_mod 256 c
        have := Nat.mod_lt 256 hc0
        rw [mul_add, mul_one]
        omega
  rw [e coeffs hb] at h
  exact h

end Kogarashi.Groth16
