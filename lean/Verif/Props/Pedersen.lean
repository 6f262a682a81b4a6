import Verif.Nova.Pedersen
import Verif.Props.Random
import Verif.Props.NovaStruct

/-!
# Property C97: generation of commitment keys

A key is made from one draw of eight words per generator (`Draw`, C96).
-/

namespace Kogarashi.Props

open Kogarashi Spec Tower Curve Kogarashi.Field Limbs Nova

section
variable {F : Type} [_root_.Field F] [DecidableEq F] {b : F}

theorem mapM_draws (h2 : (2 : F) ≠ 0) {S : FieldParams} (hS : ValidParams S) {gen : Aff F} (hi : gen.inf = false)
    {G : (curve b).Point} (hg : AffRep b gen G) (draws : Nat → Draw) : ∀ l : List Nat,
    ∃ ps, (l.mapM fun i => randomAff S (b + b + b) gen (draws i).stream) = some ps ∧
      List.Forall₂ (fun i p => AffRep b p (((draws i).nat % S.m) • G)) l ps
  | [] => ⟨[], rfl, .nil⟩
  | i :: l => by
    obtain ⟨ps, e, h⟩ := mapM_draws h2 hS hi hg draws l
    obtain ⟨p, -, e1, -, r, -⟩ := random_rep h2 hS hi hg (draws i)
    refine ⟨p :: ps, ?_, .cons r h⟩
    rw [List.mapM_cons, e1, e]
    rfl

theorem keyEnd_small {checks : Bool} {n : Nat} (hn : n ≤ 30) : keyEnd checks n = some (2 ^ n) := by
  unfold keyEnd
  rw [if_neg (by omega), if_neg (by omega), Nat.mod_eq_of_lt (by omega)]

theorem rangeLength_pow (n : Nat) : rangeLength (2 ^ n) = 2 ^ n + 1 := by
  unfold rangeLength
  have : ((2 : Int) ^ n + 1) = ((2 ^ n + 1 : Nat) : Int) := by push_cast; rfl
  rw [this, Int.toNat_natCast]

/-- **C97, the part that holds.** For sizes up to `2^30`, with or without overflow checks, `new` does not panic and returns
`2^n + 1` generators; the `i`-th is the multiple of the generator of the group by the integer of the `i`-th draw. -/
theorem C97_key_partial (h2 : (2 : F) ≠ 0) {S : FieldParams} (hS : ValidParams S) {gen : Aff F} (hi : gen.inf = false)
    {G : (curve b).Point} (hg : AffRep b gen G) (checks : Bool) {n : Nat} (hn : n ≤ 30) (draws : Nat → Draw) :
    ∃ key, newKey S (b + b + b) gen checks n (fun i => (draws i).stream) = some key ∧ key.length = 2 ^ n + 1 ∧
      ∀ i p, key[i]? = some p → AffRep b p (((draws i).nat % S.m) • G) := by
  obtain ⟨ps, e, h⟩ := mapM_draws (b := b) h2 hS hi hg draws (List.range (2 ^ n + 1))
  refine ⟨ps, ?_, ?_, ?_⟩
  · unfold newKey
    rw [keyEnd_small hn, Option.bind_eq_bind, Option.bind_some, rangeLength_pow]
    exact e
  · rw [← h.length_eq, List.length_range]
  · intro i p hp
    have hl : i < ps.length := (List.getElem?_eq_some_iff.mp hp).1
    have hl' : i < (List.range (2 ^ n + 1)).length := by rw [h.length_eq]; exact hl
    have := h.get hl' hl
    rw [List.getElem?_eq_getElem hl, Option.some.injEq] at hp
    subst hp
    simpa using this

/-- **C97 is false of larger keys.** A key of size `2^31` comes out empty; without overflow checks larger ones come out too short, with
the checks `new` panics. -/
theorem C97_key_refuted {S : FieldParams} (b3 : F) (gen : Aff F) (rand : Nat → Nat → Nat) :
    (∀ checks, newKey S b3 gen checks 31 rand = some []) ∧
    (∀ n, 32 ≤ n → newKey S b3 gen true n rand = none ∧
      ∀ key, newKey S b3 gen false n rand = some key → key.length ≤ 2 ^ 30 + 1 ∧ key.length < 2 ^ n) := by
  refine ⟨?_, ?_⟩
  · intro checks
    have : keyEnd checks 31 = some (-2 ^ 31) := by unfold keyEnd; rw [if_neg (by omega), if_pos rfl]
    unfold newKey
    rw [this, Option.bind_eq_bind, Option.bind_some]
    rfl
  · intro n hn
    refine ⟨?_, ?_⟩
    · unfold newKey keyEnd
      rw [if_pos ⟨hn, rfl⟩]
      rfl
    · intro key hk
      have mapM_length : ∀ (l : List Nat) (f : Nat → Option (Aff F)) (r : List (Aff F)), l.mapM f = some r → r.length = l.length := by
        intro l
        induction l with
        | nil => intro f r h; cases h; rfl
        | cons a l ih =>
          intro f r h
          rw [List.mapM_cons, Option.bind_eq_bind, Option.bind_eq_some_iff] at h
          obtain ⟨x, -, h⟩ := h
          rw [Option.bind_eq_bind, Option.bind_eq_some_iff] at h
          obtain ⟨y, hy, h⟩ := h
          cases h
          rw [List.length_cons, List.length_cons, ih f y hy]
      unfold newKey at hk
      rw [Option.bind_eq_bind, Option.bind_eq_some_iff] at hk
      obtain ⟨e, he, hk⟩ := hk
      have hl := mapM_length _ _ _ hk
      rw [List.length_range] at hl
      have h32 : (2 : Nat) ^ 32 ≤ 2 ^ n := Nat.pow_le_pow_right (by norm_num) hn
      have hle : key.length ≤ 2 ^ 30 + 1 := by
        rw [hl]
        unfold keyEnd at he
        rw [if_neg (by simp)] at he
        split at he
        · cases he; norm_num [rangeLength]
        · cases he
          rw [rangeLength_pow]
          have : n % 32 ≤ 30 := by omega
          have := Nat.pow_le_pow_right (n := 2) (by norm_num) this
          omega
      refine ⟨hle, ?_⟩
      omega

end

/-- The commitment made with a key `new` returns for an argument of 31 does not depend on the vector. -/
theorem C97_commit_refuted {P Q : FieldParams} [ValidWords P] [ValidWords Q] {S : FieldParams} (b b3 : Words Q) (gen : Aff (Words Q))
    (rand : Nat → Nat → Nat) (checks : Bool) : ∃ g, newKey S b3 gen checks 31 rand = some g ∧
      ∀ m m' : List (Words P), wCommit b g m = wCommit b g m' := by
  refine ⟨[], (C97_key_refuted b3 gen rand).1 checks, fun m m' => ?_⟩
  unfold wCommit
  rw [List.zip_nil_right, List.zip_nil_right]

/-- **C97, coverage.** The key `setup` makes for a shape with at most `2^30` constraints covers its error vectors and the
cross terms, which have one entry per constraint. -/
theorem C97_covers_error (m : Nat) (hm : m ≤ 2 ^ 30) : keyLog m ≤ 30 ∧ m < 2 ^ keyLog m + 1 := by
  unfold keyLog
  refine ⟨Nat.clog_le_of_le_pow hm, ?_⟩
  have := Nat.le_pow_clog (b := 2) (by norm_num) m
  omega

/-- Non-vacuity: a key of three points of Grumpkin, the draws all different. -/
example : ∃ key, newKey fqParams (grumpkinB + grumpkinB + grumpkinB) grumpkinGen true 1
    (fun i => (Draw.stream fun j => ⟨(i + j) % 2 ^ 64, Nat.mod_lt _ (by norm_num)⟩)) = some key ∧ key.length = 3 := by
  obtain ⟨key, h1, h2, -⟩ := C97_key_partial grumpkin_two fqParams_valid rfl grumpkinGen_rep true (n := 1) (by norm_num)
    (fun i j => ⟨(i + j) % 2 ^ 64, Nat.mod_lt _ (by norm_num)⟩)
  exact ⟨key, h1, h2⟩

end Kogarashi.Props
