import Verif.Props.Folding
import Verif.Spec.Feistel
import Mathlib.Data.Int.CardIntervalMod
import Mathlib.SetTheory.Cardinal.Finite
import Mathlib.Tactic.Ring

/-!
# C112: the hash of the transcript

`mimc` is the first half of a Feistel network over pairs, whatever the constants and their number.
-/

namespace Kogarashi.Props

open Kogarashi Spec Nova Kogarashi.Field

section
variable {F : Type} [_root_.Field F]

theorem feistel_left (cs : List F) (x : F × F) : feistelInv cs (feistel cs x) = x := by
  induction cs generalizing x with
  | nil => rfl
  | cons c cs ih =>
    unfold feistelInv feistel at *
    rw [List.foldl_cons, List.reverse_cons, List.foldl_append, ih, List.foldl_cons, List.foldl_nil]
    simp [feistelUndo, feistelRound]

theorem feistel_right (cs : List F) (y : F × F) : feistel cs (feistelInv cs y) = y := by
  induction cs generalizing y with
  | nil => rfl
  | cons c cs ih =>
    have h : feistelInv (c :: cs) y = feistelUndo (feistelInv cs y) c := by
      unfold feistelInv
      rw [List.reverse_cons, List.foldl_append, List.foldl_cons, List.foldl_nil]
    have h2 : ∀ x, feistel (c :: cs) x = feistel cs (feistelRound x c) := fun _ => rfl
    rw [h, h2]
    have : feistelRound (feistelUndo (feistelInv cs y) c) c = feistelInv cs y := by
      simp [feistelUndo, feistelRound]
    rw [this, ih]

/-- **C112, the mixing function.** For every list of round constants, the hash of a pair is the first half of a permutation of pairs. -/
theorem C112_permutation (cs : List F) : (∀ xl xr, mimc cs xl xr = (feistel cs (xl, xr)).1) ∧ Function.Bijective (feistel cs) := by
  refine ⟨?_, Function.bijective_iff_has_inverse.mpr ⟨feistelInv cs, feistel_left cs, feistel_right cs⟩⟩
  induction cs with
  | nil => intro xl xr; rfl
  | cons c cs ih =>
    intro xl xr
    have h2 : ∀ x, feistel (c :: cs) x = feistel cs (feistelRound x c) := fun _ => rfl
    rw [h2, mimc, ih, feistelRound]
    congr 2
    simp only [Prod.mk.injEq, and_true]
    ring

/-- **C112, balance.** Every value is the hash of as many pairs as there are field elements. -/
theorem C112_balanced (cs : List F) (h : F) : Nat.card {x : F × F // mimc cs x.1 x.2 = h} = Nat.card F := by
  obtain ⟨e, hb⟩ := C112_permutation cs
  let φ := Equiv.ofBijective _ hb
  have h1 : {x : F × F // mimc cs x.1 x.2 = h} ≃ {y : F × F // y.1 = h} :=
    φ.subtypeEquiv fun x => by rw [e]; rfl
  have h2 : {y : F × F // y.1 = h} ≃ F :=
    ⟨fun y => y.1.2, fun t => ⟨(h, t), rfl⟩, fun y => by obtain ⟨⟨a, b⟩, hy⟩ := y; cases hy; rfl, fun _ => rfl⟩
  exact Nat.card_congr (h1.trans h2)

/-- **C112 is false of the mixing function alone.** It is not one-way and not free of collisions: undoing the rounds gives, for every output
and every field element, a preimage, and different elements give different preimages. -/
theorem C112_one_way_refuted (cs : List F) (h : F) :
    (∀ t, mimc cs (feistelInv cs (h, t)).1 (feistelInv cs (h, t)).2 = h) ∧ Function.Injective fun t => feistelInv cs (h, t) := by
  refine ⟨fun t => ?_, fun t t' e => ?_⟩
  · rw [(C112_permutation cs).1, Prod.mk.eta, feistel_right]
  · have := congrArg (feistel cs) e
    simp only [feistel_right, Prod.mk.injEq, true_and] at this
    exact this

/-- **C112, chaining.** What is absorbed later sees only the hash of what was absorbed before: two transcripts with the same hash stay equal
whatever is appended to both. -/
theorem C112_chain (cs a b t : List F) (h : sponge cs a = sponge cs b) : sponge cs (a ++ t) = sponge cs (b ++ t) := by
  unfold sponge at *
  rw [List.foldl_append, List.foldl_append, h]

/-- **C112, one element.** The hash of a transcript of one element. -/
theorem C112_single (cs : List F) (s : F) : sponge cs [s] = s + (feistel cs (s, 0)).1 := by
  rw [← (C112_permutation cs).1]
  simp [sponge]

/-- **C112 is false of the whole hash, for every choice of constants.** There are two transcripts of two elements with the same hash, and by
`C112_chain` all their common extensions collide as well. -/
theorem C112_collision_refuted [Finite F] (cs : List F) :
    ∃ a b : List F, a ≠ b ∧ a.length = 2 ∧ b.length = 2 ∧ ∀ t, sponge cs (a ++ t) = sponge cs (b ++ t) := by
  have := Fintype.ofFinite F
  have hc : Fintype.card F < Fintype.card (F × F) := by
    rw [Fintype.card_prod]
    exact lt_mul_of_one_lt_left Fintype.card_pos Fintype.one_lt_card
  obtain ⟨x, y, hne, he⟩ := Fintype.exists_ne_map_eq_of_card_lt (fun x : F × F => sponge cs [x.1, x.2]) hc
  refine ⟨[x.1, x.2], [y.1, y.2], fun e => hne ?_, rfl, rfl, fun t => C112_chain cs _ _ t he⟩
  rw [List.cons.injEq, List.cons.injEq] at e
  exact Prod.ext e.1 e.2.1

end

theorem card_val_mod {q M v : Nat} [NeZero q] (hM : 0 < M) (hv : v < M) :
    Nat.card {h : ZMod q // h.val % M = v} = q / M + if v < q % M then 1 else 0 := by
  have h1 := Nat.count_modEq_card q hM v
  rw [Nat.mod_eq_of_lt hv] at h1
  rw [← h1, Nat.count_eq_card_filter_range, ← Nat.card_eq_finsetCard]
  refine Nat.card_congr ⟨fun x => ⟨x.1.val, ?_⟩, fun n => ⟨(n.1 : ZMod q), ?_⟩, fun x => ?_, fun n => ?_⟩
  · rw [Finset.mem_filter, Finset.mem_range]
    exact ⟨ZMod.val_lt _, by unfold Nat.ModEq; rw [x.2, Nat.mod_eq_of_lt hv]⟩
  · obtain ⟨h2, h3⟩ := Finset.mem_filter.mp n.2
    rw [ZMod.val_cast_of_lt (Finset.mem_range.mp h2)]
    exact Eq.trans h3 (Nat.mod_eq_of_lt hv)
  · apply Subtype.ext; exact ZMod.natCast_zmod_val _
  · apply Subtype.ext; exact ZMod.val_cast_of_lt (Finset.mem_range.mp (Finset.mem_filter.mp n.2).1)

/-- **C112, challenges.** A challenge of `n` bits is a function of the hash alone, it is below `2^n`, and every value below `2^n` is the
challenge of `⌊q/2^n⌋` hashes or of one more. -/
theorem C112_challenge {p q : Nat} [Fact p.Prime] [Fact q.Prime] (hp : p ≤ 2 ^ 256) {n : Nat} (hn : n ≤ 256) (h1 : 2 ^ n ≤ p) (h2 : 2 ^ n ≤ q) :
    ∃ g : ZMod q → ZMod p, (∀ consts state, squeeze consts state n = g (sponge consts state)) ∧ (∀ h, (g h).val < 2 ^ n) ∧
      ∀ v < 2 ^ n, Nat.card {h : ZMod q // (g h).val = v} = q / 2 ^ n + if v < q % 2 ^ n then 1 else 0 := by
  have hlt : ∀ h : ZMod q, h.val % 2 ^ n < 2 ^ n := fun h => Nat.mod_lt _ (by positivity)
  refine ⟨fun h => ((h.val % 2 ^ n : Nat) : ZMod p), fun consts state => ?_, fun h => ?_, fun v hv => ?_⟩
  · apply ZMod.val_injective
    rw [(C55_squeeze hp consts state hn h1 h2).1, ZMod.val_cast_of_lt ((hlt _).trans_le h1)]
  · rw [ZMod.val_cast_of_lt ((hlt _).trans_le h1)]; exact hlt h
  · rw [← card_val_mod (by positivity) hv]
    exact Nat.card_congr (Equiv.subtypeEquivRight fun h => by rw [ZMod.val_cast_of_lt ((hlt _).trans_le h1)])

/-- The sizes of the code: 128 bits for a challenge, 252 for a hash, in both directions of the cycle. -/
example := C112_challenge (p := frParams.m) (q := fqParams.m) (by decide +kernel) (n := challengeBits) (by decide) (by decide +kernel) (by decide +kernel)
example := C112_challenge (p := fqParams.m) (q := frParams.m) (by decide +kernel) (n := hashBits) (by decide) (by decide +kernel) (by decide +kernel)

/-- A collision of the mixing function with three rounds over `ZMod 13`. -/
example : mimc [3, 5, (7 : ZMod 13)] (feistelInv [3, 5, 7] (4, 0)).1 (feistelInv [3, 5, 7] (4, 0)).2 = 4 ∧
    mimc [3, 5, (7 : ZMod 13)] (feistelInv [3, 5, 7] (4, 1)).1 (feistelInv [3, 5, 7] (4, 1)).2 = 4 ∧
    feistelInv [3, 5, (7 : ZMod 13)] (4, 0) ≠ feistelInv [3, 5, 7] (4, 1) := by decide

end Kogarashi.Props
