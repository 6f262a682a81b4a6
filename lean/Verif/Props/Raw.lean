import Verif.Curve.Raw

/-! # Property C27: raw point bytes -/

namespace Kogarashi.Props

open Kogarashi Limbs Curve

theorem leBytes8_eq (n : Nat) : leBytes8 n =
    [n % 256, n / 2 ^ 8 % 256, n / 2 ^ 16 % 256, n / 2 ^ 24 % 256, n / 2 ^ 32 % 256, n / 2 ^ 40 % 256,
      n / 2 ^ 48 % 256, n / 2 ^ 56 % 256] := by
  simp [leBytes8, List.range, List.range.loop]

theorem u64FromLe_leBytes8 {n : Nat} (h : n < 2 ^ 64) : u64FromLe (leBytes8 n) = n := by
  rw [leBytes8_eq]
  simp only [u64FromLe, List.foldr_cons, List.foldr_nil]
  omega

theorem chunksExact8_leBytes8 (n : Nat) (rest : List Nat) :
    chunksExact8 (leBytes8 n ++ rest) = leBytes8 n :: chunksExact8 rest := by
  rw [leBytes8_eq]; rfl

/-- **C27.** `to_raw_bytes` yields 97 bytes, and reading them back — also from a longer slice, whose tail is
ignored — gives the same struct, for every limb content and both values of the flag. -/
theorem C27_round_trip (p : RawAff) (hx : p.x.Wf) (hy : p.y.Wf) (tail : List Nat) :
    (toRawBytes p).length = 97 ∧ (∀ byte ∈ toRawBytes p, byte < 256) ∧
      fromSliceUnchecked (toRawBytes p ++ tail) = p := by
  obtain ⟨⟨a0, a1, a2, a3⟩, ⟨b0, b1, b2, b3⟩, i⟩ := p
  obtain ⟨h0, h1, h2, h3⟩ := hx
  obtain ⟨k0, k1, k2, k3⟩ := hy
  have hlen : ∀ n, (leBytes8 n).length = 8 := fun n => by rw [leBytes8_eq]; rfl
  have hL : (toRawBytes ⟨⟨a0, a1, a2, a3⟩, ⟨b0, b1, b2, b3⟩, i⟩).length = 97 := by
    simp [toRawBytes, hlen]
  refine ⟨hL, ?_, ?_⟩
  · intro byte hb
    simp only [toRawBytes, List.mem_append, List.mem_flatMap, List.mem_replicate, List.mem_singleton] at hb
    rcases hb with (⟨w, -, hb⟩ | hb) | hb
    · rw [leBytes8, List.mem_map] at hb
      obtain ⟨j, -, rfl⟩ := hb
      exact Nat.mod_lt _ (by norm_num)
    · omega
    · split at hb <;> omega
  · unfold fromSliceUnchecked
    have hlen' : RAW_SIZE ≤ (toRawBytes ⟨⟨a0, a1, a2, a3⟩, ⟨b0, b1, b2, b3⟩, i⟩ ++ tail).length := by
      rw [List.length_append, hL]; unfold RAW_SIZE; omega
    have hflag : (toRawBytes ⟨⟨a0, a1, a2, a3⟩, ⟨b0, b1, b2, b3⟩, i⟩ ++ tail).getD (RAW_SIZE - 1) 0 =
        if i then 1 else 0 := by
      have hpre : ([a0, a1, a2, a3, b0, b1, b2, b3].flatMap leBytes8 ++ List.replicate 32 0).length = 96 := by
        simp [hlen]
      simp only [toRawBytes, RAW_SIZE]
      rw [List.append_assoc, List.getD_eq_getElem?_getD, List.getElem?_append_right (by rw [hpre]), hpre]
      rfl
    rw [if_pos hlen', hflag]
    have hw : chunksExact8 (toRawBytes ⟨⟨a0, a1, a2, a3⟩, ⟨b0, b1, b2, b3⟩, i⟩ ++ tail) =
        leBytes8 a0 :: leBytes8 a1 :: leBytes8 a2 :: leBytes8 a3 :: leBytes8 b0 :: leBytes8 b1 :: leBytes8 b2 ::
          leBytes8 b3 :: chunksExact8 (List.replicate 32 0 ++ [if i then 1 else 0] ++ tail) := by
      simp only [toRawBytes, List.flatMap_cons, List.flatMap_nil, List.append_assoc, chunksExact8_leBytes8,
        List.nil_append]
    rw [hw]
    simp only [List.map_cons, List.getD_cons_zero, List.getD_cons_succ, u64FromLe_leBytes8 h0,
      u64FromLe_leBytes8 h1, u64FromLe_leBytes8 h2, u64FromLe_leBytes8 h3, u64FromLe_leBytes8 k0,
      u64FromLe_leBytes8 k1, u64FromLe_leBytes8 k2, u64FromLe_leBytes8 k3]
    cases i <;> rfl

/-- **C27.** A slice cut after the coordinates gives the same coordinates and never the identity flag. -/
theorem C27_truncated (p : RawAff) (hx : p.x.Wf) (hy : p.y.Wf) (n : Nat) (h1 : 64 ≤ n) (h2 : n < 97) :
    fromSliceUnchecked ((toRawBytes p).take n) = { p with inf := false } := by
  obtain ⟨⟨a0, a1, a2, a3⟩, ⟨b0, b1, b2, b3⟩, i⟩ := p
  obtain ⟨h0, h1', h2', h3⟩ := hx
  obtain ⟨k0, k1, k2, k3⟩ := hy
  have hlen : ∀ n, (leBytes8 n).length = 8 := fun n => by rw [leBytes8_eq]; rfl
  unfold fromSliceUnchecked
  have : ¬ RAW_SIZE ≤ ((toRawBytes ⟨⟨a0, a1, a2, a3⟩, ⟨b0, b1, b2, b3⟩, i⟩).take n).length := by
    rw [List.length_take]; unfold RAW_SIZE; omega
  rw [if_neg this]
  have hpre : ([a0, a1, a2, a3, b0, b1, b2, b3].flatMap leBytes8).length = 64 := by simp [hlen]
  have hw : chunksExact8 ((toRawBytes ⟨⟨a0, a1, a2, a3⟩, ⟨b0, b1, b2, b3⟩, i⟩).take n) =
      leBytes8 a0 :: leBytes8 a1 :: leBytes8 a2 :: leBytes8 a3 :: leBytes8 b0 :: leBytes8 b1 :: leBytes8 b2 ::
        leBytes8 b3 :: chunksExact8 ((List.replicate 32 0 ++ [if i then 1 else 0]).take (n - 64)) := by
    simp only [toRawBytes]
    rw [List.append_assoc, List.take_append, hpre, List.take_of_length_le (by rw [hpre]; exact h1)]
    simp only [List.flatMap_cons, List.flatMap_nil, List.append_assoc, chunksExact8_leBytes8, List.nil_append]
  rw [hw]
  simp only [List.map_cons, List.getD_cons_zero, List.getD_cons_succ, u64FromLe_leBytes8 h0,
    u64FromLe_leBytes8 h1', u64FromLe_leBytes8 h2', u64FromLe_leBytes8 h3, u64FromLe_leBytes8 k0,
    u64FromLe_leBytes8 k1, u64FromLe_leBytes8 k2, u64FromLe_leBytes8 k3]

/-- C27: a concrete struct. -/
example : (⟨⟨1, 2 ^ 64 - 1, 3, 4⟩, ⟨5, 6, 7, 8⟩, true⟩ : RawAff).x.Wf ∧
    (⟨⟨1, 2 ^ 64 - 1, 3, 4⟩, ⟨5, 6, 7, 8⟩, true⟩ : RawAff).y.Wf := by decide

end Kogarashi.Props
