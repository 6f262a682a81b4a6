import Verif.Groth16.FftChecked
import Verif.Props.Poly

/-!
# Property C40: the transforms never index out of range

`dftChecked` and its three companions are the transforms with every index of the code checked (`Groth16/FftChecked.lean`).
-/

namespace Kogarashi.Props

open Kogarashi Spec Groth16 Field

variable {F : Type} [_root_.Field F] [DecidableEq F]

private theorem prepare_ok {f : Fft F} (h : ∀ e ∈ f.bitReverse, e.1 < f.n ∧ e.2 < f.n) (l : List F) :
    prepareChecked f l = some (prepareFft f l) ∧ (prepareFft f l).length = f.n := by
  unfold prepareChecked prepareFft
  have : ∀ (es : List (Nat × Nat)) (l : List F), (∀ e ∈ es, e.1 < f.n ∧ e.2 < f.n) → l.length = f.n →
      es.foldlM (fun acc e => swapChecked acc e.2 e.1) l = some (es.foldl (fun acc e => swapAt acc e.2 e.1) l) ∧
      (es.foldl (fun acc e => swapAt acc e.2 e.1) l).length = f.n := by
    intro es
    induction es with
    | nil => intro l _ hl; exact ⟨rfl, hl⟩
    | cons e es ih =>
      intro l he hl
      have h0 := he e (List.mem_cons_self ..)
      rw [List.foldlM_cons, List.foldl_cons, swapChecked, if_pos ⟨hl ▸ h0.2, hl ▸ h0.1⟩]
      exact ih _ (fun e' h' => he e' (List.mem_cons_of_mem _ h')) (by rw [swapAt_length, hl])
  exact this _ _ h (resize_length _ _)

private theorem butterflyFrom_ok (chunk : Nat) (tw : List F) : ∀ (as bs : List F) (i : Nat), as.length = bs.length →
    (∀ j, i ≤ j → j < i + as.length → j * chunk < tw.length) →
    butterflyFromChecked chunk tw i as bs = some (butterflyFrom chunk tw i as bs) ∧
    (butterflyFrom chunk tw i as bs).1.length = as.length ∧ (butterflyFrom chunk tw i as bs).2.length = as.length
  | [], [], _, _, _ => ⟨rfl, rfl, rfl⟩
  | [], _ :: _, _, h, _ => by simp at h
  | _ :: _, [], _, h, _ => by simp at h
  | a :: as, b :: bs, i, h, hj => by
    have h' : as.length = bs.length := by simpa using h
    obtain ⟨e1, e2, e3⟩ := butterflyFrom_ok chunk tw as bs (i + 1) h' (fun j h1 h2 => hj j (by omega) (by simp; omega))
    have hi : i * chunk < tw.length := hj i le_rfl (by simp)
    unfold butterflyFromChecked butterflyFrom
    rw [List.getElem?_eq_getElem hi, List.getD_eq_getElem _ _ hi]
    simp only [Option.bind_eq_bind, Option.bind_some]
    rw [e1]
    exact ⟨rfl, by simp [e2], by simp [e3]⟩

private theorem fftArith_ok (tw : List F) : ∀ (k chunk : Nat) (l : List F), 1 ≤ chunk → l.length = 2 ^ (k + 1) → 2 ^ k * chunk ≤ tw.length →
    fftArithChecked tw k chunk l = some (fftArith tw k chunk l) ∧ (fftArith tw k chunk l).length = 2 ^ (k + 1)
  | 0, chunk, l, _, hl, _ => by
    rcases l with _ | ⟨a, _ | ⟨b, _ | ⟨c, l⟩⟩⟩ <;> simp at hl
    exact ⟨rfl, rfl⟩
  | k + 1, chunk, l, hc, hl, ht => by
    have h2 : 2 ^ (k + 1 + 1) = 2 ^ (k + 1) + 2 ^ (k + 1) := by rw [pow_succ]; omega
    have ht' : 2 ^ k * (chunk * 2) ≤ tw.length := by
      have : 2 ^ k * (chunk * 2) = 2 ^ (k + 1) * chunk := by ring
      omega
    obtain ⟨l1, l2⟩ := fftArith_ok tw k (chunk * 2) (l.take (2 ^ (k + 1))) (by omega) (by rw [List.length_take, hl]; omega) ht'
    obtain ⟨r1, r2⟩ := fftArith_ok tw k (chunk * 2) (l.drop (2 ^ (k + 1))) (by omega) (by rw [List.length_drop, hl]; omega) ht'
    unfold fftArithChecked fftArith
    dsimp only
    rw [if_pos (by omega), l1, r1]
    simp only [Option.bind_eq_bind, Option.bind_some]
    have pos : 0 < 2 ^ (k + 1) := by positivity
    generalize fftArith tw k (chunk * 2) (l.take (2 ^ (k + 1))) = L at l2 ⊢
    generalize fftArith tw k (chunk * 2) (l.drop (2 ^ (k + 1))) = R at r2 ⊢
    rcases L with _ | ⟨a, as⟩
    · simp at l2; omega
    rcases R with _ | ⟨b, bs⟩
    · simp at r2; omega
    rw [List.length_cons] at l2 r2
    obtain ⟨e1, e2, e3⟩ := butterflyFrom_ok chunk tw as bs 1 (by omega) (fun j _ h => by
      have : (j + 1) * chunk ≤ 2 ^ (k + 1) * chunk := Nat.mul_le_mul_right _ (by omega)
      rw [Nat.add_mul] at this
      omega)
    unfold butterflyChecked butterfly
    dsimp only
    rw [e1]
    refine ⟨rfl, ?_⟩
    simp only [Option.bind_some, List.length_append, List.length_cons, e2, e3]
    omega

/-- **C40, no panic.** Whatever vector the four transforms are given, of any length, every index they use is in range: with the checks of
the code they return the same vector as without. -/
theorem C40_no_panic {S : Nat} {root gen : F} {k : Nat} {f : Fft F} (hS : S < 64) (hf : Fft.new S root gen k = some f) (l : List F) :
    dftChecked f l = some (dft f l) ∧ idftChecked f l = some (idft f l) ∧ cosetDftChecked f l = some (cosetDft f l) ∧
    cosetIdftChecked f l = some (cosetIdft f l) := by
  obtain ⟨hk1, hkS⟩ := new_some hf
  obtain ⟨j, rfl⟩ := Nat.exists_eq_add_of_le' hk1
  have hn : f.n = 2 ^ (j + 1) ∧ f.bitReverse = bitReversePairs (j + 1) ∧ f.twiddles.length = 2 ^ j ∧ f.invTwiddles.length = 2 ^ j := by
    unfold Fft.new at hf
    rw [if_neg (by omega), if_neg (by omega)] at hf
    simp only [Option.bind_eq_bind, Option.bind_eq_some_iff, Option.some.injEq] at hf
    obtain ⟨_, _, _, _, _, _, rfl⟩ := hf
    have : 2 ^ (j + 1) / 2 = 2 ^ j := by rw [pow_succ]; omega
    exact ⟨rfl, rfl, by simp [powersFrom_eq, this], by simp [powersFrom_eq, this]⟩
  obtain ⟨hn, hb, ht, hi⟩ := hn
  have hbr : ∀ e ∈ f.bitReverse, e.1 < f.n ∧ e.2 < f.n := by
    rw [hb, hn]
    intro e he
    obtain ⟨i, hi, h⟩ := List.mem_filterMap.mp he
    dsimp only at h
    split at h
    · cases h
      refine ⟨List.mem_range.mp hi, ?_⟩
      dsimp only
      rw [revBits_shift (by omega)]
      exact revBits_lt _ _
    · cases h
  have hlog : f.n.log2 - 1 = j := by rw [hn, Nat.log2_two_pow]; omega
  have d : ∀ l, dftChecked f l = some (dft f l) := by
    intro l
    obtain ⟨p1, p2⟩ := prepare_ok hbr l
    unfold dftChecked dft
    rw [p1, hlog]
    exact (fftArith_ok _ _ _ _ le_rfl (by rw [p2, hn]) (by rw [ht, mul_one])).1
  have i : ∀ l, idftChecked f l = some (idft f l) := by
    intro l
    obtain ⟨p1, p2⟩ := prepare_ok hbr l
    unfold idftChecked idft
    rw [p1, hlog]
    simp only [Option.bind_eq_bind, Option.bind_some]
    rw [(fftArith_ok _ _ _ _ le_rfl (by rw [p2, hn]) (by rw [hi, mul_one])).1]
    rfl
  refine ⟨d l, i l, d _, ?_⟩
  unfold cosetIdftChecked cosetIdft
  rw [i]
  rfl

/-- The transform of size eight over the field of 17 elements, on a vector that is too long. -/
example : ∃ f : Fft (ZMod 17), Fft.new 4 (3 : ZMod 17) 3 3 = some f ∧ dftChecked f (List.replicate 9 1) = some (dft f (List.replicate 9 1)) := by
  obtain ⟨f, hf⟩ := (C40_new 4 (3 : ZMod 17) 3 (by norm_num) (by decide) (by decide) (by decide) 3).mpr ⟨by norm_num, by norm_num⟩
  exact ⟨f, hf, (C40_no_panic (by norm_num) hf _).1⟩

end Kogarashi.Props
