import Verif.Groth16.ParallelProof
import Verif.Groth16.FftProof
import Verif.Props.Msm
import Verif.Props.PrimeField

/-!
# C109: the parallel parts of the prover do not depend on the schedule

`Spec/Schedule.lean` says what a schedule is; `Groth16/Parallel.lean` spells the code of `fft.rs` and `msm.rs` out, cell by cell.
-/

namespace Kogarashi.Props

open Kogarashi.Spec Kogarashi.Groth16

section

variable {F : Type} [_root_.Field F]

/-- **C109, Fourier transform.** On any `2^(k+1)` values and any table of at least `2^k` factors, whatever the interleaving of the threads,
the transform ends without panic or data race with the values of the sequential one. -/
theorem C109_fft (tw : List F) (k : Nat) (l : List F) (hl : l.length = 2 ^ (k + 1)) (ht : 2 ^ k ≤ tw.length) :
    Outcome (fftProg tw k 0 1) l (fftArith tw k 1 l) := by
  have hw := fftProg_within tw k 1 0 (by omega) one_pos
  have h := outcome_of_within (m := l) (fun i hi => by have := hi.2; omega) (T := fun _ _ => True) (fun _ _ _ => trivial) hw
  have e := fftProg_eval tw k 1 [] l [] hl (by omega) one_pos
  simp only [List.nil_append, List.append_nil, List.length_nil] at e
  rwa [e] at h

variable [DecidableEq F]

omit [DecidableEq F] in
theorem length_prepareFft (f : Fft F) (l : List F) : (prepareFft f l).length = f.n := by
  unfold prepareFft
  generalize f.bitReverse = bs
  have : ∀ m : List F, (bs.foldl (fun acc e => swapAt acc e.2 e.1) m).length = m.length := by
    induction bs with
    | nil => intro m; rfl
    | cons b bs ih => intro m; rw [List.foldl_cons, ih, swapAt_length]
  rw [this, resize_length]

omit [DecidableEq F] in
theorem length_powersFrom (g : F) : ∀ (n : Nat) (x : F), (powersFrom g n x).length = n
  | 0, _ => rfl
  | n + 1, x => by simp [powersFrom, length_powersFrom g n]

theorem new_tables {S : Nat} {root gen : F} {k : Nat} {f : Fft F} (h : Fft.new S root gen k = some f) :
    k ≠ 0 ∧ f.n = 2 ^ k ∧ f.twiddles.length = 2 ^ k / 2 ∧ f.invTwiddles.length = 2 ^ k / 2 := by
  unfold Fft.new at h
  split at h
  · cases h
  · rename_i hk
    split at h
    · cases h
    · simp only [Option.bind_eq_bind, Option.bind_eq_some_iff, Option.some.injEq] at h
      obtain ⟨_, _, _, _, _, _, rfl⟩ := h
      exact ⟨hk, rfl, length_powersFrom _ _ _, length_powersFrom _ _ _⟩

/-- **C109, transforms of the prover.** For every domain `Fft::new` makes and every polynomial, `dft` and `idft` give the same under every
schedule; `coset_dft` and `coset_idft` call these. -/
theorem C109_dft {S : Nat} {root gen : F} {k : Nat} {f : Fft F} (h : Fft.new S root gen k = some f) (l : List F) :
    Outcome (fftProg f.twiddles (f.n.log2 - 1) 0 1) (prepareFft f l) (dft f l) ∧
    ∃ l', Outcome (fftProg f.invTwiddles (f.n.log2 - 1) 0 1) (prepareFft f l) l' ∧ idft f l = coeffsNew (l'.map (fun c => c * f.nInv)) := by
  obtain ⟨hk, hn, h1, h2⟩ := new_tables h
  obtain ⟨k, rfl⟩ := Nat.exists_eq_succ_of_ne_zero hk
  have hlog : f.n.log2 - 1 = k := by rw [hn, Nat.log2_two_pow]; rfl
  have hhalf : 2 ^ (k + 1) / 2 = 2 ^ k := by rw [pow_succ]; omega
  have hl : (prepareFft f l).length = 2 ^ (k + 1) := by rw [length_prepareFft, hn]
  refine ⟨?_, _, ?_, rfl⟩
  · unfold dft
    rw [hlog]
    exact C109_fft _ k _ hl (by rw [h1]; exact hhalf.ge)
  · rw [hlog]
    exact C109_fft _ k _ hl (by rw [h2]; exact hhalf.ge)

end

/-- **C109, multi-scalar multiplication.** However the segments are divided among threads and however these interleave, the parallel part ends
without panic or data race, every segment's result is in its slot, and adding them up gives the value of the sequential function. -/
theorem C109_msm {A E : Type} (ops : MsmOps A E) (bases : List A) (coeffs : List (List Nat)) (sp : Split) {c n : Nat}
    (hc : c = windowSize bases.length) (hn : n = 256 / c + 1) :
    ∃ (m : List (Cell A E)) (sums : List E),
      Outcome (piecesProg ops c n coeffs bases sp (List.range n).reverse) (msmCells c n) m ∧
      collected c n m = sums.map some ∧ sums.foldl ops.addEE ops.zero = msm ops bases coeffs := by
  have hnd : (List.range n).reverse.Nodup := List.nodup_reverse.mpr List.nodup_range
  have hlt : ∀ i ∈ (List.range n).reverse, i < n := fun i hi => List.mem_range.mp (List.mem_reverse.mp hi)
  have hlen : (msmCells c n : List (Cell A E)).length = n * (2 ^ c - 1) + n := by simp [msmCells]
  have hcell : ∀ x v, (msmCells c n : List (Cell A E))[x]? = some v →
      (x < n * (2 ^ c - 1) → v = .bucket .none) ∧ (n * (2 ^ c - 1) ≤ x → v = .out none) := by
    intro x v hv
    unfold msmCells at hv
    rw [List.getElem?_append, List.length_replicate] at hv
    split at hv
    · rename_i hx
      rw [List.getElem?_replicate, if_pos hx] at hv
      cases hv
      exact ⟨fun _ => rfl, fun h => by omega⟩
    · rename_i hx
      rw [List.getElem?_replicate] at hv
      split at hv
      · cases hv; exact ⟨fun h => absurd h hx, fun _ => rfl⟩
      · cases hv
  have hT : Typed (cellKind c n) (msmCells c n : List (Cell A E)) := by
    intro x v hv
    rcases Nat.lt_or_ge x (n * (2 ^ c - 1)) with h | h
    · rw [(hcell x v hv).1 h]; exact h
    · rw [(hcell x v hv).2 h]; exact h
  have hrow : ∀ i ∈ (List.range n).reverse, RowAt (msmCells c n : List (Cell A E)) (i * (2 ^ c - 1)) (List.replicate (2 ^ c - 1) .none) := by
    intro i hi j b hb
    rw [List.getElem?_replicate] at hb
    split at hb
    · cases hb
      have h1 : (i + 1) * (2 ^ c - 1) ≤ n * (2 ^ c - 1) := Nat.mul_le_mul_right _ (hlt i hi)
      have h2 : (i + 1) * (2 ^ c - 1) = i * (2 ^ c - 1) + (2 ^ c - 1) := Nat.succ_mul _ _
      have hx : i * (2 ^ c - 1) + j < (msmCells c n : List (Cell A E)).length := by rw [hlen]; omega
      rw [List.getElem?_eq_getElem hx, (hcell _ _ (List.getElem?_eq_getElem hx)).1 (by omega)]
    · cases hb
  have hw := piecesProg_within ops coeffs bases c n sp (List.range n).reverse hnd hlt
  have hev := piecesProg_eval ops coeffs bases c n sp (List.range n).reverse hnd hlt (msmCells c n) hlen hT hrow
  refine ⟨_, (List.range n).reverse.map (segment ops c coeffs bases), outcome_of_within ?_ hT hw, ?_, ?_⟩
  · rintro x ⟨i, hi, hx⟩
    have h0 := hlt i hi
    have h1 : (i + 1) * (2 ^ c - 1) ≤ n * (2 ^ c - 1) := Nat.mul_le_mul_right _ h0
    rw [hlen]
    rcases hx with ⟨_, hx⟩ | hx
    · omega
    · omega
  · generalize hm : eval (piecesProg ops c n coeffs bases sp (List.range n).reverse) (msmCells c n) = m at hev
    have hml : m.length = n * (2 ^ c - 1) + n := by rw [← hm, eval_length, hlen]
    refine List.ext_getElem (by simp [collected, hml]) fun x h1 h2 => ?_
    have hx : x < n := by simpa using h2
    have := hev (n - 1 - x) (by simp; omega)
    rw [show n - 1 - (n - 1 - x) = x by omega] at this
    have e : m[n * (2 ^ c - 1) + x]'(by omega) = .out (some (segment ops c coeffs bases (n - 1 - x))) :=
      (List.getElem?_eq_some_iff.mp this).2
    simp [collected, e]
  · subst hc hn
    rfl

/-- Two threads writing one cell race: the specification rules that out. -/
example : Race (.join (.wr 0 true .done) (.rd 0 fun _ => .done) .done : Prog Bool) :=
  .inl ⟨0, true, false, ⟨rfl, rfl⟩, ⟨rfl, rfl⟩, .inl rfl⟩

/-- And their outcome depends on the schedule. -/
example : ¬∃ m, Outcome (.join (.wr 0 true .done) (.wr 0 false .done) .done : Prog Bool) [true] m := by
  rintro ⟨m, h⟩
  exact h.noRace _ .refl (.inl ⟨0, true, true, ⟨rfl, rfl⟩, ⟨rfl, rfl⟩, .inl rfl⟩)

/-- A transform of four values of Fr with two factors. -/
example : Outcome (fftProg [1, 2] 1 0 1) [1, 3, 2, 4] (fftArith [1, 2] 1 1 ([1, 3, 2, 4] : List Kogarashi.Props.FrV)) :=
  C109_fft [1, 2] 1 [1, 3, 2, 4] rfl (by simp)

end Kogarashi.Props
