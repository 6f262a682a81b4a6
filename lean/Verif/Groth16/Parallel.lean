import Verif.Groth16.Fft
import Verif.Groth16.Msm
import Verif.Spec.Schedule

/-!
# Model: the parallel parts of the prover, cell by cell

`groth16/src/fft.rs` calls `rayon::join` and `groth16/src/msm.rs` a parallel iterator. Here every read and write of the shared
vectors is a step of its own, so that the threads may interleave between any two of them.
-/

namespace Kogarashi.Groth16

open Kogarashi.Spec

section Fft

variable {F : Type} [Field F]

/-- `*b = *a; *a += t; *b -= t;` at the cells `a` and `b` (`fft.rs:173-175`, `204-206`, `214-216`). -/
def crossProg (a b : Nat) (t : F) (next : Prog F) : Prog F :=
  .rd a fun x => .wr b x (.rd a fun x' => .wr a (x' + t) (.rd b fun y => .wr b (y - t) next))

/-- The loop of `butterfly_arithmetic` (`fft.rs:208-217`), `r` rounds from index `i` on; `left` starts at cell `off`, `right` at
`off + half`. `twiddles[i * twiddle_chunk]` panics outside the table. -/
def butterflyProg (tw : List F) (chunk off half : Nat) : Nat → Nat → Prog F → Prog F
  | 0, _, next => next
  | r + 1, i, next => .rd (off + half + i) fun t =>
    match tw[i * chunk]? with
    | some w => crossProg (off + i) (off + half + i) (t * w) (butterflyProg tw chunk off half r (i + 1) next)
    | none => .panic

/-- `classic_fft_arithmetic` (`fft.rs:166-192`) on the `2^(k+1)` cells from `off` on, with `rayon::join` for the two halves (feature
`std`). -/
def fftProg (tw : List F) : Nat → Nat → Nat → Prog F
  | 0, off, _ => .rd (off + 1) fun t => crossProg off (off + 1) t .done
  | k + 1, off, chunk =>
    let half := 2 ^ (k + 1)
    .join (fftProg tw k off (chunk * 2)) (fftProg tw k (off + half) (chunk * 2))
      (.rd (off + half) fun t => crossProg off (off + half) t (butterflyProg tw chunk off half (half - 1) 1 .done))

end Fft

section Msm

variable {A E : Type}

/-- The cells of `msm_curve_addition`: buckets (`msm.rs:16`) and the slots `collect` fills (`msm.rs:46`). -/
inductive Cell (A E : Type) where
  | bucket : Bucket A E → Cell A E
  | out : Option E → Cell A E

/-- The filling loop of segment `i` (`msm.rs:26-31`); its row of buckets starts at cell `base`. `bucket[seg - 1]` panics outside the
row. -/
def fillProg (ops : MsmOps A E) (i c base : Nat) : List (List Nat × A) → Prog (Cell A E) → Prog (Cell A E)
  | [], next => next
  | e :: es, next =>
    let seg := getAt i c e.1
    if seg ≠ 0 then
      if seg - 1 < 2 ^ c - 1 then
        .rd (base + (seg - 1)) fun v => match v with
          | .bucket b => .wr (base + (seg - 1)) (.bucket (b.addAssign ops e.2)) (fillProg ops i c base es next)
          | .out _ => .panic
      else .panic
    else fillProg ops i c base es next

/-- The summation by parts (`msm.rs:36-42`) over the first `j` buckets of the row, last first. -/
def partsProg (ops : MsmOps A E) (base : Nat) : Nat → E × E → (E → Prog (Cell A E)) → Prog (Cell A E)
  | 0, s, next => next s.1
  | j + 1, s, next => .rd (base + j) fun v => match v with
    | .bucket b => partsProg ops base j (partsStep ops s b) next
    | .out _ => .panic

/-- The closure given to `map` (`msm.rs:25-45`) for segment `i` of `n`; the result goes to its slot of the collected vector, which
`rev` turns round. -/
def segmentProg (ops : MsmOps A E) (c n : Nat) (coeffs : List (List Nat)) (bases : List A) (i : Nat) (next : Prog (Cell A E)) :
    Prog (Cell A E) :=
  fillProg ops i c (i * (2 ^ c - 1)) (coeffs.zip bases)
    (partsProg ops (i * (2 ^ c - 1)) (2 ^ c - 1) (ops.zero, ops.zero) fun acc =>
      .wr (n * (2 ^ c - 1) + (n - 1 - i)) (.out (some (dblTimes ops (c * i) acc))) next)

/-- How `rayon` divides the work: a thread takes a piece (`leaf`), or splits it after `k` items and joins. -/
inductive Split where
  | leaf : Split
  | node : Nat → Split → Split → Split

/-- The segments of a piece one after the other, or two pieces at the same time (`par_iter_mut`, `msm.rs:18`). -/
def piecesProg (ops : MsmOps A E) (c n : Nat) (coeffs : List (List Nat)) (bases : List A) : Split → List Nat → Prog (Cell A E)
  | .leaf, is => is.foldr (segmentProg ops c n coeffs bases) .done
  | .node k s t, is =>
    .join (piecesProg ops c n coeffs bases s (is.take k)) (piecesProg ops c n coeffs bases t (is.drop k)) .done

/-- The vectors before the parallel part: `n` rows of empty buckets (`msm.rs:16`) and `n` slots without a result. -/
def msmCells (c n : Nat) : List (Cell A E) := List.replicate (n * (2 ^ c - 1)) (.bucket .none) ++ List.replicate n (.out none)

/-- `filled_buckets` (`msm.rs:22-46`) read off the slots. -/
def collected (c n : Nat) (m : List (Cell A E)) : List (Option E) :=
  (m.drop (n * (2 ^ c - 1))).map fun v => match v with
    | .out e => e
    | .bucket _ => none

end Msm

end Kogarashi.Groth16
