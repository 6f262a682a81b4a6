import Verif.Groth16.Fft

/-!
# Model: the Fourier transform with every index checked (`groth16/src/fft.rs`)

`Groth16/Fft.lean` reads zero where the code would index out of range. Here every index, split and swap is checked as in the code,
and a failed check is a panic (`none`).
-/

namespace Kogarashi.Groth16

variable {F : Type} [Field F] [DecidableEq F]

/-- `slice::swap` (Rust standard library). -/
def swapChecked (l : List F) (i j : Nat) : Option (List F) :=
  if i < l.length ∧ j < l.length then some (swapAt l i j) else none

/-- `fft.rs:157-162` `prepare_fft`. -/
def prepareChecked (f : Fft F) (l : List F) : Option (List F) :=
  f.bitReverse.foldlM (fun acc e => swapChecked acc e.2 e.1) (resize l f.n)

/-- The loop of `butterfly_arithmetic` from index `i`, `fft.rs:207-217`, with the index into `twiddles` checked. -/
def butterflyFromChecked (chunk : Nat) (tw : List F) : Nat → List F → List F → Option (List F × List F)
  | i, a :: as, b :: bs => do
    let w ← tw[i * chunk]?
    let t := b * w
    let rest ← butterflyFromChecked chunk tw (i + 1) as bs
    some ((a + t) :: rest.1, (a - t) :: rest.2)
  | _, as, bs => some (as, bs)

/-- `fft.rs:195-218` `butterfly_arithmetic`: `left[0]` and `right[0]` must exist. -/
def butterflyChecked (chunk : Nat) (tw : List F) : List F → List F → Option (List F × List F)
  | a :: as, b :: bs => do
    let rest ← butterflyFromChecked chunk tw 1 as bs
    some ((a + b) :: rest.1, (a - b) :: rest.2)
  | _, _ => none

/-- `fft.rs:166-192` `classic_fft_arithmetic` with `n = 2 ^ (k + 1)`: `coeffs[0]`, `coeffs[1]` and the split point are checked. -/
def fftArithChecked (tw : List F) : Nat → Nat → List F → Option (List F)
  | 0, _, a :: b :: rest => some ((a + b) :: (a - b) :: rest)
  | 0, _, _ => none
  | k + 1, chunk, l =>
    let half := 2 ^ (k + 1)
    if half ≤ l.length then do
      let left ← fftArithChecked tw k (chunk * 2) (l.take half)
      let right ← fftArithChecked tw k (chunk * 2) (l.drop half)
      let r ← butterflyChecked chunk tw left right
      some (r.1 ++ r.2)
    else none

/-- `fft.rs:92-97` `dft`; `f.n = 2 ^ k`. -/
def dftChecked (f : Fft F) (coeffs : List F) : Option (List F) := do
  let l ← prepareChecked f coeffs
  fftArithChecked f.twiddles (f.n.log2 - 1) 1 l

/-- `fft.rs:100-106` `idft`. -/
def idftChecked (f : Fft F) (points : List F) : Option (List F) := do
  let l ← prepareChecked f points
  let l ← fftArithChecked f.invTwiddles (f.n.log2 - 1) 1 l
  some (coeffsNew (l.map (fun c => c * f.nInv)))

/-- `fft.rs:109-116` `coset_dft`. -/
def cosetDftChecked (f : Fft F) (coeffs : List F) : Option (List F) := dftChecked f (cosetScale coeffs f.cosets)

/-- `fft.rs:119-127` `coset_idft`. -/
def cosetIdftChecked (f : Fft F) (points : List F) : Option (List F) := do
  let l ← idftChecked f points
  some (coeffsNew (cosetScale l f.invCosets))

end Kogarashi.Groth16
