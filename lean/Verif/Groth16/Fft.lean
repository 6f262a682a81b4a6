import Verif.Groth16.Poly

/-!
# Model: the fast Fourier transform (`groth16/src/fft.rs`)

`S`, `root`, `gen` are `F::S`, `F::ROOT_OF_UNITY`, `F::MULTIPLICATIVE_GENERATOR`.
-/

namespace Kogarashi.Groth16

variable {F : Type} [Field F] [DecidableEq F]

/-- `fft.rs:8-23` `struct Fft`. -/
structure Fft (F : Type) where
  n : Nat
  twiddles : List F
  invTwiddles : List F
  cosets : List F
  invCosets : List F
  nInv : F
  bitReverse : List (Nat × Nat)
  gen : F

/-- `reverse_bits` on the `w` low bits: bit `j` of the argument becomes bit `w - 1 - j`. -/
def revBits : Nat → Nat → Nat
  | 0, _ => 0
  | w + 1, i => 2 ^ w * (i % 2) + revBits w (i / 2)

/-- `fft.rs:73-78`: the pairs exchanged; `reverse_bits` on `u64`, shifted right by `64 - k`. -/
def bitReversePairs (k : Nat) : List (Nat × Nat) :=
  (List.range (2 ^ k)).filterMap (fun i =>
    let r := revBits 64 i / 2 ^ (64 - k)
    if i < r then some (i, r) else none)

/-- `fft.rs:33`: squaring `S - k` times. -/
def squareTimes : Nat → F → F
  | 0, g => g
  | n + 1, g => squareTimes n (g * g)

/-- `invert().unwrap()` (in `fft.rs:27-89`): a panic on zero. -/
def invertUnwrap (a : F) : Option F := if a = 0 then none else some a⁻¹

/-- `fft.rs:27-89` `Fft::new`.  The assertion `k ≥ 1`, the subtraction `F::S - k` and the `unwrap`s panic (`none`). -/
def Fft.new (S : Nat) (root gen : F) (k : Nat) : Option (Fft F) :=
  if k = 0 then none
  else if S < k then none
  else do
    let n : Nat := 2 ^ k
    let halfN := n / 2
    let g := squareTimes (S - k) root
    let gInv ← invertUnwrap g
    let genInv ← invertUnwrap gen
    let nInv ← invertUnwrap (n : F)
    some { n := n, twiddles := powersFrom g halfN 1, invTwiddles := powersFrom gInv halfN 1,
           cosets := powersFrom gen n 1, invCosets := powersFrom genInv n 1, nInv := nInv,
           bitReverse := bitReversePairs k, gen := gen }

/-- `slice::swap` (Rust standard library).  (Out of range it panics; `prepareFft` only uses indices below `n`.) -/
def swapAt (l : List F) (i j : Nat) : List F := (l.set i (l.getD j 0)).set j (l.getD i 0)

/-- `Vec::resize(n, zero)` (Rust standard library). -/
def resize (l : List F) (n : Nat) : List F := l.take n ++ List.replicate (n - l.length) 0

/-- `fft.rs:157-162` `prepare_fft`. -/
def prepareFft (f : Fft F) (l : List F) : List F :=
  f.bitReverse.foldl (fun acc e => swapAt acc e.2 e.1) (resize l f.n)

/-- The loop of `butterfly_arithmetic` from index `i`, `fft.rs:207-217`.  A twiddle index out of range panics in
the code and reads 0 here; `C40_no_panic` shows that none is. -/
def butterflyFrom (chunk : Nat) (tw : List F) : Nat → List F → List F → List F × List F
  | i, a :: as, b :: bs =>
    let t := b * tw.getD (i * chunk) 0
    let rest := butterflyFrom chunk tw (i + 1) as bs
    ((a + t) :: rest.1, (a - t) :: rest.2)
  | _, as, bs => (as, bs)

/-- `fft.rs:195-218` `butterfly_arithmetic`; index 0 is handled without a twiddle factor. -/
def butterfly (chunk : Nat) (tw : List F) : List F → List F → List F × List F
  | a :: as, b :: bs =>
    let rest := butterflyFrom chunk tw 1 as bs
    ((a + b) :: rest.1, (a - b) :: rest.2)
  | as, bs => (as, bs)

/-- `fft.rs:166-192` `classic_fft_arithmetic` on `n = 2 ^ (k + 1)` values.  `rayon::join` runs the two halves, which
share no data, in either order. -/
def fftArith (tw : List F) : Nat → Nat → List F → List F
  | 0, _, [a, b] => [a + b, a - b]
  | 0, _, l => l
  | k + 1, chunk, l =>
    let half := 2 ^ (k + 1)
    let left := fftArith tw k (chunk * 2) (l.take half)
    let right := fftArith tw k (chunk * 2) (l.drop half)
    let r := butterfly chunk tw left right
    r.1 ++ r.2

/-- `fft.rs:92-97` `dft`; `f.n = 2 ^ k`. -/
def dft (f : Fft F) (coeffs : List F) : List F := fftArith f.twiddles (f.n.log2 - 1) 1 (prepareFft f coeffs)

/-- `fft.rs:100-106` `idft`. -/
def idft (f : Fft F) (points : List F) : List F :=
  coeffsNew ((fftArith f.invTwiddles (f.n.log2 - 1) 1 (prepareFft f points)).map (fun c => c * f.nInv))

/-- `fft.rs:109-116` `coset_dft`: `zip` stops at the shorter list, further coefficients stay unscaled. -/
def cosetScale : List F → List F → List F
  | c :: cs, s :: ss => c * s :: cosetScale cs ss
  | cs, [] => cs
  | [], _ => []

/-- `fft.rs:109-116` `coset_dft`. -/
def cosetDft (f : Fft F) (coeffs : List F) : List F := dft f (cosetScale coeffs f.cosets)

/-- `fft.rs:119-127` `coset_idft`. -/
def cosetIdft (f : Fft F) (points : List F) : List F := coeffsNew (cosetScale (idft f points) f.invCosets)

/-- `fft.rs:131-136` `z`. -/
def Fft.z (f : Fft F) (tau : F) : F := tau ^ f.n - 1

/-- `fft.rs:140-145` `z_on_coset`. -/
def Fft.zOnCoset (f : Fft F) : F := f.gen ^ f.n - 1

/-- `fft.rs:150-154` `divide_by_z_on_coset`. -/
def divideByZOnCoset (f : Fft F) (points : List F) : Option (List F) := do
  let i ← invertUnwrap f.zOnCoset
  some (points.map (fun v => v * i))

end Kogarashi.Groth16
