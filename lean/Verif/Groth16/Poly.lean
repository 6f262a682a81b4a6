import Mathlib.Algebra.Field.Defs

/-!
# Model: polynomials (`groth16/src/poly.rs`)

`Coefficients(Vec<F>)` and `PointsValue(Vec<F>)` are lists, lowest index first.
-/

namespace Kogarashi.Groth16

variable {F : Type} [Field F] [DecidableEq F]

/-- `poly.rs:52-57`, `poly.rs:133-138` `format_degree`: pop trailing zeros. -/
def formatDegree (l : List F) : List F := (l.reverse.dropWhile (fun c => decide (c = 0))).reverse

/-- `poly.rs:61-63` `Coefficients::new`. -/
def coeffsNew (l : List F) : List F := formatDegree l

/-- `left.zip(right.chain(repeat(&zero)))` (`poly.rs:157-165`): the first list decides the length. -/
def zipLong (op : F → F → F) : List F → List F → List F
  | [], _ => []
  | a :: as, [] => op a 0 :: zipLong op as []
  | a :: as, b :: bs => op a b :: zipLong op as bs

/-- `left.chain(repeat(&zero)).zip(right)` (`poly.rs:171-180`): the second list decides the length. -/
def zipLongRight (op : F → F → F) (l r : List F) : List F := zipLong (fun a b => op b a) r l

/-- `poly.rs:154-166`, `poly.rs:197-209` `Add`. -/
def coeffsAdd (p q : List F) : List F :=
  if q.length < p.length then coeffsNew (zipLong (· + ·) p q) else coeffsNew (zipLong (· + ·) q p)

/-- `poly.rs:211-223` `Sub for Coefficients`: when `self` is not longer the operands are exchanged. -/
def coeffsSub (p q : List F) : List F :=
  if q.length < p.length then coeffsNew (zipLong (· - ·) p q) else coeffsNew (zipLong (· - ·) q p)

/-- `poly.rs:225-231` `Mul<&F>`. -/
def coeffsScale (p : List F) (s : F) : List F := coeffsNew (p.map (fun c => c * s))

/-- `poly.rs:38-45` `Sum`. -/
def coeffsSum (ps : List (List F)) : List F := ps.foldl coeffsAdd []

/-- `poly.rs:168-181` `Sub for &PointsValue`. -/
def pointsSub (p q : List F) : List F :=
  if q.length < p.length then zipLong (· - ·) p q else zipLongRight (· - ·) p q

/-- `poly.rs:183-195` `Mul for &PointsValue`. -/
def pointsMul (p q : List F) : List F :=
  if q.length < p.length then zipLong (· * ·) p q else zipLong (· * ·) q p

/-- `poly.rs:93-98` `evaluate`. -/
def evaluate (p : List F) (at_ : F) : F := p.reverse.foldl (fun acc c => acc * at_ + c) 0

/-- The `scan` of `divide`, `poly.rs:107-111`, with its running value `w`. -/
def divideScan (at_ : F) : List F → F → List F
  | [], _ => []
  | c :: cs, w => (w + c) :: divideScan at_ cs ((w + c) * at_)

/-- `poly.rs:102-116` `divide`. -/
def divide (p : List F) (at_ : F) : List F := ((divideScan at_ p.reverse 0).dropLast).reverse

/-- `poly.rs:149-151` `is_zero`. -/
def coeffsIsZero (p : List F) : Bool := p.isEmpty || p.all (fun c => decide (c = 0))

/-- `poly.rs:141-147` `degree`; the `assert!` is `none`. -/
def degree (p : List F) : Option Nat :=
  if coeffsIsZero p then some 0
  else if (p.getLast?).any (fun c => decide (c ≠ 0)) then some (p.length - 1) else none

/-- The running power of `scan` (`poly.rs:71-77`, `fft.rs:34-71`): `n` values from `w`, each `g` times the previous. -/
def powersFrom (g : F) : Nat → F → List F
  | 0, _ => []
  | n + 1, w => w :: powersFrom g n (w * g)

/-- `poly.rs:67-79` `setup`, the random element an argument. -/
def polySetup (k : Nat) (r : F) : List F := powersFrom r (2 ^ k) 1

/-- `poly.rs:82-90` `commit`; the `assert!` is `none`. -/
def commit (p domain : List F) : Option F :=
  if p.length ≤ domain.length then
    some ((p.zip (domain.drop (domain.length - p.length))).foldl (fun acc e => acc + e.1 * e.2) 0)
  else none

/-- `poly.rs:119-121` `t`. -/
def vanishing (n : Nat) (tau : F) : F := tau ^ n - 1

/-- One round of `blind`, `poly.rs:127-129`; an index out of range is `none`. -/
def blindStep (p : List F) (i : Nat) (s : F) : Option (List F) :=
  if h : i < p.length then some (p.set i (p[i] - s) ++ [s]) else none

/-- `poly.rs:125-131` `blind`, the random scalars an argument (`hiding_degree + 1` of them), from round `i`. -/
def blindFrom (p : List F) (i : Nat) : List F → Option (List F)
  | [] => some p
  | s :: ss => (blindStep p i s).bind (fun p' => blindFrom p' (i + 1) ss)

end Kogarashi.Groth16
