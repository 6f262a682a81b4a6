import Verif.Tower.Fqn
import Verif.Field.Params

/-!
# Comparisons of extension-field elements (`zkstd/src/macros/extension_field/ring.rs`)

The macro text is the same at every level of the tower and uses the comparisons of the level below.
-/

namespace Kogarashi.Tower

open Limbs Kogarashi.Field

/-- The comparisons of a field type: `==`, `<`, `>` are the ones the next level calls. -/
structure CmpOps (α : Type) where
  eq : α → α → Bool
  lt : α → α → Bool
  le : α → α → Bool
  gt : α → α → Bool
  ge : α → α → Bool
  cmp : α → α → Ordering

/-- The comparisons of the base field (`zkstd/src/macros/field/ring.rs` lines 21-74, `field/group.rs` lines 27-31). -/
def fqCmp : CmpOps L4 where
  eq := FieldParams.eq
  lt := FieldParams.lt
  le := FieldParams.le
  gt := FieldParams.gt
  ge := FieldParams.ge
  cmp := FieldParams.cmp

/-- The loop of `lt`, `le`, `gt`, `ge` over the coefficient pairs from the top: the first pair that differs is compared,
and `dflt` is returned if there is none. -/
def firstDiff {α : Type} (o : CmpOps α) (on : α → α → Bool) (dflt : Bool) : List (α × α) → Bool
  | [] => dflt
  | (a, b) :: rest => if !(o.eq a b) then on a b else firstDiff o on dflt rest

/-- The loop of `Ord::cmp` (`zkstd/src/macros/extension_field/ring.rs` lines 63-73). -/
def cmpPairs {α : Type} (o : CmpOps α) : List (α × α) → Ordering
  | [] => .eq
  | (a, b) :: rest => if o.lt a b then .lt else if o.gt a b then .gt else cmpPairs o rest

/-- The comparisons the macro generates for a type whose coefficients, lowest first, are `coeffs`:
`eq` `zkstd/src/macros/extension_field/group.rs` lines 28-36, `lt` `ring.rs` lines 25-32, `le` 34-41, `gt` 43-50,
`ge` 52-59, `cmp` 62-74. -/
def extCmp {α β : Type} (o : CmpOps α) (coeffs : β → List α) : CmpOps β where
  eq a b := ((coeffs a).zip (coeffs b)).foldl (fun acc p => acc && o.eq p.1 p.2) true
  lt a b := firstDiff o o.lt false ((coeffs a).reverse.zip (coeffs b).reverse)
  le a b := firstDiff o o.lt true ((coeffs a).reverse.zip (coeffs b).reverse)
  gt a b := firstDiff o o.gt false ((coeffs a).reverse.zip (coeffs b).reverse)
  ge a b := firstDiff o o.gt true ((coeffs a).reverse.zip (coeffs b).reverse)
  cmp a b := cmpPairs o ((coeffs a).reverse.zip (coeffs b).reverse)

/-- The comparisons of `Fq2` (`bn254/src/fqn.rs` line 13). -/
def fq2Cmp : CmpOps (Fq2 L4) := extCmp fqCmp fun a => [a.c0, a.c1]

/-- The comparisons of `Fq6` (`bn254/src/fqn.rs` line 17). -/
def fq6Cmp : CmpOps (Fq6 L4) := extCmp fq2Cmp fun a => [a.c0, a.c1, a.c2]

/-- The comparisons of `Fq12` (`bn254/src/fqn.rs` line 21). -/
def fq12Cmp : CmpOps (Fq12 L4) := extCmp fq6Cmp fun a => [a.c0, a.c1]

end Kogarashi.Tower
