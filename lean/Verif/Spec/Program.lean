import Mathlib.Algebra.Field.Basic

/-!
# Specification of arithmetic programs

A program is a list of equations between arithmetic expressions over public and private inputs.  Nothing here mentions circuits.
-/

namespace Kogarashi.Spec

/-- Expressions over `np` public and `nw` private inputs. -/
inductive Expr (F : Type) (np nw : Nat) where
  | pub (i : Fin np)
  | priv (i : Fin nw)
  | const (c : F)
  | add (a b : Expr F np nw)
  | sub (a b : Expr F np nw)
  | neg (a : Expr F np nw)
  | scale (a : Expr F np nw) (k : F)
  | mul (a b : Expr F np nw)
  | square (a : Expr F np nw)
  | sum (a b : Expr F np nw)

/-- The value of an expression. -/
def Expr.eval {F : Type} [Field F] {np nw : Nat} (x : Fin np → F) (w : Fin nw → F) : Expr F np nw → F
  | .pub i => x i
  | .priv i => w i
  | .const c => c
  | .add a b => a.eval x w + b.eval x w
  | .sub a b => a.eval x w - b.eval x w
  | .neg a => - a.eval x w
  | .scale a k => a.eval x w * k
  | .mul a b => a.eval x w * b.eval x w
  | .square a => a.eval x w * a.eval x w
  | .sum a b => a.eval x w + b.eval x w

/-- A list of equations. -/
abbrev Program (F : Type) (np nw : Nat) := List (Expr F np nw × Expr F np nw)

/-- Every equation holds. -/
def Program.Holds {F : Type} [Field F] {np nw : Nat} (P : Program F np nw) (x : Fin np → F) (w : Fin nw → F) : Prop :=
  ∀ p ∈ P, p.1.eval x w = p.2.eval x w

end Kogarashi.Spec
