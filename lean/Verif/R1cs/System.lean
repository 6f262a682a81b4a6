import Verif.R1cs.Row

/-!
# Model: the constraint system

Model of `zkstd/src/r1cs.rs`.  The three matrices `a`, `b`, `c` are private and only ever grow
together through `append` (`r1cs.rs:79-89`), which also increments `m`; the model keeps one list of
row triples, from which `a`, `b`, `c`, `m` are read off.
-/

namespace Kogarashi

/-- One row of each of the three matrices, the arguments of `append` (`r1cs.rs:79-89`). -/
structure Constraint (F : Type) where
  a : Row F
  b : Row F
  c : Row F
deriving DecidableEq

/-- `r1cs.rs:15-27` `struct R1cs { m, a, b, c, x, w }` (see the module comment for `m, a, b, c`). -/
structure CS (F : Type) where
  x : List F
  w : List F
  cons : List (Constraint F)

namespace CS

variable {F : Type} [Field F] [DecidableEq F]

/-- `r1cs.rs:167-178` `Default`. -/
def init : CS F := { x := [1], w := [], cons := [] }

/-- matrix `a` (`r1cs.rs:15-27`) -/
def matA (cs : CS F) : List (Row F) := cs.cons.map (·.a)
/-- matrix `b` (`r1cs.rs:15-27`) -/
def matB (cs : CS F) : List (Row F) := cs.cons.map (·.b)
/-- matrix `c` (`r1cs.rs:15-27`) -/
def matC (cs : CS F) : List (Row F) := cs.cons.map (·.c)

/-- `r1cs.rs:29-31` `m()`, the number of constraints. -/
def m (cs : CS F) : Nat := cs.cons.length
/-- `r1cs.rs:33-35` `l()`: length of the instance. -/
def l (cs : CS F) : Nat := cs.x.length

/-- `r1cs.rs:79-89` `append`. -/
def append (cs : CS F) (a b c : Row F) : CS F := { cs with cons := cs.cons ++ [⟨a, b, c⟩] }

/-- `r1cs.rs:101-109` `mul_gate`. -/
def mulGate (cs : CS F) (x y z : Row F) : CS F := cs.append x y z
/-- `r1cs.rs:111-119` `add_gate`. -/
def addGate (cs : CS F) (x y z : Row F) : CS F := cs.append (x.add y) (Row.ofWire Wire.ONE) z
/-- `r1cs.rs:121-129` `sub_gate`. -/
def subGate (cs : CS F) (x y z : Row F) : CS F := cs.append (x.sub y) (Row.ofWire Wire.ONE) z
/-- `r1cs.rs:131-134` `equal_gate`. -/
def equalGate (cs : CS F) (x y : Row F) : CS F := cs.mulGate x Row.one y

/-- `r1cs.rs:61-77` `is_sat`. -/
def isSat (cs : CS F) : Option Bool := do
  let z := cs.x ++ cs.w
  let az ← Matrix.prod cs.matA cs.m cs.l z
  let bz ← Matrix.prod cs.matB cs.m cs.l z
  let cz ← Matrix.prod cs.matC cs.m cs.l z
  let azbz ← zipVec (· * ·) az bz
  some ((azbz.zip cz).all (fun p => p.1 == p.2))

/-- `r1cs.rs:136-142` `evaluate`. -/
def evaluate (cs : CS F) : Option (List F × List F × List F) := do
  let a ← Matrix.evaluateWithZ cs.matA cs.x cs.w
  let b ← Matrix.evaluateWithZ cs.matB cs.x cs.w
  let c ← Matrix.evaluateWithZ cs.matC cs.x cs.w
  some (a, b, c)

/-- `r1cs.rs:182-191` `Index<Wire>`. -/
def get (cs : CS F) (w : Wire) : Option F := Row.readWire cs.x cs.w w

end CS

/-- Circuit-building code: `&mut R1cs` becomes a threaded state, a panic becomes `none`. -/
abbrev Circ (F : Type) (α : Type) := StateT (CS F) Option α

end Kogarashi
