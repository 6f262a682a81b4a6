import Mathlib.Logic.Relation
import Mathlib.Data.List.Basic

/-!
# Specification: programs whose parts run at the same time

A program is a tree of reads and writes of numbered cells of one shared array. `join p q k` runs `p` and `q` at the same
time, in any interleaving of their reads and writes, and goes on with `k` when both have ended (`rayon::join`).
-/

namespace Kogarashi.Spec

/-- Programs over an array of values `V`. -/
inductive Prog (V : Type) where
  | done : Prog V
  | panic : Prog V
  | rd : Nat → (V → Prog V) → Prog V
  | wr : Nat → V → Prog V → Prog V
  | join : Prog V → Prog V → Prog V → Prog V

variable {V : Type}

/-- One step of one of the threads. An access outside the array panics. -/
inductive Step : Prog V × List V → Prog V × List V → Prop where
  | rd {i k m v} : m[i]? = some v → Step (.rd i k, m) (k v, m)
  | rdOut {i k m} : m.length ≤ i → Step (.rd i k, m) (.panic, m)
  | wr {i v k m} : i < m.length → Step (.wr i v k, m) (k, m.set i v)
  | wrOut {i v k m} : m.length ≤ i → Step (.wr i v k, m) (.panic, m)
  | left {p p' q k m m'} : Step (p, m) (p', m') → Step (.join p q k, m) (.join p' q k, m')
  | right {p q q' k m m'} : Step (q, m) (q', m') → Step (.join p q k, m) (.join p q' k, m')
  | join {k m} : Step (.join .done .done k, m) (k, m)

/-- Some thread has panicked. -/
def Panicked : Prog V → Prop
  | .panic => True
  | .join p q _ => Panicked p ∨ Panicked q
  | _ => False

/-- Some thread is about to access cell `i`; `w` says whether it writes. -/
def Accesses : Prog V → Nat → Bool → Prop
  | .rd j _, i, w => j = i ∧ w = false
  | .wr j _ _, i, w => j = i ∧ w = true
  | .join p q _, i, w => Accesses p i w ∨ Accesses q i w
  | _, _, _ => False

/-- Two threads are about to access the same cell, and one of them writes. -/
def Race : Prog V → Prop
  | .join p q _ => (∃ i w w', Accesses p i w ∧ Accesses q i w' ∧ (w = true ∨ w' = true)) ∨ Race p ∨ Race q
  | _ => False

/-- Whatever the schedule, running `p` on the array `m` ends, without panic or data race, with the array `m'`. -/
structure Outcome (p : Prog V) (m m' : List V) : Prop where
  /-- no schedule runs for ever -/
  ends : ¬∃ c : Nat → Prog V × List V, c 0 = (p, m) ∧ ∀ n, Step (c n) (c (n + 1))
  /-- a run stops only when the program is done, and then the array is `m'` -/
  result : ∀ c, Relation.ReflTransGen Step (p, m) c → (∀ c', ¬Step c c') → c = (.done, m')
  /-- no panic on the way -/
  noPanic : ∀ c, Relation.ReflTransGen Step (p, m) c → ¬Panicked c.1
  /-- no data race on the way -/
  noRace : ∀ c, Relation.ReflTransGen Step (p, m) c → ¬Race c.1

end Kogarashi.Spec
