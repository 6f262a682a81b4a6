import Verif.Nova.BigNat
import Verif.Nova.Folding
import Verif.R1cs.Point

/-!
# Model: the in-circuit transcript, instance gadgets, folding verifier and augmented circuit

The circuit is built over `C::Base = ZMod q`; the instances it verifies belong to the curve with scalar field
`C::Scalar = ZMod p` and group `G`, of which `Env` gives the affine coordinates.
-/

namespace Kogarashi.Nova

open Circ

variable {p q : Nat} [Fact p.Prime] [Fact q.Prime] {G : Type} [AddCommGroup G] [Module (ZMod p) G] [DecidableEq G]

/-- `gadget/mimc.rs:19-35` `MimcAssignment::hash`. -/
def mimcCirc : List (ZMod q) → Row (ZMod q) → Row (ZMod q) → Circ (ZMod q) (Row (ZMod q))
  | [], xl, _ => pure xl
  | c :: cs, xl, xr => do
    let cxl := Row.add xl (const c)
    let ccxl ← square cxl
    let cccxl ← square ccxl
    let m ← mul cccxl ccxl
    let m ← mul m cxl
    mimcCirc cs (Row.add m xr) xl

/-- The fold of the in-circuit `squeeze`, `circuit/transcript.rs:43-46`. -/
def spongeCirc (consts : List (ZMod q)) : List (Row (ZMod q)) → Row (ZMod q) → Circ (ZMod q) (Row (ZMod q))
  | [], acc => pure acc
  | s :: ss, acc => do
    let h ← mimcCirc consts s acc
    spongeCirc consts ss (Row.add (Row.add acc s) h)

/-- The loop of the in-circuit `squeeze`, `circuit/transcript.rs:51-56`, over the bits least significant first. -/
def packLoop : List Bin → Row (ZMod q) → Row (ZMod q) → Circ (ZMod q) (Row (ZMod q))
  | [], _, val => pure val
  | b :: bs, mult, val => do
    let val ← conditionalSelect (Row.add val mult) val b
    packLoop bs (Row.add mult mult) val

/-- `circuit/transcript.rs:38-58` `squeeze`. -/
def squeezeCirc (nb : Nat) (consts : List (ZMod q)) (state : List (Row (ZMod q))) (numBits : Nat) :
    Circ (ZMod q) (Row (ZMod q)) := do
  let h ← spongeCirc consts state (const 0)
  let bits ← toBits nb h numBits
  packLoop (bits.reverse.take numBits) (const 1) (const 0)

/-- `gadget/instance.rs:11-15` `R1csInstanceAssignment`. -/
structure InstRow (q : Nat) where
  commitW : PointRow (ZMod q)
  x0 : Row (ZMod q)
  x1 : Row (ZMod q)

/-- `gadget/relaxed_instance.rs:14-20` `RelaxedR1csInstanceAssignment`. -/
structure RInstRow (q : Nat) where
  commitW : PointRow (ZMod q)
  commitE : PointRow (ZMod q)
  u : Row (ZMod q)
  x0 : BigNat (ZMod q)
  x1 : BigNat (ZMod q)

/-- `PointAssignment::witness` of a native commitment, e.g. `gadget/instance.rs:24-29`. -/
def Env.witness (E : Env q G) (P : G) : Circ (ZMod q) (PointRow (ZMod q)) :=
  ptWit (E.coordX P) (E.coordY P) (E.isId P)

/-- `gadget/instance.rs:18-35` `R1csInstanceAssignment::witness`; indexing panics on missing inputs. -/
def instWitness (E : Env q G) (i : Inst (ZMod p) G) : Circ (ZMod q) (InstRow q) := do
  let cw ← E.witness i.commitW
  let v0 ← lift i.x[0]?
  let x0 ← wit (reread v0)
  let v1 ← lift i.x[1]?
  let x1 ← wit (reread v1)
  pure ⟨cw, x0, x1⟩

/-- `gadget/relaxed_instance.rs:23-57` `RelaxedR1csInstanceAssignment::witness`. -/
def rinstWitness (E : Env q G) (i : RInst (ZMod p) G) : Circ (ZMod q) (RInstRow q) := do
  let cw ← E.witness i.commitW
  let ce ← E.witness i.commitE
  let u ← wit (reread i.u)
  let v0 ← lift i.x[0]?
  let x0 ← bnWitness (fToNat v0) limbWidth nLimbs
  let v1 ← lift i.x[1]?
  let x1 ← bnWitness (fToNat v1) limbWidth nLimbs
  pure ⟨cw, ce, u, x0, x1⟩

/-- `gadget/relaxed_instance.rs:62-82` `from_r1cs_instance`. -/
def rinstOfInst (nb : Nat) (i : InstRow q) : Circ (ZMod q) (RInstRow q) := do
  let x0 ← bnOfField nb i.x0 limbWidth nLimbs
  let x1 ← bnOfField nb i.x1 limbWidth nLimbs
  pure ⟨i.commitW, ptIdentity, const 1, x0, x1⟩

/-- `gadget/relaxed_instance.rs:86-104` `conditional_select`. -/
def rinstSelect (a b : RInstRow q) (cond : Bin) : Circ (ZMod q) (RInstRow q) := do
  let cw ← ptSelect a.commitW b.commitW cond
  let ce ← ptSelect a.commitE b.commitE cond
  let u ← conditionalSelect a.u b.u cond
  let x0 ← bnSelect a.x0 b.x0 cond
  let x1 ← bnSelect a.x1 b.x1 cond
  pure ⟨cw, ce, u, x0, x1⟩

/-- `append_point` in circuit, `circuit/transcript.rs:32-36`: the rows pushed. -/
def ptRows (P : PointRow (ZMod q)) : List (Row (ZMod q)) := [P.x, P.y, P.z]

/-- `gadget/relaxed_instance.rs:106-122` `absorb_by_transcript`: the rows pushed. -/
def rinstAbsorb (i : RInstRow q) : Circ (ZMod q) (List (Row (ZMod q))) := do
  let ce ← ptDescale i.commitE
  let cw ← ptDescale i.commitW
  pure (ptRows cw ++ ptRows ce ++ [i.u] ++ i.x0.limbs ++ i.x1.limbs)

/-- `gadget/relaxed_instance.rs:124-137` `hash`. -/
def rinstHash (nb : Nat) (consts : List (ZMod q)) (r : RInstRow q) (i : Row (ZMod q)) (z0 zi : List (Row (ZMod q))) :
    Circ (ZMod q) (Row (ZMod q)) := do
  let a ← rinstAbsorb r
  squeezeCirc nb consts (i :: (z0 ++ zi ++ a)) hashBits

/-- `circuit/augmented.rs:127-136` `get_challenge`. -/
def challengeCirc (nb : Nat) (consts : List (ZMod q)) (u : RInstRow q) (commitT : PointRow (ZMod q)) :
    Circ (ZMod q) (Row (ZMod q)) := do
  let a ← rinstAbsorb u
  squeezeCirc nb consts (ptRows commitT ++ a) challengeBits

/-- One public input of the folding verifier, `circuit/nifs.rs:47-54` and `56-63`. -/
def foldX (fp : CarryBits) (nb : Nat) (rBn mBn : BigNat (ZMod q)) (single : Row (ZMod q)) (range : BigNat (ZMod q)) :
    Circ (ZMod q) (BigNat (ZMod q)) := do
  let v ← value single
  let s ← bnWitness (fToNat v) limbWidth nLimbs
  let rx ← bnMultMod fp nb s rBn mBn
  let sum ← lift (bnAdd range rx)
  bnRedMod fp nb sum mBn

/-- `circuit/nifs.rs:15-72` `NifsCircuit::verify`; `order` is `C::ORDER_STR`.  The unused `z_inv` and `r_bn` are
omitted (computing them only reads values of allocated rows). -/
def nifsVerify (fp : CarryBits) (nb : Nat) (b3 : ZMod q) (order : Nat) (r : Row (ZMod q)) (range : RInstRow q) (single : InstRow q)
    (commitT : PointRow (ZMod q)) : Circ (ZMod q) (RInstRow q) := do
  let rw' ← ptScalar nb b3 single.commitW r
  let w ← ptAdd b3 range.commitW rw'
  let rt ← ptScalar nb b3 commitT r
  let e ← ptAdd b3 range.commitE rt
  let rBn ← bnOfField nb r limbWidth nLimbs
  let mBn ← bnWitness (order : Int) limbWidth nLimbs
  let vu ← value range.u
  let vr ← value r
  let u ← wit (vu + vr)
  enforceEqConstant (Row.sub (Row.sub u range.u) r) 0
  let x0 ← foldX fp nb rBn mBn single.x0 range.x0
  let x1 ← foldX fp nb rBn mBn single.x1 range.x1
  pure ⟨w, e, u, x0, x1⟩

/-- `function.rs:7-16` `FunctionCircuit`. -/
structure FnCircuit (F : Type) [Field F] [DecidableEq F] where
  invoke : List F → List F
  invokeCs : List (Row F) → Circ F (List (Row F))

/-- What the augmented circuit's driver types (`zkstd/src/circuit.rs` lines 8-21) fix: `C::NUM_BITS`, `C::b3()`, `C::ORDER_STR`, the curve coordinates,
the MiMC constants, and the machine's `carry_bits`. -/
structure Driver (p q : Nat) (G : Type) where
  nb : Nat
  b3 : ZMod q
  env : Env q G
  carry : CarryBits

/-- `circuit/augmented.rs:15-24` `AugmentedFCircuit`. -/
structure Augmented (p q : Nat) (G : Type) where
  isPrimary : Bool
  i : Nat
  z0 : List (ZMod q)
  zi : Option (List (ZMod q))
  single : Option (Inst (ZMod p) G)
  range : Option (RInst (ZMod p) G)
  commitT : Option G

/-- The base-case instance, `circuit/augmented.rs:92-96`. -/
def baseInst (nb : Nat) (isPrimary : Bool) (dummy : RInstRow q) (single : InstRow q) : Circ (ZMod q) (RInstRow q) :=
  if isPrimary then pure dummy else rinstOfInst nb single

/-- The part of `generate` before the two `inputize` calls, `circuit/augmented.rs:46-119`: returns `u_single.x1`,
`u_next_x` and `z_next`. -/
def Augmented.body (D : Driver p q G) (FC : FnCircuit (ZMod q)) (A : Augmented p q G) :
    Circ (ZMod q) (Row (ZMod q) × Row (ZMod q) × List (Row (ZMod q))) := do
  let i ← wit ((A.i : Nat) : ZMod q)
  let z0 ← witList A.z0
  let zi ← witList (A.zi.getD A.z0)
  let dummy ← rinstWitness D.env (RInst.dummy 2 : RInst (ZMod p) G)
  let single ← instWitness D.env (A.single.getD (Inst.dummy 2))
  let range ← rinstWitness D.env (A.range.getD (RInst.dummy 2))
  let commitT ← D.env.witness (A.commitT.getD 0)
  let baseCase ← isEq i (const 0)
  let notBaseCase ← isNeq i (const 0)
  let nextBase ← baseInst D.nb A.isPrimary dummy single
  let ux ← rinstHash D.nb D.env.consts range i z0 zi
  conditionalEnforceEqual single.x0 ux notBaseCase
  let r ← challengeCirc D.nb D.env.consts range commitT
  let nextNonBase ← nifsVerify D.carry D.nb D.b3 p r range single commitT
  let next ← rinstSelect nextBase nextNonBase baseCase
  let zNext ← FC.invokeCs zi
  let nextX ← rinstHash D.nb D.env.consts next (Row.add i (const 1)) z0 zNext
  pure (single.x1, nextX, zNext)

/-- `circuit/augmented.rs:42-125` `generate`. -/
def Augmented.generate (D : Driver p q G) (FC : FnCircuit (ZMod q)) (A : Augmented p q G) :
    Circ (ZMod q) (List (Row (ZMod q))) := do
  let (x1, nextX, zNext) ← A.body D FC
  let _ ← inputize x1
  let _ ← inputize nextX
  pure zNext

end Kogarashi.Nova
