import Verif.Limbs.B256

/-!
# The x86-64 back end of the 256-bit limb arithmetic

Models `zkstd/src/arithmetic/limbs/bits_256/assembly.rs`: the six inline assembly blocks as lists of
instructions, and the part of the x86-64 instruction set they use. The file is selected by a
feature `asm` that no manifest of the workspace declares, and it is the alternative to
`normal.rs` (`Verif.Limbs.B256`). Registers hold integers; every instruction that writes a sum or
a product reduces it modulo `2^64`. Of the flags only carry and zero are modelled (no instruction
in the file reads another). The memory operands are the limbs of the three arrays; the register
allocation of the pointers is not modelled, since every register the blocks write is declared as an output.
-/

namespace Kogarashi.Limbs.Asm

/-- The registers the blocks name (`assembly.rs` lines 43-50, 450-460). -/
inductive Reg | rax | rcx | rdx | r8 | r9 | r10 | r11 | r12 | r13 | r14 | r15
deriving DecidableEq, Repr

/-- The three arrays the blocks read through `a_ptr`, `b_ptr`, `m_ptr` (`assembly.rs` lines 40-42). -/
inductive Arr | a | b | m
deriving DecidableEq, Repr

/-- A source operand: a register, the `i`-th limb of an array (`[{a_ptr} + 8 i]`) or an immediate
(`assembly.rs` lines 11-38, 306). -/
inductive Src
  | reg (r : Reg)
  | mem (p : Arr) (i : Nat)
  | imm (n : Nat)
deriving DecidableEq, Repr

/-- The instructions that occur in `assembly.rs` (lines 11-38, 65-92, 119-146, 196-445, 474-711,
740-766). The first operand is the destination; `mulx hi lo src` multiplies `src` by `rdx`. -/
inductive Ins
  | mov (d : Reg) (s : Src)
  | add (d : Reg) (s : Src)
  | adc (d : Reg) (s : Src)
  | adcx (d : Reg) (s : Src)
  | sub (d : Reg) (s : Src)
  | sbb (d : Reg) (s : Src)
  | cmovc (d : Reg) (s : Src)
  | cmove (d : Reg) (s : Src)
  | xor (d : Reg) (s : Src)
  | or (d : Reg) (s : Src)
  | and (d : Reg) (s : Src)
  | cmp (d : Reg) (s : Src)
  | mulx (hi lo : Reg) (s : Src)
deriving DecidableEq, Repr

/-- The machine state the blocks of `assembly.rs` (lines 3-782) work on: the named registers, the
carry flag (0 or 1) and the zero flag. -/
structure St where
  rax : Nat
  rcx : Nat
  rdx : Nat
  r8 : Nat
  r9 : Nat
  r10 : Nat
  r11 : Nat
  r12 : Nat
  r13 : Nat
  r14 : Nat
  r15 : Nat
  cf : Nat
  zf : Bool
deriving DecidableEq, Repr

/-- The arrays behind the three pointers (`assembly.rs` lines 40-42). -/
structure Mem where
  a : L4
  b : L4
  m : L4

/-- Reading a register (`assembly.rs` lines 23-26). -/
def St.get (st : St) : Reg → Nat
  | .rax => st.rax
  | .rcx => st.rcx
  | .rdx => st.rdx
  | .r8 => st.r8
  | .r9 => st.r9
  | .r10 => st.r10
  | .r11 => st.r11
  | .r12 => st.r12
  | .r13 => st.r13
  | .r14 => st.r14
  | .r15 => st.r15

/-- Writing a register (`assembly.rs` lines 11-14). -/
def St.set (st : St) (v : Nat) : Reg → St
  | .rax => { st with rax := v }
  | .rcx => { st with rcx := v }
  | .rdx => { st with rdx := v }
  | .r8 => { st with r8 := v }
  | .r9 => { st with r9 := v }
  | .r10 => { st with r10 := v }
  | .r11 => { st with r11 := v }
  | .r12 => { st with r12 := v }
  | .r13 => { st with r13 := v }
  | .r14 => { st with r14 := v }
  | .r15 => { st with r15 := v }

/-- The limb at index `i` of an array (`assembly.rs` lines 11-14: byte offsets 0, 8, 16, 24). -/
def limb (x : L4) : Nat → Nat
  | 0 => x.l0
  | 1 => x.l1
  | 2 => x.l2
  | _ => x.l3

/-- The value of a source operand (`assembly.rs` lines 11-38). -/
def Src.eval (mem : Mem) (st : St) : Src → Nat
  | .reg r => st.get r
  | .mem .a i => limb mem.a i
  | .mem .b i => limb mem.b i
  | .mem .m i => limb mem.m i
  | .imm n => n

/-- One instruction of the blocks in `assembly.rs` (lines 3-782), with the semantics the processor
manual gives it: `add`/`adc`/`adcx` write the sum modulo `2^64` and set the carry, `sub`/`sbb` write
the difference modulo `2^64` and set the carry on a borrow, `xor`/`or`/`and` clear the carry, `cmp`
compares, the conditional moves read a flag, and `mov` and `mulx` leave the flags alone. -/
def step (mem : Mem) (st : St) : Ins → St
  | .mov d s => st.set (s.eval mem st) d
  | .add d s =>
    { st.set ((st.get d + s.eval mem st) % 2^64) d with
      cf := (st.get d + s.eval mem st) / 2^64
      zf := (st.get d + s.eval mem st) % 2^64 == 0 }
  | .adc d s =>
    { st.set ((st.get d + s.eval mem st + st.cf) % 2^64) d with
      cf := (st.get d + s.eval mem st + st.cf) / 2^64
      zf := (st.get d + s.eval mem st + st.cf) % 2^64 == 0 }
  | .adcx d s =>
    { st.set ((st.get d + s.eval mem st + st.cf) % 2^64) d with
      cf := (st.get d + s.eval mem st + st.cf) / 2^64 }
  | .sub d s =>
    { st.set ((st.get d + 2^64 - s.eval mem st) % 2^64) d with
      cf := if st.get d < s.eval mem st then 1 else 0
      zf := (st.get d + 2^64 - s.eval mem st) % 2^64 == 0 }
  | .sbb d s =>
    { st.set ((st.get d + 2^64 - (s.eval mem st + st.cf)) % 2^64) d with
      cf := if st.get d < s.eval mem st + st.cf then 1 else 0
      zf := (st.get d + 2^64 - (s.eval mem st + st.cf)) % 2^64 == 0 }
  | .cmovc d s => if st.cf = 1 then st.set (s.eval mem st) d else st
  | .cmove d s => if st.zf then st.set (s.eval mem st) d else st
  | .xor d s =>
    { st.set (st.get d ^^^ s.eval mem st) d with cf := 0, zf := (st.get d ^^^ s.eval mem st) == 0 }
  | .or d s =>
    { st.set (st.get d ||| s.eval mem st) d with cf := 0, zf := (st.get d ||| s.eval mem st) == 0 }
  | .and d s =>
    { st.set (st.get d &&& s.eval mem st) d with cf := 0, zf := (st.get d &&& s.eval mem st) == 0 }
  | .cmp d s =>
    { st with cf := if st.get d < s.eval mem st then 1 else 0, zf := st.get d == s.eval mem st }
  | .mulx hi lo s =>
    (st.set (st.rdx * s.eval mem st % 2^64) lo).set (st.rdx * s.eval mem st / 2^64) hi

/-- Straight-line execution of a block of `assembly.rs` (lines 3-782; no block contains a jump). -/
def run (mem : Mem) : List Ins → St → St
  | [], st => st
  | i :: is, st => run mem is (step mem st i)

/-- Models `zkstd/src/arithmetic/limbs/bits_256/assembly.rs` lines 11-38: the instructions of `add`,
one per source line, in order. -/
def addProg : List Ins :=
  [.mov .r8 (.mem .a 0),
   .mov .r9 (.mem .a 1),
   .mov .r10 (.mem .a 2),
   .mov .r11 (.mem .a 3),
   .add .r8 (.mem .b 0),
   .adc .r9 (.mem .b 1),
   .adc .r10 (.mem .b 2),
   .adc .r11 (.mem .b 3),
   .mov .r12 (.reg .r8),
   .mov .r13 (.reg .r9),
   .mov .r14 (.reg .r10),
   .mov .r15 (.reg .r11),
   .sub .r12 (.mem .m 0),
   .sbb .r13 (.mem .m 1),
   .sbb .r14 (.mem .m 2),
   .sbb .r15 (.mem .m 3),
   .cmovc .r12 (.reg .r8),
   .cmovc .r13 (.reg .r9),
   .cmovc .r14 (.reg .r10),
   .cmovc .r15 (.reg .r11)]

/-- Models `zkstd/src/arithmetic/limbs/bits_256/assembly.rs` lines 65-92: the instructions of `sub`,
one per source line, in order. -/
def subProg : List Ins :=
  [.xor .r12 (.reg .r12),
   .xor .r13 (.reg .r13),
   .xor .r14 (.reg .r14),
   .xor .r15 (.reg .r15),
   .mov .r8 (.mem .a 0),
   .mov .r9 (.mem .a 1),
   .mov .r10 (.mem .a 2),
   .mov .r11 (.mem .a 3),
   .sub .r8 (.mem .b 0),
   .sbb .r9 (.mem .b 1),
   .sbb .r10 (.mem .b 2),
   .sbb .r11 (.mem .b 3),
   .cmovc .r12 (.mem .m 0),
   .cmovc .r13 (.mem .m 1),
   .cmovc .r14 (.mem .m 2),
   .cmovc .r15 (.mem .m 3),
   .add .r12 (.reg .r8),
   .adc .r13 (.reg .r9),
   .adc .r14 (.reg .r10),
   .adc .r15 (.reg .r11)]

/-- Models `zkstd/src/arithmetic/limbs/bits_256/assembly.rs` lines 119-146: the instructions of `double`,
one per source line, in order. -/
def doubleProg : List Ins :=
  [.mov .r8 (.mem .a 0),
   .mov .r9 (.mem .a 1),
   .mov .r10 (.mem .a 2),
   .mov .r11 (.mem .a 3),
   .add .r8 (.reg .r8),
   .adc .r9 (.reg .r9),
   .adc .r10 (.reg .r10),
   .adc .r11 (.reg .r11),
   .mov .r12 (.reg .r8),
   .mov .r13 (.reg .r9),
   .mov .r14 (.reg .r10),
   .mov .r15 (.reg .r11),
   .sub .r12 (.mem .m 0),
   .sbb .r13 (.mem .m 1),
   .sbb .r14 (.mem .m 2),
   .sbb .r15 (.mem .m 3),
   .cmovc .r12 (.reg .r8),
   .cmovc .r13 (.reg .r9),
   .cmovc .r14 (.reg .r10),
   .cmovc .r15 (.reg .r11)]

/-- Models `zkstd/src/arithmetic/limbs/bits_256/assembly.rs` lines 196-445: the instructions of `mul`,
one per source line, in order. -/
def mulProg : List Ins :=
  [.mov .r13 (.mem .b 0),
   .mov .r14 (.mem .b 1),
   .mov .r15 (.mem .b 2),
   .mov .rdx (.mem .a 0),
   .mulx .r9 .r8 (.reg .r13),
   .mulx .r10 .rax (.reg .r14),
   .add .r9 (.reg .rax),
   .mulx .r11 .rax (.reg .r15),
   .adcx .r10 (.reg .rax),
   .mulx .r12 .rax (.mem .b 3),
   .adcx .r11 (.reg .rax),
   .adc .r12 (.imm 0),
   .mov .rdx (.mem .a 1),
   .mulx .rcx .rax (.reg .r13),
   .add .r9 (.reg .rax),
   .adcx .r10 (.reg .rcx),
   .adc .r11 (.imm 0),
   .mulx .rcx .rax (.reg .r14),
   .add .r10 (.reg .rax),
   .adcx .r11 (.reg .rcx),
   .adc .r12 (.imm 0),
   .xor .r13 (.reg .r13),
   .mulx .rcx .rax (.reg .r15),
   .add .r11 (.reg .rax),
   .adcx .r12 (.reg .rcx),
   .adc .r13 (.imm 0),
   .xor .r14 (.reg .r14),
   .mulx .rcx .rax (.mem .b 3),
   .add .r12 (.reg .rax),
   .adcx .r13 (.reg .rcx),
   .adc .r14 (.imm 0),
   .mov .rdx (.mem .a 2),
   .mulx .rcx .rax (.mem .b 0),
   .add .r10 (.reg .rax),
   .adcx .r11 (.reg .rcx),
   .adc .r12 (.imm 0),
   .mulx .rcx .rax (.mem .b 1),
   .add .r11 (.reg .rax),
   .adcx .r12 (.reg .rcx),
   .adc .r13 (.imm 0),
   .mulx .rcx .rax (.reg .r15),
   .add .r12 (.reg .rax),
   .adcx .r13 (.reg .rcx),
   .adc .r14 (.imm 0),
   .xor .r15 (.reg .r15),
   .mulx .rcx .rax (.mem .b 3),
   .add .r13 (.reg .rax),
   .adcx .r14 (.reg .rcx),
   .adc .r15 (.imm 0),
   .mov .rdx (.mem .a 3),
   .mulx .rcx .rax (.mem .b 0),
   .add .r11 (.reg .rax),
   .adcx .r12 (.reg .rcx),
   .adc .r13 (.imm 0),
   .mulx .rcx .rax (.mem .b 1),
   .add .r12 (.reg .rax),
   .adcx .r13 (.reg .rcx),
   .adc .r14 (.imm 0),
   .mulx .rcx .rax (.mem .b 2),
   .add .r13 (.reg .rax),
   .adcx .r14 (.reg .rcx),
   .adc .r15 (.imm 0),
   .mulx .rcx .rax (.mem .b 3),
   .add .r14 (.reg .rax),
   .adc .r15 (.reg .rcx),
   .mov .rdx (.imm 0x1ba3a358ef788ef9),
   .mulx .rax .rdx (.reg .r8),
   .mulx .rcx .rax (.mem .m 0),
   .add .r8 (.reg .rax),
   .adcx .r9 (.reg .rcx),
   .adc .r10 (.imm 0),
   .mulx .rcx .rax (.mem .m 1),
   .add .r9 (.reg .rax),
   .adcx .r10 (.reg .rcx),
   .adc .r11 (.imm 0),
   .mulx .rcx .rax (.mem .m 2),
   .add .r10 (.reg .rax),
   .adcx .r11 (.reg .rcx),
   .adc .r12 (.imm 0),
   .mulx .rcx .rax (.mem .m 3),
   .add .r11 (.reg .rax),
   .adcx .r12 (.reg .rcx),
   .adc .r13 (.imm 0),
   .mov .rdx (.imm 0x1ba3a358ef788ef9),
   .mulx .rax .rdx (.reg .r9),
   .mulx .rax .rcx (.mem .m 0),
   .add .r9 (.reg .rcx),
   .adcx .r10 (.reg .rax),
   .adc .r11 (.imm 0),
   .mulx .rax .rcx (.mem .m 1),
   .add .r10 (.reg .rcx),
   .adcx .r11 (.reg .rax),
   .adc .r12 (.imm 0),
   .mulx .rax .rcx (.mem .m 2),
   .add .r11 (.reg .rcx),
   .adcx .r12 (.reg .rax),
   .adc .r13 (.imm 0),
   .mulx .rax .rcx (.mem .m 3),
   .add .r12 (.reg .rcx),
   .adcx .r13 (.reg .rax),
   .adc .r14 (.imm 0),
   .mov .rdx (.imm 0x1ba3a358ef788ef9),
   .mulx .rax .rdx (.reg .r10),
   .mulx .rax .rcx (.mem .m 0),
   .add .r10 (.reg .rcx),
   .adcx .r11 (.reg .rax),
   .adc .r12 (.imm 0),
   .mulx .rax .rcx (.mem .m 1),
   .add .r11 (.reg .rcx),
   .adcx .r12 (.reg .rax),
   .adc .r13 (.imm 0),
   .mulx .rax .rcx (.mem .m 2),
   .add .r12 (.reg .rcx),
   .adcx .r13 (.reg .rax),
   .adc .r14 (.imm 0),
   .mulx .rax .rcx (.mem .m 3),
   .add .r13 (.reg .rcx),
   .adcx .r14 (.reg .rax),
   .adc .r15 (.imm 0),
   .mov .rdx (.imm 0x1ba3a358ef788ef9),
   .mulx .rax .rdx (.reg .r11),
   .mulx .rax .rcx (.mem .m 0),
   .add .r11 (.reg .rcx),
   .adcx .r12 (.reg .rax),
   .adc .r13 (.imm 0),
   .mulx .rax .rcx (.mem .m 1),
   .add .r12 (.reg .rcx),
   .adcx .r13 (.reg .rax),
   .adc .r14 (.imm 0),
   .mulx .rax .rcx (.mem .m 2),
   .add .r13 (.reg .rcx),
   .adcx .r14 (.reg .rax),
   .adc .r15 (.imm 0),
   .mulx .rax .rcx (.mem .m 3),
   .add .r14 (.reg .rcx),
   .adcx .r15 (.reg .rax),
   .mov .r8 (.reg .r12),
   .mov .r9 (.reg .r13),
   .mov .r10 (.reg .r14),
   .mov .r11 (.reg .r15),
   .sub .r8 (.mem .m 0),
   .sbb .r9 (.mem .m 1),
   .sbb .r10 (.mem .m 2),
   .sbb .r11 (.mem .m 3),
   .cmovc .r8 (.reg .r12),
   .cmovc .r9 (.reg .r13),
   .cmovc .r10 (.reg .r14),
   .cmovc .r11 (.reg .r15),
   .mov .r12 (.reg .r8),
   .mov .r13 (.reg .r9),
   .mov .r14 (.reg .r10),
   .mov .r15 (.reg .r11),
   .sub .r12 (.mem .m 0),
   .sbb .r13 (.mem .m 1),
   .sbb .r14 (.mem .m 2),
   .sbb .r15 (.mem .m 3),
   .cmovc .r12 (.reg .r8),
   .cmovc .r13 (.reg .r9),
   .cmovc .r14 (.reg .r10),
   .cmovc .r15 (.reg .r11)]

/-- Models `zkstd/src/arithmetic/limbs/bits_256/assembly.rs` lines 474-711: the instructions of `square`,
one per source line, in order. -/
def squareProg : List Ins :=
  [.mov .r12 (.mem .a 0),
   .mov .r13 (.mem .a 1),
   .mov .r14 (.mem .a 2),
   .mov .r15 (.mem .a 3),
   .mov .rdx (.reg .r12),
   .mulx .r9 .r8 (.reg .r12),
   .mulx .r10 .rax (.reg .r13),
   .add .r9 (.reg .rax),
   .adc .r10 (.imm 0),
   .mulx .r11 .rax (.reg .r14),
   .add .r10 (.reg .rax),
   .adc .r11 (.imm 0),
   .mulx .r12 .rax (.reg .r15),
   .adcx .r11 (.reg .rax),
   .adc .r12 (.imm 0),
   .mov .rdx (.reg .r13),
   .mulx .rcx .rax (.mem .a 0),
   .add .r9 (.reg .rax),
   .adcx .r10 (.reg .rcx),
   .adc .r11 (.imm 0),
   .mulx .rcx .rax (.reg .r13),
   .add .r10 (.reg .rax),
   .adcx .r11 (.reg .rcx),
   .adc .r12 (.imm 0),
   .xor .r13 (.reg .r13),
   .mulx .rcx .rax (.reg .r14),
   .add .r11 (.reg .rax),
   .adcx .r12 (.reg .rcx),
   .adc .r13 (.imm 0),
   .xor .r14 (.reg .r14),
   .mulx .rcx .rax (.reg .r15),
   .add .r12 (.reg .rax),
   .adcx .r13 (.reg .rcx),
   .adc .r14 (.imm 0),
   .xor .r15 (.reg .r15),
   .mov .rdx (.mem .a 2),
   .mulx .rcx .rax (.mem .a 0),
   .add .r10 (.reg .rax),
   .adcx .r11 (.reg .rcx),
   .adc .r12 (.imm 0),
   .mulx .rcx .rax (.mem .a 1),
   .add .r11 (.reg .rax),
   .adcx .r12 (.reg .rcx),
   .adc .r13 (.imm 0),
   .mulx .rcx .rax (.mem .a 2),
   .add .r12 (.reg .rax),
   .adcx .r13 (.reg .rcx),
   .adc .r14 (.imm 0),
   .mulx .rcx .rax (.mem .a 3),
   .adcx .r13 (.reg .rax),
   .adcx .r14 (.reg .rcx),
   .adc .r15 (.imm 0),
   .mov .rdx (.mem .a 3),
   .mulx .rcx .rax (.mem .a 0),
   .add .r11 (.reg .rax),
   .adcx .r12 (.reg .rcx),
   .adc .r13 (.imm 0),
   .mulx .rcx .rax (.mem .a 1),
   .add .r12 (.reg .rax),
   .adcx .r13 (.reg .rcx),
   .adc .r14 (.imm 0),
   .mulx .rcx .rax (.mem .a 2),
   .add .r13 (.reg .rax),
   .adcx .r14 (.reg .rcx),
   .adc .r15 (.imm 0),
   .mulx .rcx .rax (.mem .a 3),
   .add .r14 (.reg .rax),
   .adc .r15 (.reg .rcx),
   .mov .rdx (.imm 0x1ba3a358ef788ef9),
   .mulx .rax .rdx (.reg .r8),
   .mulx .rcx .rax (.mem .m 0),
   .add .r8 (.reg .rax),
   .adcx .r9 (.reg .rcx),
   .adc .r10 (.imm 0),
   .mulx .rcx .rax (.mem .m 1),
   .add .r9 (.reg .rax),
   .adcx .r10 (.reg .rcx),
   .adc .r11 (.imm 0),
   .mulx .rcx .rax (.mem .m 2),
   .add .r10 (.reg .rax),
   .adcx .r11 (.reg .rcx),
   .adc .r12 (.imm 0),
   .mulx .rcx .rax (.mem .m 3),
   .add .r11 (.reg .rax),
   .adcx .r12 (.reg .rcx),
   .adc .r13 (.imm 0),
   .mov .rdx (.imm 0x1ba3a358ef788ef9),
   .mulx .rax .rdx (.reg .r9),
   .mulx .rax .rcx (.mem .m 0),
   .add .r9 (.reg .rcx),
   .adcx .r10 (.reg .rax),
   .adc .r11 (.imm 0),
   .mulx .rax .rcx (.mem .m 1),
   .add .r10 (.reg .rcx),
   .adcx .r11 (.reg .rax),
   .adc .r12 (.imm 0),
   .mulx .rax .rcx (.mem .m 2),
   .add .r11 (.reg .rcx),
   .adcx .r12 (.reg .rax),
   .adc .r13 (.imm 0),
   .mulx .rax .rcx (.mem .m 3),
   .add .r12 (.reg .rcx),
   .adcx .r13 (.reg .rax),
   .adc .r14 (.imm 0),
   .mov .rdx (.imm 0x1ba3a358ef788ef9),
   .mulx .rax .rdx (.reg .r10),
   .mulx .rax .rcx (.mem .m 0),
   .add .r10 (.reg .rcx),
   .adcx .r11 (.reg .rax),
   .adc .r12 (.imm 0),
   .mulx .rax .rcx (.mem .m 1),
   .add .r11 (.reg .rcx),
   .adcx .r12 (.reg .rax),
   .adc .r13 (.imm 0),
   .mulx .rax .rcx (.mem .m 2),
   .add .r12 (.reg .rcx),
   .adcx .r13 (.reg .rax),
   .adc .r14 (.imm 0),
   .mulx .rax .rcx (.mem .m 3),
   .add .r13 (.reg .rcx),
   .adcx .r14 (.reg .rax),
   .adc .r15 (.imm 0),
   .mov .rdx (.imm 0x1ba3a358ef788ef9),
   .mulx .rax .rdx (.reg .r11),
   .mulx .rax .rcx (.mem .m 0),
   .add .r11 (.reg .rcx),
   .adcx .r12 (.reg .rax),
   .adc .r13 (.imm 0),
   .mulx .rax .rcx (.mem .m 1),
   .add .r12 (.reg .rcx),
   .adcx .r13 (.reg .rax),
   .adc .r14 (.imm 0),
   .mulx .rax .rcx (.mem .m 2),
   .add .r13 (.reg .rcx),
   .adcx .r14 (.reg .rax),
   .adc .r15 (.imm 0),
   .mulx .rax .rcx (.mem .m 3),
   .add .r14 (.reg .rcx),
   .adcx .r15 (.reg .rax),
   .mov .r8 (.reg .r12),
   .mov .r9 (.reg .r13),
   .mov .r10 (.reg .r14),
   .mov .r11 (.reg .r15),
   .sub .r8 (.mem .m 0),
   .sbb .r9 (.mem .m 1),
   .sbb .r10 (.mem .m 2),
   .sbb .r11 (.mem .m 3),
   .cmovc .r8 (.reg .r12),
   .cmovc .r9 (.reg .r13),
   .cmovc .r10 (.reg .r14),
   .cmovc .r11 (.reg .r15)]

/-- Models `zkstd/src/arithmetic/limbs/bits_256/assembly.rs` lines 740-766: the instructions of `neg`,
one per source line, in order. -/
def negProg : List Ins :=
  [.mov .r8 (.mem .m 0),
   .mov .r9 (.mem .m 1),
   .mov .r10 (.mem .m 2),
   .mov .r11 (.mem .m 3),
   .sub .r8 (.mem .a 0),
   .sbb .r9 (.mem .a 1),
   .sbb .r10 (.mem .a 2),
   .sbb .r11 (.mem .a 3),
   .mov .r12 (.mem .a 0),
   .mov .r13 (.mem .a 1),
   .mov .r14 (.mem .a 2),
   .mov .r15 (.mem .a 3),
   .or .r12 (.reg .r13),
   .or .r14 (.reg .r15),
   .or .r12 (.reg .r14),
   .mov .r13 (.imm 0xffffffffffffffff),
   .cmp .r12 (.imm 0x0000000000000000),
   .cmove .r13 (.reg .r12),
   .and .r8 (.reg .r13),
   .and .r9 (.reg .r13),
   .and .r10 (.reg .r13),
   .and .r11 (.reg .r13)]

/-- Models `zkstd/src/arithmetic/limbs/bits_256/assembly.rs` lines 3-55 (`add`). `st` is the content of
the registers before the block, which the caller does not control; the result is read from
`r12`, `r13`, `r14`, `r15`. -/
def add (st : St) (a b p : L4) : L4 :=
  let out := run ⟨a, b, p⟩ addProg st
  ⟨out.r12, out.r13, out.r14, out.r15⟩

/-- Models `zkstd/src/arithmetic/limbs/bits_256/assembly.rs` lines 57-109 (`sub`). `st` is the content of
the registers before the block, which the caller does not control; the result is read from
`r12`, `r13`, `r14`, `r15`. -/
def sub (st : St) (a b p : L4) : L4 :=
  let out := run ⟨a, b, p⟩ subProg st
  ⟨out.r12, out.r13, out.r14, out.r15⟩

/-- Models `zkstd/src/arithmetic/limbs/bits_256/assembly.rs` lines 111-162 (`double`). `st` is the content of
the registers before the block, which the caller does not control; the result is read from
`r12`, `r13`, `r14`, `r15`. -/
def double (st : St) (a p : L4) : L4 :=
  let out := run ⟨a, a, p⟩ doubleProg st
  ⟨out.r12, out.r13, out.r14, out.r15⟩

/-- Models `zkstd/src/arithmetic/limbs/bits_256/assembly.rs` lines 164-465 (`mul`). `st` is the content of
the registers before the block, which the caller does not control; the result is read from
`r8`, `r9`, `r10`, `r11`. -/
def mul (st : St) (a b p : L4) : L4 :=
  let out := run ⟨a, b, p⟩ mulProg st
  ⟨out.r8, out.r9, out.r10, out.r11⟩

/-- Models `zkstd/src/arithmetic/limbs/bits_256/assembly.rs` lines 467-730 (`square`). `st` is the content of
the registers before the block, which the caller does not control; the result is read from
`r8`, `r9`, `r10`, `r11`. -/
def square (st : St) (a p : L4) : L4 :=
  let out := run ⟨a, a, p⟩ squareProg st
  ⟨out.r8, out.r9, out.r10, out.r11⟩

/-- Models `zkstd/src/arithmetic/limbs/bits_256/assembly.rs` lines 732-782 (`neg`). `st` is the content of
the registers before the block, which the caller does not control; the result is read from
`r8`, `r9`, `r10`, `r11`. -/
def neg (st : St) (a p : L4) : L4 :=
  let out := run ⟨a, a, p⟩ negProg st
  ⟨out.r8, out.r9, out.r10, out.r11⟩

/-- The constant of `assembly.rs` lines 306, 334, 362, 390, 587, 615, 643, 671 that stands for `-m⁻¹ mod 2^64`; it is written
into the block, not passed as an argument. -/
def hardInv : Nat := 0x1ba3a358ef788ef9

end Kogarashi.Limbs.Asm
