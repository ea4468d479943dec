import Verif.Vec128
/-!
# A machine for the generated ARM code of meta/

The packing code of meta/streams_arm_64.h, the multiplication kernels of
meta/quantized_mul_kernels_arm_64.h and the transformations of meta/transform_kernels_arm_64.h are inline assembly.  Here the instructions they use are data (`Ins`), so
that the code can be written down line by line, and `exec` says what they do.  Prefetch hints (`prfm`) change
nothing and are left out.  The code for 32-bit ARM uses the same machine, see `Verif.MetaAsm32`.

`exec` is written for any kind of register contents (`Dom`): `machine` has real ones; the proofs
also run the code on symbolic ones.
-/
namespace Gemmlowp.MetaAsm

open Vec (VReg ofH ofS)

/-- The operands of transformations that come from their parameters (meta/transform_kernels.h:23-66), without those
that no code uses. -/
inductive Par
  | rangeMin | rangeOffset | rangeScale
  | inputMin | inputOffset | inputScale | outputMin | outputOffset | outputInvScale
  | biasMin | biasScale
  | min | max
  deriving DecidableEq, Repr

/-- The general registers: the operands of the assembly by their names, and x0, x1, …; `flags` stands for the
condition flags: the result of the last `subs`. -/
inductive X
  | inp | out | stride | count | mulSum | addSum
  | lhs | rhs | result | mulOffset | rounding | shift | scale
  | par (p : Par) | rows | bias
  | t (n : Nat)
  | flags
  deriving DecidableEq, Repr

/-- Vector operations with one source.  `lo` and `hi`: one half of a register of 128 bits, as a register of 64
bits (32-bit ARM). -/
inductive Op1 | uaddlp | sqxtn | sqxtun | scvtf | fcvtns | fcvtzs | uxtl | uxtl2 | sxtl | sxtl2 | lo | hi
  deriving DecidableEq, Repr

/-- Vector operations with two sources (for the accumulating ones the destination is the first).  `join`: a
register of 128 bits from two of 64; `vpadd`: `addp` on registers of 64 bits (32-bit ARM). -/
inductive Op2
  | uaddw | umull | uadalp | addp | add | mul | sshl | fmul | sqxtn2
  | trn1b | trn2b | trn1h | trn2h | trn1s | trn2s | uzp1b | uzp2b
  | fadd | fsub | sqxtun2 | umax | umin
  | join | vpadd
  deriving DecidableEq, Repr

/-- What is added to the pointer after an access. -/
inductive Adv | imm (n : Nat) | reg (r : X)
  deriving DecidableEq, Repr

inductive Ins
  /-- `ld1 {v.T, …}, [p], adv`: `w` bytes (8 for `.2s` and `.8b`, 16 for `.4s`) to each register -/
  | ld1 (w : Nat) (ds : List Nat) (p : X) (adv : Adv)
  /-- `ld1 {v.b}[i]`, `ld1 {v.h}[i]`, `ld1 {v.s}[i]`, `ld3 {v.b, v.b, v.b}[i]`: one lane of `sz` bytes to each
  register -/
  | ldLane (sz lane : Nat) (ds : List Nat) (p : X) (adv : Adv)
  /-- `st1 {v.T, …}, [p], adv` with elements of `sz` bytes, `n` of them from each register -/
  | st1 (sz n : Nat) (ds : List Nat) (p : X) (adv : Adv)
  /-- `st1 {v.b}[i]`, … -/
  | stLane (sz lane d : Nat) (p : X) (adv : Adv)
  /-- `subs r, r, #n` -/
  | subs (r : X) (n : Nat)
  /-- `sub r, r, #n` -/
  | sub (r : X) (n : Nat)
  /-- `add d, a, b` -/
  | addX (d a b : X)
  /-- `ldr wN, %[operand]`: the operand is in memory.  Simplified: the upper half, which is cleared, is not
  looked at later. -/
  | ldr (d a : X)
  /-- `mov d, a` -/
  | movX (d a : X)
  /-- `movi v, #0` -/
  | movi (d : Nat)
  /-- `mov v.16b, v.16b` -/
  | mov (d a : Nat)
  /-- `mov v.s[0], w` -/
  | ins (d : Nat) (r : X)
  /-- `dup v.4s, w` -/
  | dupW (d : Nat) (r : X)
  /-- `dup v.16b, w` -/
  | dupB (d : Nat) (r : X)
  /-- `dup v.4s, v.s[i]` -/
  | dupLane (d a lane : Nat)
  /-- `mul v.4s, v.4s, v.s[i]` -/
  | mulLane (d a b lane : Nat)
  | op1 (o : Op1) (d a : Nat)
  | op2 (o : Op2) (d a b : Nat)
  /-- `[p:N]` in an access (32-bit ARM): the address must be a multiple of `n` bytes -/
  | align (p : X) (n : Nat)
  deriving DecidableEq, Repr

/-- What registers hold (`V` vector registers, `A` general ones) and how instructions compute with it. -/
structure Dom (V A : Type) where
  zero : V
  load : Nat → A → V
  loadLane : Nat → Nat → A → V → V
  ins : A → V → V
  dupW : A → V
  dupB : A → V
  dupLane : Nat → V → V
  mulLane : Nat → V → V → V
  op1 : Op1 → V → V
  op2 : Op2 → V → V → V
  addImm : A → Int → A
  add : A → A → A

/-- A store: to `addr`, `size` bytes, the lane `lane` of that size of `v`. -/
structure Write (V A : Type) where
  addr : A
  size : Nat
  lane : Nat
  v : V
  deriving DecidableEq

/-- The machine: registers, and all reads (place and number of bytes), all
stores and all addresses that must be aligned (with what they must be a multiple of) so far, last one first. -/
structure St (V A : Type) where
  v : Nat → V
  x : X → A
  rd : List (A × Nat)
  wr : List (Write V A)
  al : List (A × Nat)

variable {V A : Type}

def St.setV (s : St V A) (d : Nat) (e : V) : St V A := { s with v := fun r => if r = d then e else s.v r }

def St.setX (s : St V A) (d : X) (e : A) : St V A := { s with x := fun r => if r = d then e else s.x r }

def St.advance (D : Dom V A) (s : St V A) (p : X) : Adv → St V A
  | .imm n => s.setX p (D.addImm (s.x p) n)
  | .reg r => s.setX p (D.add (s.x p) (s.x r))

/-- `ld1`, register after register. -/
def loads (D : Dom V A) (w : Nat) (p : X) : List Nat → Nat → St V A → St V A
  | [], _, s => s
  | d :: ds, off, s =>
    let a := D.addImm (s.x p) off
    loads D w p ds (off + w) { s.setV d (D.load w a) with rd := (a, w) :: s.rd }

def loadLanes (D : Dom V A) (sz lane : Nat) (p : X) : List Nat → Nat → St V A → St V A
  | [], _, s => s
  | d :: ds, off, s =>
    let a := D.addImm (s.x p) off
    loadLanes D sz lane p ds (off + sz) { s.setV d (D.loadLane sz lane a (s.v d)) with rd := (a, sz) :: s.rd }

/-- The elements of one register. -/
def storeElems (D : Dom V A) (sz : Nat) (p : X) (d : Nat) (off : Nat) : Nat → St V A → St V A
  | 0, s => s
  | n + 1, s =>
    let s := storeElems D sz p d off n s
    { s with wr := ⟨D.addImm (s.x p) (off + sz * n : Nat), sz, n, s.v d⟩ :: s.wr }

/-- `st1`, register after register. -/
def stores (D : Dom V A) (sz n : Nat) (p : X) : List Nat → Nat → St V A → St V A
  | [], _, s => s
  | d :: ds, off, s => stores D sz n p ds (off + sz * n) (storeElems D sz p d off n s)

/-- One instruction. -/
def step (D : Dom V A) (s : St V A) : Ins → St V A
  | .ld1 w ds p adv => (loads D w p ds 0 s).advance D p adv
  | .ldLane sz lane ds p adv => (loadLanes D sz lane p ds 0 s).advance D p adv
  | .st1 sz n ds p adv => (stores D sz n p ds 0 s).advance D p adv
  | .stLane sz lane d p adv =>
    { s with wr := ⟨s.x p, sz, lane, s.v d⟩ :: s.wr }.advance D p adv
  | .subs r n => let e := D.addImm (s.x r) (-n); (s.setX r e).setX .flags e
  | .sub r n => s.setX r (D.addImm (s.x r) (-n))
  | .addX d a b => s.setX d (D.add (s.x a) (s.x b))
  | .ldr d a => s.setX d (s.x a)
  | .movX d a => s.setX d (s.x a)
  | .movi d => s.setV d D.zero
  | .mov d a => s.setV d (s.v a)
  | .ins d r => s.setV d (D.ins (s.x r) (s.v d))
  | .dupW d r => s.setV d (D.dupW (s.x r))
  | .dupB d r => s.setV d (D.dupB (s.x r))
  | .dupLane d a lane => s.setV d (D.dupLane lane (s.v a))
  | .mulLane d a b lane => s.setV d (D.mulLane lane (s.v a) (s.v b))
  | .op1 o d a => s.setV d (D.op1 o (s.v a))
  | .op2 o d a b => s.setV d (D.op2 o (s.v a) (s.v b))
  | .align p n => { s with al := (s.x p, n) :: s.al }

/-- A straight-line part. -/
def exec (D : Dom V A) (l : List Ins) (s : St V A) : St V A := l.foldl (step D) s

/-- The conditions of the branch that closes the loop: `bne 1b`, `bgt 1b`. -/
inductive Cond | ne | gt
  deriving DecidableEq, Repr

/-- The shape of all the code: `init`; `beq 2f` if `skip`; `1: body`; the branch back to `1` under `cond`;
`2: tail`. -/
structure Prog where
  init : List Ins
  skip : Bool
  body : List Ins
  cond : Cond
  tail : List Ins
  deriving DecidableEq, Repr

/-! ## The real machine -/

/-- What floating-point instructions do with one lane, as parameters: conversion from `int32`, multiplication,
addition, subtraction, and conversion to `int32`, to the nearest and towards zero. -/
structure FloatOps where
  ofInt : BitVec 32 → BitVec 32
  mul : BitVec 32 → BitVec 32 → BitVec 32
  add : BitVec 32 → BitVec 32 → BitVec 32
  sub : BitVec 32 → BitVec 32 → BitVec 32
  toNearest : BitVec 32 → BitVec 32
  toZero : BitVec 32 → BitVec 32

/-- Saturation of a signed 32-bit value to 16 bits. -/
def sat16 (x : BitVec 32) : BitVec 16 :=
  BitVec.ofInt 16 (if x.toInt < -32768 then -32768 else if 32767 < x.toInt then 32767 else x.toInt)

/-- Saturation of a signed 16-bit value to an unsigned byte. -/
def satU8 (x : BitVec 16) : BitVec 8 :=
  BitVec.ofInt 8 (if x.toInt < 0 then 0 else if 255 < x.toInt then 255 else x.toInt)

/-- One lane of `sshl`: the amount is the lowest byte, signed. -/
def sshl (x y : BitVec 32) : BitVec 32 :=
  let n := (y.extractLsb' 0 8).toInt
  if 0 ≤ n then x <<< n.toNat else x.sshiftRight (-n).toNat

def op1V (f : FloatOps) : Op1 → VReg → VReg
  | .uaddlp, a => ofS fun i => (a.h (2 * i)).zeroExtend 32 + (a.h (2 * i + 1)).zeroExtend 32
  | .sqxtn, a => ofH fun i => if i < 4 then sat16 (a.s i) else 0
  | .sqxtun, a => fun i => if i < 8 then satU8 (a.h i) else 0
  | .scvtf, a => ofS fun i => f.ofInt (a.s i)
  | .fcvtns, a => ofS fun i => f.toNearest (a.s i)
  | .fcvtzs, a => ofS fun i => f.toZero (a.s i)
  | .uxtl, a => ofH fun i => (a i).zeroExtend 16
  | .uxtl2, a => ofH fun i => (a (8 + i)).zeroExtend 16
  | .sxtl, a => ofS fun i => (a.h i).signExtend 32
  | .sxtl2, a => ofS fun i => (a.h (4 + i)).signExtend 32
  | .lo, a => fun i => if i < 8 then a i else 0
  | .hi, a => fun i => if i < 8 then a (8 + i) else 0

def op2V (f : FloatOps) : Op2 → VReg → VReg → VReg
  | .uaddw, a, b => ofH fun i => a.h i + (b i).zeroExtend 16
  | .umull, a, b => ofH fun i => (a i).zeroExtend 16 * (b i).zeroExtend 16
  | .uadalp, a, b => ofS fun i => a.s i + ((b.h (2 * i)).zeroExtend 32 + (b.h (2 * i + 1)).zeroExtend 32)
  | .addp, a, b => ofS fun i => if i < 2 then a.s (2 * i) + a.s (2 * i + 1) else b.s (2 * i - 4) + b.s (2 * i - 3)
  | .add, a, b => ofS fun i => a.s i + b.s i
  | .mul, a, b => ofS fun i => a.s i * b.s i
  | .sshl, a, b => ofS fun i => sshl (a.s i) (b.s i)
  | .fmul, a, b => ofS fun i => f.mul (a.s i) (b.s i)
  | .sqxtn2, a, b => ofH fun i => if i < 4 then a.h i else sat16 (b.s (i - 4))
  | .trn1b, a, b => fun i => if 8 ≤ i then 0 else if i % 2 = 0 then a i else b (i - 1)
  | .trn2b, a, b => fun i => if 8 ≤ i then 0 else if i % 2 = 0 then a (i + 1) else b i
  | .trn1h, a, b => fun i => if 8 ≤ i then 0 else if i % 4 < 2 then a i else b (i - 2)
  | .trn2h, a, b => fun i => if 8 ≤ i then 0 else if i % 4 < 2 then a (i + 2) else b i
  | .trn1s, a, b => fun i => if 8 ≤ i then 0 else if i < 4 then a i else b (i - 4)
  | .trn2s, a, b => fun i => if 8 ≤ i then 0 else if i < 4 then a (i + 4) else b i
  | .uzp1b, a, b => fun i => if 8 ≤ i then 0 else if i < 4 then a (2 * i) else b (2 * i - 8)
  | .uzp2b, a, b => fun i => if 8 ≤ i then 0 else if i < 4 then a (2 * i + 1) else b (2 * i - 7)
  | .fadd, a, b => ofS fun i => f.add (a.s i) (b.s i)
  | .fsub, a, b => ofS fun i => f.sub (a.s i) (b.s i)
  | .sqxtun2, a, b => fun i => if i < 8 then a i else satU8 (b.h (i - 8))
  | .umax, a, b => fun i => if (a i).toNat ≤ (b i).toNat then b i else a i
  | .umin, a, b => fun i => if (a i).toNat ≤ (b i).toNat then a i else b i
  | .join, a, b => fun i => if i < 8 then a i else if i < 16 then b (i - 8) else 0
  | .vpadd, a, b => ofS fun i => if i = 0 then a.s 0 + a.s 1 else if i = 1 then b.s 0 + b.s 1 else 0

/-- The real contents.  `mem` is the memory that is read.  Simplified: what the code reads and what it
writes do not overlap, so stores do not change what is read (the operands of packing are an input matrix and
scratch memory, those of a kernel scratch memory and the result); the general registers are
unbounded, that is, addresses do not wrap around; `int` operands that are used through their 64-bit register
(`%x[count]`, `%x[stride]`) are extended correctly by the compiler. -/
def machine (f : FloatOps) (mem : Int → BitVec 8) : Dom VReg Int where
  zero := fun _ => 0
  load := fun w a j => if j < w then mem (a + j) else 0
  loadLane := fun sz lane a v j =>
    if sz * lane ≤ j ∧ j < sz * (lane + 1) then mem (a + (j - sz * lane : Nat)) else v j
  ins := fun r v => ofS fun i => if i = 0 then BitVec.ofInt 32 r else v.s i
  dupW := fun r => ofS fun _ => BitVec.ofInt 32 r
  dupB := fun r _ => BitVec.ofInt 8 r
  dupLane := fun lane v => ofS fun _ => v.s lane
  mulLane := fun lane a b => ofS fun i => a.s i * b.s lane
  op1 := op1V f
  op2 := op2V f
  addImm := fun a n => a + n
  add := fun a b => a + b

/-- Whether the branch is taken. -/
def Cond.holds : Cond → Int → Bool
  | .ne, r => decide (r ≠ 0)
  | .gt, r => decide (0 < r)

/-- The loop, at most `fuel` passes. -/
def loop (D : Dom VReg Int) (body : List Ins) (c : Cond) : Nat → St VReg Int → Option (St VReg Int)
  | 0, _ => none
  | fuel + 1, s =>
    let s := exec D body s
    if c.holds (s.x .flags) then loop D body c fuel s else some s

/-- The whole code.  `none`: the loop does not end (each pass lowers the counter, so more passes than the
counter says means that it has missed its end). -/
def Prog.run (p : Prog) (D : Dom VReg Int) (s : St VReg Int) : Option (St VReg Int) :=
  let s := exec D p.init s
  if p.skip && decide (s.x .flags = 0) then some (exec D p.tail s)
  else (loop D p.body p.cond ((s.x .count).toNat + 1) s).map (exec D p.tail)

/-- Memory after the stores. -/
def memAfter : List (Write VReg Int) → (Int → BitVec 8) → Int → BitVec 8
  | [], m, a => m a
  | w :: l, m, a =>
    if w.addr ≤ a ∧ a < w.addr + w.size then w.v (w.size * w.lane + (a - w.addr).toNat) else memAfter l m a

/-- The places a list of stores writes are all in `ok`. -/
def writesIn (ok : Int → Bool) (l : List (Write VReg Int)) : Bool :=
  l.all fun w => (List.range w.size).all fun i => ok (w.addr + i)

/-- The places a list of reads touches are all in `ok`. -/
def readsIn (ok : Int → Bool) (l : List (Int × Nat)) : Bool :=
  l.all fun r => (List.range r.2).all fun i => ok (r.1 + i)

/-- The addresses that must be aligned are. -/
def alignedIn (l : List (Int × Nat)) : Bool := l.all fun r => decide (r.1 % r.2 = 0)

/-- What a list of stores writes, byte by byte. -/
def bytesOf (l : List (Write VReg Int)) : List (Int × BitVec 8) :=
  l.flatMap fun w => (List.range w.size).map fun (b : Nat) => (w.addr + b, w.v (w.size * w.lane + b))

/-- What a list of stores of 32-bit elements writes. -/
def wordsOf (l : List (Write VReg Int)) : Option (List (Int × BitVec 32)) :=
  if l.all (fun w => w.size == 4) then some (l.map fun w => (w.addr, w.v.s w.lane)) else none

end Gemmlowp.MetaAsm
