import Verif.Kernel
/-!
# standalone/neon-gemm-kernel-benchmark.cc: a machine for the benchmark's kernels

The benchmark has some thirty kernels of its own, in assembly for ARM, AArch64 and MIPS.  They are
written down below as lists of instructions of a machine with 8-byte registers: D registers of ARM,
halves of the V and W registers of AArch64 and MSA.  All arithmetic instructions used have one form:
each lane of the result is, modulo its size, a sum of lanes and products of lanes, each read as a signed
or as an unsigned number.  So an instruction is data, and symbolic execution (BenchSym.lean) can follow
it.

Simplified: prefetches are left out; the address of an accumulator in memory is a constant in all the
kernels and is resolved here (`Term.acc`, `Kern.outs`); integer registers that carry packed data are
further registers of the machine.
-/
namespace Gemmlowp.Bench

/-- A register as 8 bytes, lowest first (bytes beyond have no meaning). -/
abbrev DReg := Nat → BitVec 8

/-- The number in `k` bytes from `p` on, lowest first. -/
def laneAux (v : DReg) : Nat → Nat → Nat
  | _, 0 => 0
  | p, k + 1 => (v p).toNat + 256 * laneAux v (p + 1) k

/-- Lane `i` of `n` bytes, as an unsigned number. -/
def lane (n : Nat) (v : DReg) (i : Nat) : Nat := laneAux v (n * i) n

/-- The register whose lanes of `n` bytes are the given numbers modulo `256 ^ n`. -/
def ofLanes (n : Nat) (f : Nat → Int) : DReg := fun j => BitVec.ofInt 8 (f (j / n) / 256 ^ (j % n))

/-- Lane `i` of `n` bytes of register `d`, signed or not. -/
structure Src where
  sg : Bool
  n : Nat
  d : Nat
  i : Nat
  deriving DecidableEq, Repr

/-- A summand of a lane: a lane, a product of lanes, or an accumulator in memory. -/
inductive Term
  | src (s : Src)
  | mul (s t : Src)
  | acc (k : Nat)
  deriving DecidableEq, Repr

/-- A result: register, bytes of a lane, and the summands of each lane. -/
structure Out where
  d : Nat
  n : Nat
  lanes : List (List Term)
  deriving DecidableEq, Repr

inductive Ptr | lhs | rhs
  deriving DecidableEq, Repr

/-- Instructions. -/
inductive Ins
  /-- read 8 bytes at the pointer plus `off` -/
  | ld (p : Ptr) (off d : Nat)
  /-- read one byte, the others of the register become 0 -/
  | ldb (p : Ptr) (off d : Nat)
  /-- advance a pointer -/
  | adv (p : Ptr) (n : Nat)
  /-- clear a register -/
  | zero (d : Nat)
  /-- compute; all results are from the registers before -/
  | op (outs : List Out)
  deriving DecidableEq, Repr

/-- The memory a kernel reads: packed operands and, at the start, the accumulators. -/
structure Mem where
  lhs : Buf UInt8
  rhs : Buf UInt8
  acc : Nat → BitVec 32

/-- Machine state: registers, data pointers as positions, and whether all reads were within the
buffers. -/
structure St where
  x : Nat → DReg
  lp : Nat
  rp : Nat
  ok : Bool

def upd {α : Type} (x : Nat → α) (d : Nat) (v : α) : Nat → α := fun r => if r = d then v else x r

def Src.val (x : Nat → DReg) (s : Src) : Int :=
  if s.sg = true ∧ 256 ^ s.n ≤ 2 * lane s.n (x s.d) s.i then (lane s.n (x s.d) s.i : Int) - 256 ^ s.n
  else lane s.n (x s.d) s.i

def Term.val (m : Mem) (x : Nat → DReg) : Term → Int
  | .src s => s.val x
  | .mul s t => s.val x * t.val x
  | .acc k => ((m.acc k).toNat : Int)

def termsVal (m : Mem) (x : Nat → DReg) : List Term → Int
  | [] => 0
  | t :: ts => t.val m x + termsVal m x ts

def Out.val (m : Mem) (x : Nat → DReg) (o : Out) : DReg :=
  ofLanes o.n (fun i => termsVal m x (o.lanes.getD i []))

def writes (m : Mem) (x0 : Nat → DReg) : List Out → (Nat → DReg) → Nat → DReg
  | [], x => x
  | o :: os, x => writes m x0 os (upd x o.d (o.val m x0))

def step (m : Mem) (i : Ins) (s : St) : St :=
  match i with
  | .ld .lhs off d => { s with
      x := upd s.x d (fun j => if j < 8 then (m.lhs.get (s.lp + off + j)).toBitVec else 0#8)
      ok := s.ok && decide (s.lp + off + 8 ≤ m.lhs.size) }
  | .ld .rhs off d => { s with
      x := upd s.x d (fun j => if j < 8 then (m.rhs.get (s.rp + off + j)).toBitVec else 0#8)
      ok := s.ok && decide (s.rp + off + 8 ≤ m.rhs.size) }
  | .ldb .lhs off d => { s with
      x := upd s.x d (fun j => if j = 0 then (m.lhs.get (s.lp + off)).toBitVec else 0#8)
      ok := s.ok && decide (s.lp + off + 1 ≤ m.lhs.size) }
  | .ldb .rhs off d => { s with
      x := upd s.x d (fun j => if j = 0 then (m.rhs.get (s.rp + off)).toBitVec else 0#8)
      ok := s.ok && decide (s.rp + off + 1 ≤ m.rhs.size) }
  | .adv .lhs n => { s with lp := s.lp + n }
  | .adv .rhs n => { s with rp := s.rp + n }
  | .zero d => { s with x := upd s.x d (fun _ => 0#8) }
  | .op outs => { s with x := writes m s.x outs s.x }

def exec (m : Mem) (l : List Ins) (s : St) : St := l.foldl (fun s i => step m i s) s

/-! ## Instructions of AArch64 -/

/-- Lane `i` of a 16-byte register. -/
def q (sg : Bool) (n v i : Nat) : Src := ⟨sg, n, 2 * v + i / (8 / n), i % (8 / n)⟩

abbrev u8 := q false 1
abbrev s8 := q true 1
abbrev u16 := q false 2
abbrev s16 := q true 2
abbrev w32 := q false 4

/-- The same for an 8-byte register of ARM. -/
def dl (sg : Bool) (n d i : Nat) : Src := ⟨sg, n, d, i⟩

/-- An 8-byte result. -/
def outD (n d : Nat) (f : Nat → List Term) : Out := ⟨d, n, (List.range (8 / n)).map f⟩

/-- A 16-byte result. -/
def outQ (n v : Nat) (f : Nat → List Term) : List Out :=
  [outD n (2 * v) f, outD n (2 * v + 1) (fun i => f (i + 8 / n))]

/-- `ld1 {v.16b}, [p], #16` -/
def ld1_16b (v : Nat) (p : Ptr) : List Ins := [.ld p 0 (2 * v), .ld p 8 (2 * v + 1), .adv p 16]
/-- `ld1 {v.8b}, [p], #8` -/
def ld1_8b (v : Nat) (p : Ptr) : List Ins := [.ld p 0 (2 * v), .zero (2 * v + 1), .adv p 8]
/-- `ldr q, [p, #off]` -/
def ldr_q (v : Nat) (p : Ptr) (off : Nat) : List Ins := [.ld p off (2 * v), .ld p (off + 8) (2 * v + 1)]
/-- `ldr d, [p, #off]` -/
def ldr_d (v : Nat) (p : Ptr) (off : Nat) : List Ins := [.ld p off (2 * v), .zero (2 * v + 1)]
/-- `ldr x, [p, #off]`; integer register `x` is register `100 + x` of the machine -/
def ldr_x (x : Nat) (p : Ptr) (off : Nat) : List Ins := [.ld p off (100 + x)]
/-- `ins v.d[k], x` -/
def ins_d (v k x : Nat) : List Ins := [.op [outD 1 (2 * v + k) (fun i => [.src (dl false 1 (100 + x) i)])]]
/-- `add p, p, #n` -/
def add_ptr (p : Ptr) (n : Nat) : List Ins := [.adv p n]
/-- `dup v.4s, wzr`, `dup v.8h, wzr` -/
def dup_wzr (v : Nat) : List Ins := [.zero (2 * v), .zero (2 * v + 1)]
/-- `ld1 {v.16b}, [x0], #16` from the accumulators -/
def ld_acc (v k : Nat) : List Ins := [.op (outQ 4 v (fun i => [.acc (k + i)]))]
/-- `uxtl v.8h, n.8b` -/
def uxtl (v n : Nat) : List Ins := [.op (outQ 2 v (fun i => [.src (u8 n i)]))]
/-- `umlal d.4s, n.4h, m.h[k]` -/
def umlal (d n m k : Nat) : List Ins :=
  [.op (outQ 4 d (fun i => [.src (w32 d i), .mul (u16 n i) (u16 m k)]))]
/-- `umlal2 d.4s, n.8h, m.h[k]` -/
def umlal2 (d n m k : Nat) : List Ins :=
  [.op (outQ 4 d (fun i => [.src (w32 d i), .mul (u16 n (i + 4)) (u16 m k)]))]
/-- `umull d.8h, n.8b, m.8b` -/
def umull (d n m : Nat) : List Ins := [.op (outQ 2 d (fun i => [.mul (u8 n i) (u8 m i)]))]
/-- `umull2 d.8h, n.16b, m.16b` -/
def umull2 (d n m : Nat) : List Ins := [.op (outQ 2 d (fun i => [.mul (u8 n (i + 8)) (u8 m (i + 8))]))]
/-- `uadalp d.4s, n.8h` -/
def uadalp (d n : Nat) : List Ins :=
  [.op (outQ 4 d (fun i => [.src (w32 d i), .src (u16 n (2 * i)), .src (u16 n (2 * i + 1))]))]
/-- `smull d.8h, n.8b, m.8b` -/
def smull (d n m : Nat) : List Ins := [.op (outQ 2 d (fun i => [.mul (s8 n i) (s8 m i)]))]
/-- `smlal d.8h, n.8b, m.8b` -/
def smlal (d n m : Nat) : List Ins := [.op (outQ 2 d (fun i => [.src (u16 d i), .mul (s8 n i) (s8 m i)]))]
/-- `smlal2 d.8h, n.16b, m.16b` -/
def smlal2 (d n m : Nat) : List Ins :=
  [.op (outQ 2 d (fun i => [.src (u16 d i), .mul (s8 n (i + 8)) (s8 m (i + 8))]))]
/-- `sadalp d.4s, n.8h` -/
def sadalp (d n : Nat) : List Ins :=
  [.op (outQ 4 d (fun i => [.src (w32 d i), .src (s16 n (2 * i)), .src (s16 n (2 * i + 1))]))]
/-- `sadalp d.8h, n.16b` -/
def sadalp_8h (d n : Nat) : List Ins :=
  [.op (outQ 2 d (fun i => [.src (u16 d i), .src (s8 n (2 * i)), .src (s8 n (2 * i + 1))]))]
/-- `mul d.16b, n.16b, m.16b` -/
def mul_16b (d n m : Nat) : List Ins := [.op (outQ 1 d (fun i => [.mul (u8 n i) (u8 m i)]))]
/-- `mla d.16b, n.16b, m.16b` -/
def mla_16b (d n m : Nat) : List Ins := [.op (outQ 1 d (fun i => [.src (u8 d i), .mul (u8 n i) (u8 m i)]))]
/-- `addp d.4s, n.4s, m.4s` -/
def addp (d n m : Nat) : List Ins :=
  [.op (outQ 4 d (fun i => if i < 2 then [.src (w32 n (2 * i)), .src (w32 n (2 * i + 1))]
    else [.src (w32 m (2 * (i - 2))), .src (w32 m (2 * (i - 2) + 1))]))]
/-- `add d.4s, n.4s, m.4s` -/
def add_4s (d n m : Nat) : List Ins := [.op (outQ 4 d (fun i => [.src (w32 n i), .src (w32 m i)]))]
/-- `udot d.4s, n.16b, m.16b` -/
def udot (d n m : Nat) : List Ins :=
  [.op (outQ 4 d (fun i => [.src (w32 d i), .mul (u8 n (4 * i)) (u8 m (4 * i)),
    .mul (u8 n (4 * i + 1)) (u8 m (4 * i + 1)), .mul (u8 n (4 * i + 2)) (u8 m (4 * i + 2)),
    .mul (u8 n (4 * i + 3)) (u8 m (4 * i + 3))]))]
/-- `udot d.4s, n.16b, m.4b[k]` -/
def udot_lane (d n m k : Nat) : List Ins :=
  [.op (outQ 4 d (fun i => [.src (w32 d i), .mul (u8 n (4 * i)) (u8 m (4 * k)),
    .mul (u8 n (4 * i + 1)) (u8 m (4 * k + 1)), .mul (u8 n (4 * i + 2)) (u8 m (4 * k + 2)),
    .mul (u8 n (4 * i + 3)) (u8 m (4 * k + 3))]))]

/-- The `udot` instructions are given as `.word`s.  Arm Architecture Reference Manual, UDOT (vector):
`0 1 1 01110 10 0 Rm 100101 Rn Rd`; UDOT (by element): `0 1 1 01111 10 L M Rm 1110 H 0 Rn Rd`, element
`H:L`.  Another word does nothing here, so no kernel with one would be right. -/
def word (w : BitVec 32) : List Ins :=
  let d := (w.extractLsb' 0 5).toNat
  let n := (w.extractLsb' 5 5).toNat
  let m := (w.extractLsb' 16 5).toNat
  if w.extractLsb' 21 11 = 0b01101110100#11 ∧ w.extractLsb' 10 6 = 0b100101#6 then udot d n m
  else if w.extractLsb' 22 10 = 0b0110111110#10 ∧ w.extractLsb' 12 4 = 0b1110#4 ∧ w.extractLsb' 10 1 = 0#1 then
    udot_lane d n m (2 * (w.extractLsb' 11 1).toNat + (w.extractLsb' 21 1).toNat)
  else []

/-- Lines 2287-2292, C++: `accum_ptr[l + 5 * r] += rowmajor_accumulator_buffer[r + l * 4]`, where row `l` of the
buffer is in register `v(10 + l)`; entry `k` of the accumulators is put into register `200 + k`. -/
def rowmajorAdd : List Ins :=
  [.op ((List.range 20).map (fun k => ⟨200 + k, 4, [[.src (w32 (10 + k % 5) (k / 5)), .acc k]]⟩))]

/-! ## Instructions of ARM -/

/-- `vld1.8 {d, ...}, [p]!` -/
def vld1_8 (ds : List Nat) (p : Ptr) : List Ins := ds.flatMap (fun d => [.ld p 0 d, .adv p 8])
/-- `vldr d, [p, #off]` -/
def vldr (d : Nat) (p : Ptr) (off : Nat) : List Ins := [.ld p off d]
/-- `vmov.i32 q, #0` -/
def vmov0 (v : Nat) : List Ins := [.zero (2 * v), .zero (2 * v + 1)]
/-- `vmov.i32 q, q` (which the assembler takes as `vmov q, q`) -/
def vmov (v n : Nat) : List Ins := [.op (outQ 4 v (fun i => [.src (w32 n i)]))]
/-- `vld1.32 {d}, [r0]!` from the accumulators -/
def vld_acc (d k : Nat) : List Ins := [.op [outD 4 d (fun i => [.acc (k + i)])]]
/-- `vld1.32 {d[0]}, [r0]!` from the accumulators -/
def vld_acc0 (d k : Nat) : List Ins :=
  [.op [outD 4 d (fun i => if i = 0 then [.acc k] else [.src (dl false 4 d i)])]]
/-- `vmovl.u8 q, d` -/
def vmovl_u8 (v d : Nat) : List Ins := [.op (outQ 2 v (fun i => [.src (dl false 1 d i)]))]
/-- `vmlal.u16 q, dn, dm[k]` -/
def vmlal_u16 (v n m k : Nat) : List Ins :=
  [.op (outQ 4 v (fun i => [.src (w32 v i), .mul (dl false 2 n i) (dl false 2 m k)]))]
/-- `vmull.u8 q, dn, dm` -/
def vmull_u8 (v n m : Nat) : List Ins := [.op (outQ 2 v (fun i => [.mul (dl false 1 n i) (dl false 1 m i)]))]
/-- `vmull.s8 q, dn, dm` -/
def vmull_s8 (v n m : Nat) : List Ins := [.op (outQ 2 v (fun i => [.mul (dl true 1 n i) (dl true 1 m i)]))]
/-- `vmlal.s8 q, dn, dm` -/
def vmlal_s8 (v n m : Nat) : List Ins :=
  [.op (outQ 2 v (fun i => [.src (u16 v i), .mul (dl true 1 n i) (dl true 1 m i)]))]
/-- `vpadal.u16 q, qn` -/
def vpadal_u16 (v n : Nat) : List Ins := uadalp v n
/-- `vpadal.s16 q, qn` -/
def vpadal_s16 (v n : Nat) : List Ins := sadalp v n
/-- `vpadd.u32 d, dn, dm`, `vpadd.s32 d, dn, dm` -/
def vpadd (d n m : Nat) : List Ins :=
  [.op [outD 4 d (fun i => if i = 0 then [.src (dl false 4 n 0), .src (dl false 4 n 1)]
    else [.src (dl false 4 m 0), .src (dl false 4 m 1)])]]
/-- `vadd.s32 q, qn, qm` -/
def vadd (v n m : Nat) : List Ins := add_4s v n m

/-! ## Instructions of MSA -/

/-- `ld.b w, off(p)` -/
def ld_b (v off : Nat) (p : Ptr) : List Ins := ldr_q v p off
/-- `lbu r, off(p)`; integer register `r` is register `100 + r` of the machine -/
def lbu (r off : Nat) (p : Ptr) : List Ins := [.ldb p off (100 + r)]
/-- `ins rd, rs, 16, 8`: bits 16 to 23 of `rd` are the low 8 bits of `rs` -/
def ins_16_8 (r s : Nat) : List Ins :=
  [.op [outD 1 (100 + r) (fun i => [.src (if i = 2 then dl false 1 (100 + s) 0 else dl false 1 (100 + r) i)])]]
/-- `fill.w w, r` -/
def fill_w (v r : Nat) : List Ins := [.op (outQ 1 v (fun i => [.src (dl false 1 (100 + r) (i % 4))]))]
/-- `ldi.b w, 0` -/
def ldi0 (v : Nat) : List Ins := [.zero (2 * v), .zero (2 * v + 1)]
/-- `ilvr.b d, s, t`: even bytes from the low half of `t`, odd ones from the low half of `s` -/
def ilvr_b (d s t : Nat) : List Ins :=
  [.op (outQ 1 d (fun i => [.src (if i % 2 = 0 then u8 t (i / 2) else u8 s (i / 2))]))]
/-- `ilvl.b d, s, t`: the same from the high halves -/
def ilvl_b (d s t : Nat) : List Ins :=
  [.op (outQ 1 d (fun i => [.src (if i % 2 = 0 then u8 t (8 + i / 2) else u8 s (8 + i / 2))]))]
/-- `ilvl.d d, s, t`: the high half of `t`, then that of `s` -/
def ilvl_d (d s t : Nat) : List Ins :=
  [.op (outQ 1 d (fun i => [.src (if i < 8 then u8 t (8 + i) else u8 s i)]))]
/-- `ilvr.h d, s, t`: even 16-bit lanes from the low half of `t`, odd ones from the low half of `s` -/
def ilvr_h (d s t : Nat) : List Ins :=
  [.op (outQ 1 d (fun i => [.src (if i / 2 % 2 = 0 then u8 t (2 * (i / 4) + i % 2)
    else u8 s (2 * (i / 4) + i % 2))]))]
/-- `splati.w d, s[k]` -/
def splati_w (d s k : Nat) : List Ins := [.op (outQ 1 d (fun i => [.src (u8 s (4 * k + i % 4))]))]
/-- `dpadd_u.w d, s, t` -/
def dpadd_u (d s t : Nat) : List Ins :=
  [.op (outQ 4 d (fun i => [.src (w32 d i), .mul (u16 s (2 * i)) (u16 t (2 * i)),
    .mul (u16 s (2 * i + 1)) (u16 t (2 * i + 1))]))]

end Gemmlowp.Bench
