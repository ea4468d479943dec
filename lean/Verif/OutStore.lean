import Verif.OutSimd
/-!
# internal/output_{sse,neon,msa}.h: the final casts and the stores

The first part casts registers of four int32 to registers of the final type.  The second part
describes the stores.  A store function moves the lanes of the registers of a block around and writes
them to the destination, in a way that does not depend on the values.  So it is modelled as a list of
pairs: a place in the destination, and the lane of a register of the block whose value goes there, in
program order.  Little-endian byte order is assumed.
-/
namespace Gemmlowp.OutSimd

open Isa

/-- The three sets of vector instructions for which unpacking and output are specialised. -/
inductive VArch | sse | neon | msa
  deriving DecidableEq

/-- The wrapper functions of a set. -/
def VArch.wrap : VArch → Wrap
  | .sse => sseWrap
  | .neon => neonWrap
  | .msa => msaWrap

/-! ## Instructions for narrowing -/

/-- `_mm_packs_epi32`: signed saturation to 16 bits, first operand in the low half. -/
def packs32 (a b : Reg 4 32) : Reg 8 16 := fun i =>
  satW 16 (if i.val < 4 then rd a i else rd b (i - 4)).toInt
/-- `_mm_packus_epi16`: unsigned saturation to 8 bits, first operand in the low half. -/
def packus16 (a b : Reg 8 16) : Reg 16 8 := fun i =>
  BitVec.ofInt 8 (min 255 (max 0 (if i.val < 8 then rd a i else rd b (i - 8)).toInt))
/-- `vqmovn_s32`: signed saturation to 16 bits. -/
def qmovn32 (a : Reg 4 32) : Reg 4 16 := fun i => satW 16 (a i).toInt
/-- `vcombine_s16`: first operand in the low half. -/
def combine16 (a b : Reg 4 16) : Reg 8 16 := fun i => if i.val < 4 then rd a i else rd b (i - 4)
/-- `vqmovun_s16`: unsigned saturation to 8 bits. -/
def qmovun16 (a : Reg 8 16) : Reg 8 8 := fun i => BitVec.ofInt 8 (min 255 (max 0 (a i).toInt))
/-- `vqmovn_s16`: signed saturation to 8 bits. -/
def qmovn16 (a : Reg 8 16) : Reg 8 8 := fun i => satW 8 (a i).toInt
/-- `__builtin_msa_maxi_s_w (a, 0)`, `__builtin_msa_maxi_s_h (a, 0)`. -/
def maxi0 {n w : Nat} (a : Reg n w) : Reg n w := map1 (fun x => if x.slt 0 then 0 else x) a
/-- The 32-bit lanes taken as 16-bit lanes. -/
def halves (a : Reg 4 32) : Reg 8 16 := fun i => (rd a (i / 2)).extractLsb' (16 * (i % 2)) 16
/-- The 16-bit lanes taken as 8-bit lanes. -/
def bytesOf (a : Reg 8 16) : Reg 16 8 := fun i => (rd a (i / 2)).extractLsb' (8 * (i % 2)) 8
/-- `__builtin_msa_pckev_h`, `__builtin_msa_pckev_b`: the even lanes of the second operand, then
those of the first. -/
def pckev {n w : Nat} (a b : Reg n w) : Reg n w := fun i =>
  if i.val < n / 2 then rd b (2 * i) else rd a (2 * (i - n / 2))
/-- Bytes `4 * k` … `4 * k + 3` as one word: `_mm_extract_epi32 (a, k)`, `_mm_cvtsi128_si32` (`k = 0`),
`__builtin_msa_copy_s_w (a, k)`, `vget_lane_u32 (a, k)`. -/
def word {n : Nat} (a : Reg n 8) (k : Nat) : BitVec 32 :=
  rd a (4 * k + 3) ++ rd a (4 * k + 2) ++ rd a (4 * k + 1) ++ rd a (4 * k)

/-- A register of the final type, as the list of the values of its lanes. -/
abbrev FReg := List Int

/-- A register of `n` signed lanes. -/
def ofS {n w : Nat} (a : Reg n w) : FReg := (List.range n).map fun i => (rd a i).toInt
/-- A register of `n` unsigned lanes. -/
def ofU {n w : Nat} (a : Reg n w) : FReg := (List.range n).map fun i => ((rd a i).toNat : Int)
/-- Four uint8 entries in a word: the store functions take out entry `i` as `reg >> (8 * i)`,
converted to uint8. -/
def ofWordU (x : BitVec 32) : FReg := (List.range 4).map fun i => (((x >>> (8 * i)).setWidth 8).toNat : Int)
/-- Four int8 entries in a word; the shift is arithmetic, the conversion is to int8. -/
def ofWordS (x : BitVec 32) : FReg :=
  (List.range 4).map fun i => ((x.sshiftRight (8 * i)).setWidth 8).toInt

/-- internal/output_sse.h:26-180. -/
def sseCast (c : Cast) (v : List (Reg 4 32)) : M (List FReg) :=
  match c, v with
  | .satUint8, [r0] =>
    let res_16 := packs32 r0 r0
    let res_8 := packus16 res_16 res_16
    .ok [ofWordU (word res_8 0)]
  | .satUint8, [r0, r1] =>
    let res_16 := packs32 r0 r1
    let res_8 := packus16 res_16 res_16
    .ok [ofWordU (word res_8 0), ofWordU (word res_8 1)]
  | .satUint8, [r0, r1, r2, r3] =>
    let res_16_0 := packs32 r0 r1
    let res_16_1 := packs32 r2 r3
    .ok [ofU (packus16 res_16_0 res_16_1)]
  | .satUint8, [r0, r1, r2, r3, r4, r5, r6, r7] =>
    let res_16_0 := packs32 r0 r1
    let res_16_1 := packs32 r2 r3
    let res_16_2 := packs32 r4 r5
    let res_16_3 := packs32 r6 r7
    .ok [ofU (packus16 res_16_0 res_16_1), ofU (packus16 res_16_2 res_16_3)]
  | .satInt16, [r0] =>
    let res_16 := packs32 r0 r0
    .ok [[(rd res_16 0).toInt], [(rd res_16 1).toInt], [(rd res_16 2).toInt], [(rd res_16 3).toInt]]
  | .satInt16, [r0, r1] => .ok [ofS (packs32 r0 r1)]
  | .satInt16, [r0, r1, r2, r3] => .ok [ofS (packs32 r0 r1), ofS (packs32 r2 r3)]
  | .satInt16, [r0, r1, r2, r3, r4, r5, r6, r7] =>
    .ok [ofS (packs32 r0 r1), ofS (packs32 r2 r3), ofS (packs32 r4 r5), ofS (packs32 r6 r7)]
  | .none, v => .ok (v.map ofS)
  | _, _ => .error .badOp

/-- internal/output_neon.h:26-271. -/
def neonCast (c : Cast) (v : List (Reg 4 32)) : M (List FReg) :=
  let n16 := fun a b => combine16 (qmovn32 a) (qmovn32 b)
  match c, v with
  | .satUint8, [r0] => .ok [ofWordU (word (qmovun16 (combine16 (qmovn32 r0) (qmovn32 r0))) 0)]
  | .satUint8, [r0, r1] => .ok [ofU (qmovun16 (n16 r0 r1))]
  | .satUint8, [r0, r1, r2, r3] => .ok [ofU (qmovun16 (n16 r0 r1)), ofU (qmovun16 (n16 r2 r3))]
  | .satUint8, [r0, r1, r2, r3, r4, r5, r6, r7] =>
    .ok [ofU (qmovun16 (n16 r0 r1)), ofU (qmovun16 (n16 r2 r3)),
      ofU (qmovun16 (n16 r4 r5)), ofU (qmovun16 (n16 r6 r7))]
  | .satInt8, [r0] => .ok [ofWordS (word (qmovn16 (combine16 (qmovn32 r0) (qmovn32 r0))) 0)]
  | .satInt8, [r0, r1] => .ok [ofS (qmovn16 (n16 r0 r1))]
  | .satInt8, [r0, r1, r2, r3] => .ok [ofS (qmovn16 (n16 r0 r1)), ofS (qmovn16 (n16 r2 r3))]
  | .satInt8, [r0, r1, r2, r3, r4, r5, r6, r7] =>
    .ok [ofS (qmovn16 (n16 r0 r1)), ofS (qmovn16 (n16 r2 r3)),
      ofS (qmovn16 (n16 r4 r5)), ofS (qmovn16 (n16 r6 r7))]
  | .satInt16, [r0] => .ok [ofS (qmovn32 r0)]
  | .satInt16, [r0, r1] => .ok [ofS (n16 r0 r1)]
  | .satInt16, [r0, r1, r2, r3] => .ok [ofS (n16 r0 r1), ofS (n16 r2 r3)]
  | .satInt16, [r0, r1, r2, r3, r4, r5, r6, r7] =>
    .ok [ofS (n16 r0 r1), ofS (n16 r2 r3), ofS (n16 r4 r5), ofS (n16 r6 r7)]
  | .none, v => .ok (v.map ofS)
  | _, _ => .error .badOp

/-- internal/output_msa.h:88-107 `GEMMLOWP_MIPS_SAT_U8_16`. -/
def msaSatU8 (in0 in1 in2 in3 : Reg 4 32) : Reg 16 8 :=
  let tmp0 := satS in0 8
  let tmp1 := satS in1 8
  let tmp2 := satS in2 8
  let tmp3 := satS in3 8
  let tmp0 := pckev (halves tmp1) (halves tmp0)
  let tmp2 := pckev (halves tmp3) (halves tmp2)
  let tmp0 := maxi0 tmp0
  let tmp2 := maxi0 tmp2
  pckev (bytesOf tmp2) (bytesOf tmp0)
/-- internal/output_msa.h:170-176 `GEMMLOWP_MIPS_SAT_I16_8`. -/
def msaSatI16 (in0 in1 : Reg 4 32) : Reg 8 16 := pckev (halves (satS in1 15)) (halves (satS in0 15))

/-- internal/output_msa.h:26-344. -/
def msaCast (c : Cast) (v : List (Reg 4 32)) : M (List FReg) :=
  match c, v with
  | .satUint8, [r0] =>
    let tmp := maxi0 (satS r0 8)
    let tmp := pckev (halves tmp) (halves tmp)
    let tmp := pckev (bytesOf tmp) (bytesOf tmp)
    .ok [ofWordU (word tmp 0)]
  | .satUint8, [r0, r1] =>
    let tmp := maxi0 (pckev (halves (satS r1 8)) (halves (satS r0 8)))
    let tmp := pckev (bytesOf tmp) (bytesOf tmp)
    .ok [ofWordU (word tmp 0), ofWordU (word tmp 1)]
  | .satUint8, [r0, r1, r2, r3] => .ok [ofU (msaSatU8 r0 r1 r2 r3)]
  | .satUint8, [r0, r1, r2, r3, r4, r5, r6, r7] =>
    .ok [ofU (msaSatU8 r0 r1 r2 r3), ofU (msaSatU8 r4 r5 r6 r7)]
  | .satInt16, [r0] =>
    let tmp := halves (satS r0 15)
    .ok [[(rd tmp 0).toInt], [(rd tmp 2).toInt], [(rd tmp 4).toInt], [(rd tmp 6).toInt]]
  | .satInt16, [r0, r1] => .ok [ofS (msaSatI16 r0 r1)]
  | .satInt16, [r0, r1, r2, r3] => .ok [ofS (msaSatI16 r0 r1), ofS (msaSatI16 r2 r3)]
  | .satInt16, [r0, r1, r2, r3, r4, r5, r6, r7] =>
    .ok [ofS (msaSatI16 r0 r1), ofS (msaSatI16 r2 r3), ofS (msaSatI16 r4 r5), ofS (msaSatI16 r6 r7)]
  | .truncUint8, [r0] =>
    let tmp := pckev (halves r0) (halves r0)
    let tmp := pckev (bytesOf tmp) (bytesOf tmp)
    .ok [ofWordU (word tmp 0)]
  | .truncUint8, [r0, r1] =>
    let tmp := pckev (halves r1) (halves r0)
    let tmp := pckev (bytesOf tmp) (bytesOf tmp)
    .ok [ofWordU (word tmp 0), ofWordU (word tmp 1)]
  | .truncUint8, [r0, r1, r2, r3] =>
    let tmp0 := pckev (halves r1) (halves r0)
    let tmp1 := pckev (halves r3) (halves r2)
    .ok [ofU (pckev (bytesOf tmp1) (bytesOf tmp0))]
  | .truncUint8, [r0, r1, r2, r3, r4, r5, r6, r7] =>
    let tmp0 := pckev (halves r1) (halves r0)
    let tmp1 := pckev (halves r3) (halves r2)
    let tmp2 := pckev (halves r5) (halves r4)
    let tmp3 := pckev (halves r7) (halves r6)
    .ok [ofU (pckev (bytesOf tmp1) (bytesOf tmp0)), ofU (pckev (bytesOf tmp3) (bytesOf tmp2))]
  | .none, v => .ok (v.map ofS)
  | _, _ => .error .badOp

/-- A register that is a vector. -/
def toVec : IReg → M (Reg 4 32)
  | .v x => .ok x
  | .s _ => .error .badOp

/-- The cast of the registers of a block: one scalar (internal/output.h:223-312), or vectors. -/
def castRegs (A : VArch) (c : Cast) (l : List IReg) : M (List FReg) :=
  match l with
  | [.s x] => .ok [[c.reg x]]
  | l => do
    let v ← l.mapM toVec
    match A with
    | .sse => sseCast c v
    | .neon => neonCast c v
    | .msa => msaCast c v

/-! ## Stores -/

/-- The final scalar types. -/
inductive Elt | i32 | i16 | u8 | i8
  deriving DecidableEq

/-- The type a cast produces. -/
def Cast.elt : Cast → Elt
  | .none => .i32
  | .satUint8 => .u8
  | .satInt8 => .i8
  | .satInt16 => .i16
  | .truncUint8 => .u8

/-- How many entries one register of a block of `n` entries holds: `RegisterType` of
internal/simd_wrappers_sse.h:26-44, internal/simd_wrappers_neon.h:29-59, internal/simd_wrappers_msa.h:28-45. -/
def perReg (A : VArch) (e : Elt) (n : Nat) : Nat :=
  match e with
  | .i32 => if 4 ≤ n then 4 else 1
  | .i16 =>
    match A with
    | .neon => if 8 ≤ n then 8 else if 4 ≤ n then 4 else 1
    | _ => if 8 ≤ n then 8 else 1
  | _ =>
    match A with
    | .neon => if 8 ≤ n then 8 else if 4 ≤ n then 4 else 1
    | _ => if 16 ≤ n then 16 else if 4 ≤ n then 4 else 1

/-- A register and a lane of it. -/
abbrev Src := Nat × Nat
/-- A register, each lane given by where it came from. -/
abbrev SReg := Nat → Src
/-- Register `k` of the block. -/
def reg (k : Nat) : SReg := fun l => (k, l)

/-- The address `dst->data (row + i, col + j) + a * rows_stride + b * cols_stride + n * stride + k`. -/
structure Place where
  i : Nat := 0
  j : Nat := 0
  a : Nat := 0
  b : Nat := 0
  n : Nat := 0
  k : Nat := 0

/-- The address in a destination. -/
def Place.addr (p : Place) (dst : MatrixMap) (row col : Nat) : Nat :=
  dst.addr (row + p.i) (col + p.j) + p.a * dst.rowsStride + p.b * dst.colsStride + p.n * dst.stride + p.k

/-- What a store function writes, in program order. -/
abbrev St := List (Place × Src)

/-- `dst->data (row + i, col + j)` -/
def dat (i j : Nat) : Place := { i, j }
/-- The store of one lane. -/
def lane1 (p : Place) (r : SReg) (l : Nat) : St := [(p, r l)]
/-- The store of the first `n` lanes of a register to successive addresses. -/
def vst (n : Nat) (p : Place) (r : SReg) : St :=
  (List.range n).map fun l => ({ p with k := p.k + l }, r l)
/-- `for (i = 0; i < n; i++)` -/
def loop (n : Nat) (f : Nat → St) : St := (List.range n).flatMap f

/-- `_mm_unpacklo_epi…` on registers of `n` lanes, interleaving groups of `g` lanes. -/
def unpacklo (g : Nat) (a b : SReg) : SReg := fun l =>
  if l / g % 2 = 0 then a (l / g / 2 * g + l % g) else b (l / g / 2 * g + l % g)
/-- `_mm_unpackhi_epi…`: the same on the upper halves. -/
def unpackhi (n g : Nat) (a b : SReg) : SReg := fun l =>
  if l / g % 2 = 0 then a (n / 2 + l / g / 2 * g + l % g) else b (n / 2 + l / g / 2 * g + l % g)
/-- `__builtin_msa_ilvr_…`: the second operand comes first. -/
def ilvr (g : Nat) (a b : SReg) : SReg := unpacklo g b a
/-- `__builtin_msa_ilvl_…` -/
def ilvl (n g : Nat) (a b : SReg) : SReg := unpackhi n g b a
/-- `vtrn…`, `.val[0]`: the even groups of `g` lanes of both operands. -/
def trn0 (g : Nat) (a b : SReg) : SReg := fun l =>
  if l / g % 2 = 0 then a l else b (l - g)
/-- `vtrn…`, `.val[1]`: the odd groups. -/
def trn1 (g : Nat) (a b : SReg) : SReg := fun l =>
  if l / g % 2 = 0 then a (l + g) else b l
/-- `vcombine…` of two registers of `h` lanes. -/
def comb (h : Nat) (a b : SReg) : SReg := fun l => if l < h then a l else b (l - h)
/-- `vget_high…`, the upper `h` lanes. -/
def high (h : Nat) (a : SReg) : SReg := fun l => a (h + l)

/-- internal/output_sse.h:247-259 `Transpose` of a 4×4 block of int32. -/
def sseTr (r0 r1 r2 r3 : SReg) : List SReg :=
  let t0 := unpacklo 1 r0 r1
  let t1 := unpacklo 1 r2 r3
  let t2 := unpackhi 4 1 r0 r1
  let t3 := unpackhi 4 1 r2 r3
  [unpacklo 2 t0 t1, unpackhi 4 2 t0 t1, unpacklo 2 t2 t3, unpackhi 4 2 t2 t3]
/-- internal/output_neon.h:327-340 `Transpose`. -/
def neonTr (r0 r1 r2 r3 : SReg) : List SReg :=
  let t00 := trn0 1 r0 r1
  let t01 := trn1 1 r0 r1
  let t10 := trn0 1 r2 r3
  let t11 := trn1 1 r2 r3
  [comb 2 t00 t10, comb 2 t01 t11, comb 2 (high 2 t00) (high 2 t10), comb 2 (high 2 t01) (high 2 t11)]
/-- internal/output_msa.h:411-427 `Transpose`. -/
def msaTr (r0 r1 r2 r3 : SReg) : List SReg :=
  let tmp0 := ilvr 1 r1 r0
  let tmp1 := ilvr 1 r3 r2
  let tmp2 := ilvl 4 1 r1 r0
  let tmp3 := ilvl 4 1 r3 r2
  [ilvr 2 tmp1 tmp0, ilvl 4 2 tmp1 tmp0, ilvr 2 tmp3 tmp2, ilvl 4 2 tmp3 tmp2]

/-- Stores of the four registers of a transposed block, the `i`-th at `p i`. -/
def rows4 (l : List SReg) (p : Nat → Place) : St := loop 4 fun i => vst 4 (p i) (l.getD i (reg 0))

/-- Stores of int32 blocks with SSE (`tr = sseTr`, internal/output_sse.h:182-215, 261-276, 293-323, 348-399,
443-456) and MSA (`tr = msaTr`, internal/output_msa.h:346-379, 429-444, 461-491, 516-567, 627-640). -/
def storeI32 (tr : SReg → SReg → SReg → SReg → List SReg) (R C : Nat) (o : MapOrder) : Option St :=
  match R, C, o with
  | 4, 1, .colMajor => some (vst 4 (dat 0 0) (reg 0))
  | 4, 1, .rowMajor => some (loop 4 fun i => lane1 (dat i 0) (reg 0) i)
  | 8, 1, .colMajor => some (vst 4 (dat 0 0) (reg 0) ++ vst 4 (dat 4 0) (reg 1))
  | 8, 1, .rowMajor => some ((loop 4 fun i => lane1 (dat i 0) (reg 0) i) ++
      (loop 4 fun i => lane1 (dat (4 + i) 0) (reg 1) i))
  | 4, 4, .colMajor => some (loop 4 fun i => vst 4 (dat 0 i) (reg i))
  | 4, 4, .rowMajor => some (rows4 (tr (reg 0) (reg 1) (reg 2) (reg 3)) fun i => dat i 0)
  | 8, 4, .colMajor => some (loop 4 fun i =>
      vst 4 (dat 0 i) (reg (2 * i)) ++ vst 4 (dat 4 i) (reg (2 * i + 1)))
  | 8, 4, .rowMajor => some
      (rows4 (tr (reg 0) (reg 2) (reg 4) (reg 6)) (fun i => dat i 0) ++
      rows4 (tr (reg 1) (reg 3) (reg 5) (reg 7)) (fun i => dat (4 + i) 0))
  | 8, 8, .colMajor => some (loop 8 fun i =>
      vst 4 (dat 0 i) (reg (2 * i)) ++ vst 4 (dat 4 i) (reg (2 * i + 1)))
  | 8, 8, .rowMajor => some
      (rows4 (tr (reg 0) (reg 2) (reg 4) (reg 6)) (fun i => dat i 0) ++
      rows4 (tr (reg 1) (reg 3) (reg 5) (reg 7)) (fun i => dat (4 + i) 0) ++
      rows4 (tr (reg 8) (reg 10) (reg 12) (reg 14)) (fun i => dat i 4) ++
      rows4 (tr (reg 9) (reg 11) (reg 13) (reg 15)) (fun i => dat (4 + i) 4))
  | 1, 4, .colMajor => some (loop 4 fun i => lane1 (dat 0 i) (reg 0) i)
  | 1, 4, .rowMajor => some (vst 4 (dat 0 0) (reg 0))
  | 1, 1, _ => some (lane1 (dat 0 0) (reg 0) 0)
  | _, _, _ => none

/-- Stores of int32 blocks with NEON (internal/output_neon.h:273-291, 342-354, 385-418, 456-544). -/
def neonI32 (R C : Nat) (o : MapOrder) : Option St :=
  match R, C, o with
  | 8, 1, .colMajor => some (vst 4 (dat 0 0) (reg 0) ++ vst 4 (dat 4 0) (reg 1))
  | 8, 1, .rowMajor => some ((loop 4 fun i => lane1 (dat i 0) (reg 0) i) ++
      (loop 4 fun i => lane1 (dat (4 + i) 0) (reg 1) i))
  | 4, 4, .colMajor => some (loop 4 fun i => vst 4 { n := i } (reg i))
  | 4, 4, .rowMajor => some (rows4 (neonTr (reg 0) (reg 1) (reg 2) (reg 3)) fun i => { n := i })
  | 8, 4, .colMajor => some (loop 4 fun i =>
      vst 4 { b := i, k := 0 } (reg (2 * i + 0)) ++ vst 4 { b := i, k := 4 } (reg (2 * i + 1)))
  | 8, 4, .rowMajor => some
      (rows4 (neonTr (reg 0) (reg 2) (reg 4) (reg 6)) (fun i => { a := i }) ++
      rows4 (neonTr (reg 1) (reg 3) (reg 5) (reg 7)) (fun i => { a := i + 4 }))
  | 8, 8, .colMajor => some (loop 8 fun i =>
      vst 4 { b := i } (reg (2 * i)) ++ vst 4 { b := i, k := 4 } (reg (2 * i + 1)))
  | 8, 8, .rowMajor => some
      (rows4 (neonTr (reg 0) (reg 2) (reg 4) (reg 6)) (fun i => { a := i }) ++
      rows4 (neonTr (reg 1) (reg 3) (reg 5) (reg 7)) (fun i => { a := i + 4 }) ++
      rows4 (neonTr (reg 8) (reg 10) (reg 12) (reg 14)) (fun i => { a := i, k := 4 }) ++
      rows4 (neonTr (reg 9) (reg 11) (reg 13) (reg 15)) (fun i => { a := i + 4, k := 4 }))
  | 4, 1, .colMajor => some (vst 4 {} (reg 0))
  | 4, 1, .rowMajor => some (loop 4 fun i => lane1 { a := i } (reg 0) i)
  | 1, 4, .rowMajor => some (vst 4 {} (reg 0))
  | 1, 4, .colMajor => some (loop 4 fun i => lane1 { b := i } (reg 0) i)
  | 1, 1, _ => some (lane1 (dat 0 0) (reg 0) 0)
  | _, _, _ => none

/-- internal/output_sse.h:410-437 the eight rows of an 8×8 block of int16. -/
def sseTr16 : List SReg :=
  let t0 := unpacklo 1 (reg 0) (reg 1)
  let t1 := unpacklo 1 (reg 2) (reg 3)
  let u0 := unpacklo 2 t0 t1
  let u1 := unpackhi 8 2 t0 t1
  let t2 := unpacklo 1 (reg 4) (reg 5)
  let t3 := unpacklo 1 (reg 6) (reg 7)
  let u2 := unpacklo 2 t2 t3
  let u3 := unpackhi 8 2 t2 t3
  let t4 := unpackhi 8 1 (reg 0) (reg 1)
  let t5 := unpackhi 8 1 (reg 2) (reg 3)
  let u4 := unpacklo 2 t4 t5
  let u5 := unpackhi 8 2 t4 t5
  let t6 := unpackhi 8 1 (reg 4) (reg 5)
  let t7 := unpackhi 8 1 (reg 6) (reg 7)
  let u6 := unpacklo 2 t6 t7
  let u7 := unpackhi 8 2 t6 t7
  [unpacklo 4 u0 u2, unpackhi 8 4 u0 u2, unpacklo 4 u1 u3, unpackhi 8 4 u1 u3,
    unpacklo 4 u4 u6, unpackhi 8 4 u4 u6, unpacklo 4 u5 u7, unpackhi 8 4 u5 u7]
/-- internal/output_msa.h:578-622 the same. -/
def msaTr16 : List SReg :=
  let t0 := ilvr 1 (reg 1) (reg 0)
  let t1 := ilvr 1 (reg 3) (reg 2)
  let u0 := ilvr 2 t1 t0
  let u1 := ilvl 8 2 t1 t0
  let t2 := ilvr 1 (reg 5) (reg 4)
  let t3 := ilvr 1 (reg 7) (reg 6)
  let u2 := ilvr 2 t3 t2
  let u3 := ilvl 8 2 t3 t2
  let t4 := ilvl 8 1 (reg 1) (reg 0)
  let t5 := ilvl 8 1 (reg 3) (reg 2)
  let u4 := ilvr 2 t5 t4
  let u5 := ilvl 8 2 t5 t4
  let t6 := ilvl 8 1 (reg 5) (reg 4)
  let t7 := ilvl 8 1 (reg 7) (reg 6)
  let u6 := ilvr 2 t7 t6
  let u7 := ilvl 8 2 t7 t6
  [ilvr 4 u2 u0, ilvl 8 4 u2 u0, ilvr 4 u3 u1, ilvl 8 4 u3 u1,
    ilvr 4 u6 u4, ilvl 8 4 u6 u4, ilvr 4 u7 u5, ilvl 8 4 u7 u5]

/-- Entry `x` of a local array into which the registers, of `n` lanes each, have been stored one after
the other. -/
def buf (n x : Nat) : SReg := fun _ => (x / n, x % n)

/-- Stores of int16 blocks with SSE (`tr = sseTr16`, internal/output_sse.h:217-245, 278-291, 325-346,
401-441) and MSA (`tr = msaTr16`, internal/output_msa.h:381-409, 446-459, 493-514, 569-625); 1×4 and 1×1
blocks, held in scalars, with internal/output.h:514-526. -/
def storeI16 (tr : List SReg) (R C : Nat) (o : MapOrder) : Option St :=
  match R, C, o with
  | 4, 1, _ => some (loop 4 fun i => lane1 (dat i 0) (reg i) 0)
  | 8, 1, .colMajor => some (vst 8 (dat 0 0) (reg 0))
  | 8, 1, .rowMajor => some (loop 8 fun i => lane1 (dat i 0) (reg 0) i)
  | 4, 4, _ => some (loop 4 fun i => loop 4 fun j => lane1 (dat i j) (buf 8 (i + 4 * j)) 0)
  | 8, 4, .colMajor => some (loop 4 fun i => vst 8 (dat 0 i) (reg i))
  | 8, 4, .rowMajor => some (loop 8 fun i => loop 4 fun j => lane1 (dat i j) (buf 8 (i + 8 * j)) 0)
  | 8, 8, .colMajor => some (loop 8 fun i => vst 8 (dat 0 i) (reg i))
  | 8, 8, .rowMajor => some (loop 8 fun i => vst 8 (dat i 0) (tr.getD i (reg 0)))
  | 1, 4, _ => some (loop 4 fun c => lane1 (dat 0 c) (reg (0 + c * 1)) 0)
  | 1, 1, _ => some (lane1 (dat 0 0) (reg 0) 0)
  | _, _, _ => none

/-- Stores of int16 blocks with NEON (internal/output_neon.h:293-325, 356-383, 420-454, 545-560, 856-924). -/
def neonI16 (R C : Nat) (o : MapOrder) : Option St :=
  match R, C, o with
  | 4, 1, .colMajor => some (vst 4 (dat 0 0) (reg 0))
  | 4, 1, .rowMajor => some (loop 4 fun i => lane1 (dat i 0) (reg 0) i)
  | 8, 1, .colMajor => some (vst 8 (dat 0 0) (reg 0))
  | 8, 1, .rowMajor => some (loop 8 fun i => lane1 (dat i 0) (reg 0) i)
  | 4, 4, .colMajor => some (vst 4 (dat 0 0) (reg 0) ++ vst 4 (dat 0 1) (high 4 (reg 0)) ++
      vst 4 (dat 0 2) (reg 1) ++ vst 4 (dat 0 3) (high 4 (reg 1)))
  | 4, 4, .rowMajor =>
    let t00 := trn0 1 (reg 0) (high 4 (reg 0))
    let t01 := trn1 1 (reg 0) (high 4 (reg 0))
    let t10 := trn0 1 (reg 1) (high 4 (reg 1))
    let t11 := trn1 1 (reg 1) (high 4 (reg 1))
    let t0 := trn0 2 (comb 4 t00 t01) (comb 4 t10 t11)
    let t1 := trn1 2 (comb 4 t00 t01) (comb 4 t10 t11)
    some (vst 4 (dat 0 0) t0 ++ vst 4 (dat 1 0) (high 4 t0) ++ vst 4 (dat 2 0) t1 ++
      vst 4 (dat 3 0) (high 4 t1))
  | 8, 4, .colMajor => some (loop 4 fun i => vst 8 (dat 0 i) (reg i))
  | 8, 4, .rowMajor =>
    let t00 := trn0 1 (reg 0) (reg 1)
    let t01 := trn1 1 (reg 0) (reg 1)
    let t10 := trn0 1 (reg 2) (reg 3)
    let t11 := trn1 1 (reg 2) (reg 3)
    let u00 := trn0 2 t00 t10
    let u01 := trn1 2 t00 t10
    let u10 := trn0 2 t01 t11
    let u11 := trn1 2 t01 t11
    some (vst 4 (dat 0 0) u00 ++ vst 4 (dat 1 0) u10 ++ vst 4 (dat 2 0) u01 ++ vst 4 (dat 3 0) u11 ++
      vst 4 (dat 4 0) (high 4 u00) ++ vst 4 (dat 5 0) (high 4 u10) ++ vst 4 (dat 6 0) (high 4 u01) ++
      vst 4 (dat 7 0) (high 4 u11))
  | 8, 8, .colMajor => some (loop 8 fun i => vst 8 (dat 0 i) (reg i))
  | 8, 8, .rowMajor =>
    let a00 := trn0 1 (reg 0) (reg 1)
    let a01 := trn1 1 (reg 0) (reg 1)
    let a10 := trn0 1 (reg 2) (reg 3)
    let a11 := trn1 1 (reg 2) (reg 3)
    let a20 := trn0 1 (reg 4) (reg 5)
    let a21 := trn1 1 (reg 4) (reg 5)
    let a30 := trn0 1 (reg 6) (reg 7)
    let a31 := trn1 1 (reg 6) (reg 7)
    let b00 := trn0 2 a00 a10
    let b01 := trn1 2 a00 a10
    let b10 := trn0 2 a01 a11
    let b11 := trn1 2 a01 a11
    let b20 := trn0 2 a20 a30
    let b21 := trn1 2 a20 a30
    let b30 := trn0 2 a21 a31
    let b31 := trn1 2 a21 a31
    some (vst 4 (dat 0 0) b00 ++ vst 4 (dat 0 4) b20 ++ vst 4 (dat 1 0) b10 ++ vst 4 (dat 1 4) b30 ++
      vst 4 (dat 2 0) b01 ++ vst 4 (dat 2 4) b21 ++ vst 4 (dat 3 0) b11 ++ vst 4 (dat 3 4) b31 ++
      vst 4 (dat 4 0) (high 4 b00) ++ vst 4 (dat 4 4) (high 4 b20) ++
      vst 4 (dat 5 0) (high 4 b10) ++ vst 4 (dat 5 4) (high 4 b30) ++
      vst 4 (dat 6 0) (high 4 b01) ++ vst 4 (dat 6 4) (high 4 b21) ++
      vst 4 (dat 7 0) (high 4 b11) ++ vst 4 (dat 7 4) (high 4 b31))
  | 1, 4, .rowMajor => some (vst 4 {} (reg 0))
  | 1, 4, .colMajor => some (loop 4 fun i => lane1 { b := i } (reg 0) i)
  | 1, 1, _ => some (lane1 (dat 0 0) (reg 0) 0)
  | _, _, _ => none

/-- Stores of uint8 blocks with SSE (internal/output_sse.h:458-557). -/
def sseU8 (R C : Nat) (_o : MapOrder) : Option St :=
  match R, C with
  | 4, 1 => some (loop 4 fun i => lane1 (dat i 0) (reg 0) i)
  | 8, 1 => some ((loop 4 fun i => lane1 (dat i 0) (reg 0) i) ++
      (loop 4 fun i => lane1 (dat (4 + i) 0) (reg 1) i))
  | 1, 4 => some (loop 4 fun i => lane1 (dat 0 i) (reg 0) i)
  | 4, 4 => some (loop 4 fun c => loop 4 fun r => lane1 (dat r c) (buf 16 (r + 4 * c)) 0)
  | 8, 4 => some (loop 4 fun c => loop 8 fun r => lane1 (dat r c) (buf 16 (r + 8 * c)) 0)
  | 8, 8 => some (loop 8 fun c => loop 8 fun r => lane1 (dat r c) (buf 16 (r + 8 * c)) 0)
  | 1, 1 => some (lane1 (dat 0 0) (reg 0) 0)
  | _, _ => none

/-- internal/output_neon.h:659-693 `Transpose` of an 8×8 block of uint8 (809-843 of int8). -/
def neonTr8 : List SReg :=
  let a00 := trn0 1 (reg 0) (reg 1)
  let a01 := trn1 1 (reg 0) (reg 1)
  let a10 := trn0 1 (reg 2) (reg 3)
  let a11 := trn1 1 (reg 2) (reg 3)
  let a20 := trn0 1 (reg 4) (reg 5)
  let a21 := trn1 1 (reg 4) (reg 5)
  let a30 := trn0 1 (reg 6) (reg 7)
  let a31 := trn1 1 (reg 6) (reg 7)
  let b00 := trn0 2 a00 a10
  let b01 := trn1 2 a00 a10
  let b10 := trn0 2 a01 a11
  let b11 := trn1 2 a01 a11
  let b20 := trn0 2 a20 a30
  let b21 := trn1 2 a20 a30
  let b30 := trn0 2 a21 a31
  let b31 := trn1 2 a21 a31
  [trn0 4 b00 b20, trn0 4 b10 b30, trn0 4 b01 b21, trn0 4 b11 b31,
    trn1 4 b00 b20, trn1 4 b10 b30, trn1 4 b01 b21, trn1 4 b11 b31]

/-- Stores of uint8 blocks with NEON (internal/output_neon.h:562-707), and of int8 blocks (709-854). -/
def neonU8 (R C : Nat) (o : MapOrder) : Option St :=
  match R, C, o with
  | 4, 1, _ => some (loop 4 fun i => lane1 (dat i 0) (reg 0) i)
  | 1, 4, _ => some (loop 4 fun i => lane1 (dat 0 i) (reg 0) i)
  | 8, 1, .colMajor => some (vst 8 {} (reg 0))
  | 8, 1, .rowMajor => some (loop 8 fun i => lane1 { a := i } (reg 0) i)
  | 4, 4, _ => some (loop 2 fun i =>
      (loop 4 fun l => lane1 { a := l, b := 2 * i + 0 } (reg i) l) ++
      (loop 4 fun l => lane1 { a := l, b := 2 * i + 1 } (reg i) (4 + l)))
  | 8, 4, .colMajor => some (loop 4 fun i => vst 8 { b := i } (reg i))
  | 8, 4, .rowMajor => some (loop 4 fun i => loop 8 fun l => lane1 { a := l, k := i } (reg i) l)
  | 8, 8, .colMajor => some (loop 8 fun i => vst 8 { n := i } (reg i))
  | 8, 8, .rowMajor => some (loop 8 fun i => vst 8 { n := i } (neonTr8.getD i (reg 0)))
  | 1, 1, _ => some (lane1 (dat 0 0) (reg 0) 0)
  | _, _, _ => none

/-- internal/output_msa.h:1021-1042 `Transpose` of an 8×8 block of uint8. -/
def msaTr8 : List SReg :=
  let t00 := ilvr 1 (reg 1) (reg 0)
  let t01 := ilvl 16 1 (reg 1) (reg 0)
  let t02 := ilvr 1 (reg 3) (reg 2)
  let t03 := ilvl 16 1 (reg 3) (reg 2)
  let t10 := ilvr 1 t01 t00
  let t11 := ilvl 16 1 t01 t00
  let t12 := ilvr 1 t03 t02
  let t13 := ilvl 16 1 t03 t02
  [ilvr 4 t12 t10, ilvl 16 4 t12 t10, ilvr 4 t13 t11, ilvl 16 4 t13 t11]

/-- Stores of uint8 blocks with MSA (internal/output_msa.h:642-688 and, with the inline assembly of
`MipsMsaStore4x8`, `8x4`, `8x8`, 710-1069).  The assembly computes `dst_ptr + i * stride` for each `i`
and stores a half or a quarter of a register there; the code for CPU revisions before 6 stores each word
with a pair `swr`, `swl`, taken here as one store of the word.  The C++ fallback 1073-1105 for other
compilers is `sseU8`. -/
def msaU8 (R C : Nat) (o : MapOrder) : Option St :=
  match R, C, o with
  | 8, 4, .colMajor => some (vst 8 { b := 0 } (reg 0) ++ vst 8 { b := 1 } (high 8 (reg 0)) ++
      vst 8 { b := 2 } (reg 1) ++ vst 8 { b := 3 } (high 8 (reg 1)))
  | 8, 4, .rowMajor =>
    let tmp0 := ilvr 1 (reg 1) (reg 0)
    let tmp1 := ilvl 16 1 (reg 1) (reg 0)
    let r0 := ilvr 1 tmp1 tmp0
    let r1 := ilvl 16 1 tmp1 tmp0
    some ((loop 4 fun i => vst 4 { a := i } (high (4 * i) r0)) ++
      (loop 4 fun i => vst 4 { a := 4 + i } (high (4 * i) r1)))
  | 8, 8, .colMajor => some (loop 4 fun i =>
      vst 8 { n := 2 * i } (reg i) ++ vst 8 { n := 2 * i + 1 } (high 8 (reg i)))
  | 8, 8, .rowMajor => some (loop 4 fun i =>
      vst 8 { n := 2 * i } (msaTr8.getD i (reg 0)) ++
      vst 8 { n := 2 * i + 1 } (high 8 (msaTr8.getD i (reg 0))))
  | _, _, _ => sseU8 R C o

/-- `StoreFinalOutputImpl` for each type and set of instructions; `none` if there is none. -/
def storeOf (A : VArch) (e : Elt) (R C : Nat) (o : MapOrder) : Option St :=
  match A, e with
  | .sse, .i32 => storeI32 sseTr R C o
  | .sse, .i16 => storeI16 sseTr16 R C o
  | .sse, .u8 => sseU8 R C o
  | .neon, .i32 => neonI32 R C o
  | .neon, .i16 => neonI16 R C o
  | .neon, .u8 => neonU8 R C o
  | .neon, .i8 => neonU8 R C o
  | .msa, .i32 => storeI32 msaTr R C o
  | .msa, .i16 => storeI16 msaTr16 R C o
  | .msa, .u8 => msaU8 R C o
  | _, .i8 => none

/-- The value of a lane of a register of the block. -/
def srcVal (regs : List FReg) (s : Src) : M Int :=
  match regs[s.1]? with
  | some r =>
    match r[s.2]? with
    | some v => .ok v
    | none => .error .oob
  | none => .error .oob

/-- Performs the stores; `store` is the store at an address. -/
def runStore {σ : Type} (store : Nat → Int → σ → M σ) (dst : MatrixMap) (row col : Nat)
    (regs : List FReg) : St → σ → M σ
  | [], s => .ok s
  | (p, q) :: rest, s => do
    let v ← srcVal regs q
    let s' ← store (p.addr dst row col) v s
    runStore store dst row col regs rest s'

/-- `StoreFinalOutput` of a block of `R × C` entries. -/
def storeFinalV {σ : Type} (A : VArch) (e : Elt) (store : Nat → Int → σ → M σ) (dst : MatrixMap)
    (R C : Nat) (regs : List FReg) (row col : Nat) (s : σ) : M σ :=
  match storeOf A e R C dst.order with
  | some st => runStore store dst row col regs st s
  | none => .error .badOp

/-- internal/unpack.h:89-125 `UnpackResultBlock` up to the store: the registers of the final type. -/
def evalBlock (A : VArch) (p : Pipeline) (x : UnpackCtx) (rows cols srcRow srcCol globalRow globalCol : Nat) :
    M (List FReg) := do
  let acc ← accBlock A.wrap x rows cols srcRow srcCol
  let b ← evalStages A.wrap x.mode p.stages acc globalRow globalCol
  castRegs A p.cast b.reg

/-- internal/unpack.h:89-127 `UnpackResultBlock`. -/
def block (A : VArch) (p : Pipeline) (x : UnpackCtx) (rows cols r c : Nat) (t : Trace Int) :
    M (Trace Int) := do
  let regs ← evalBlock A p x rows cols r c (r + x.startRow) (c + x.startCol)
  storeFinalV A (Cast.elt p.cast) storeTrace x.dst rows cols regs (r + x.startRow) (c + x.startCol) t

/-- One register of `n` lanes from the local array; an indeterminate entry is a fault. -/
def loadReg (n : Nat) (b : Buf (Option Int)) (a : Nat) : M FReg :=
  (List.range n).mapM fun l => do
    match ← b.read (a + l) with
    | some v => .ok v
    | none => .error .badOp

/-- `LoadContiguous` of an 8×8 block: internal/simd_wrappers_sse.h:112-143,
internal/simd_wrappers_neon.h:158-199, internal/simd_wrappers_msa.h:154-185. -/
def loadContiguousV (A : VArch) (e : Elt) (b : Buf (Option Int)) : M (List FReg) :=
  let n := perReg A e 64
  (List.range (64 / n)).mapM fun i => loadReg n b (n * i)

/-- internal/unpack.h:178-195. -/
def block8x8 (A : VArch) (p : Pipeline) (x : UnpackCtx) (r c8 : Nat) (t : Trace Int) :
    M (Trace Int) := do
  let e := Cast.elt p.cast
  let buf : Buf (Option Int) := { size := 64, get := fun _ => none }
  let buf ← forLoop 0 8 4 (fun cx buf => do
    let regs ← evalBlock A p x 8 4 r (c8 + cx) (r + x.startRow) (c8 + cx + x.startCol)
    storeFinalV A e storeLocal (MatrixMap.mk3 .colMajor 0 8 8) 8 4 regs 0 cx buf) buf
  let regs ← loadContiguousV A e buf
  storeFinalV A e storeTrace x.dst 8 8 regs (r + x.startRow) (c8 + x.startCol) t

/-- The vector code of unpacking. -/
def vecOps (A : VArch) (p : Pipeline) : BlockOps Int where
  block x := block A p x
  block8x8 x := block8x8 A p x

end Gemmlowp.OutSimd
