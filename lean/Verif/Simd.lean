import Verif.Transcendental
/-!
# fixedpoint/fixedpoint_{sse,avx,neon,wasmsimd,msa}.h: the vector versions of the primitives

A vector register is a function from lanes to `BitVec w`: `w = 32` for the `int32` raw types
(`__m128i`, `__m256i`, `int32x4_t`, `v128_t`, `v4i32`) and `w = 16` for the `int16` ones.  The first
part gives the meaning of each machine instruction used, as in the manuals of the instruction set;
this part is trusted.  The second part is the code of the repository.

The vector intrinsics for 32 and 16 bit lanes differ only in the lane width, so each definition
below stands for both specialisations, unless it says otherwise.
-/
namespace Gemmlowp

/-- A vector register of `n` lanes of `w` bits, lane 0 being the least significant. -/
abbrev Reg (n w : Nat) := Fin n → BitVec w

namespace Isa

variable {n w : Nat}

/-- Apply an operation to each lane. -/
def map1 (f : BitVec w → BitVec w) (a : Reg n w) : Reg n w := fun i => f (a i)
@[inherit_doc map1] def map2 (f : BitVec w → BitVec w → BitVec w) (a b : Reg n w) : Reg n w :=
  fun i => f (a i) (b i)

/-- Lane `j`, zero if there is no such lane. -/
def rd (a : Reg n w) (j : Nat) : BitVec w := if h : j < n then a ⟨j, h⟩ else 0

/-- All lanes equal: `_mm_set1_epi32`, `vdupq_n_s32`, `wasm_i32x4_splat`, `wasm_i32x4_const`,
`__builtin_msa_fill_w`, `__builtin_msa_ldi_w`. -/
def splat (x : BitVec w) : Reg n w := fun _ => x

/-- A lane mask: all ones or all zeroes. -/
def maskOf (c : Bool) : BitVec w := if c then BitVec.allOnes w else 0

/-- The value clamped to the signed range of `w` bits. -/
def satW (w : Nat) (x : Int) : BitVec w :=
  BitVec.ofInt w (min (Fx.maxW w) (max (Fx.minW w) x))

/-- Bitwise and, or, exclusive or. -/
def vand : Reg n w → Reg n w → Reg n w := map2 (· &&& ·)
@[inherit_doc vand] def vor : Reg n w → Reg n w → Reg n w := map2 (· ||| ·)
@[inherit_doc vand] def vxor : Reg n w → Reg n w → Reg n w := map2 (· ^^^ ·)
/-- `_mm_andnot_si128`: the *first* operand is complemented. -/
def andnot : Reg n w → Reg n w → Reg n w := map2 fun a b => ~~~a &&& b
/-- `wasm_v128_not`. -/
def vnot : Reg n w → Reg n w := map1 (~~~ ·)
/-- `__builtin_msa_nor_v`. -/
def nor : Reg n w → Reg n w → Reg n w := map2 fun a b => ~~~(a ||| b)
/-- `vbslq_s32 (mask, a, b)`: bits of `a` where the mask is set. -/
def bsl (mask a b : Reg n w) : Reg n w := fun i => (mask i &&& a i) ||| (~~~(mask i) &&& b i)
/-- `wasm_v128_bitselect (a, b, mask)`: bits of `a` where the mask is set. -/
def bitselect (a b mask : Reg n w) : Reg n w := fun i => (a i &&& mask i) ||| (b i &&& ~~~(mask i))
/-- `__builtin_msa_bsel_v (wd, ws, wt)`: bits of `wt` where `wd` is set, else of `ws`. -/
def bsel (wd ws wt : Reg n w) : Reg n w := fun i => (ws i &&& ~~~(wd i)) ||| (wt i &&& wd i)
/-- `_mm256_blendv_ps (a, b, mask)`: the lane of `b` if the top bit of the lane of the mask is
set, else that of `a`. -/
def blendv (a b mask : Reg n w) : Reg n w := fun i => if (mask i).msb then b i else a i

/-- Addition, subtraction, low half of the product; all modulo `2^w`. -/
def vadd : Reg n w → Reg n w → Reg n w := map2 (· + ·)
@[inherit_doc vadd] def vsub : Reg n w → Reg n w → Reg n w := map2 (· - ·)
@[inherit_doc vadd] def mullo : Reg n w → Reg n w → Reg n w := map2 (· * ·)
/-- `vnegq_s32`, `wasm_i32x4_neg`. -/
def vneg : Reg n w → Reg n w := map1 (- ·)
/-- `_mm_sign_epi32 (a, b)`. -/
def sign : Reg n w → Reg n w → Reg n w :=
  map2 fun a b => if b.slt 0 then -a else if b = 0 then 0 else a
/-- `_mm_adds_epi16`, `vqaddq_s32`, `wasm_i16x8_add_saturate`, `__builtin_msa_adds_s_w`. -/
def adds : Reg n w → Reg n w → Reg n w := map2 fun a b => satW w (a.toInt + b.toInt)
/-- `__builtin_msa_subs_s_w`. -/
def subs : Reg n w → Reg n w → Reg n w := map2 fun a b => satW w (a.toInt - b.toInt)
/-- `__builtin_msa_min_s_w`. -/
def mins : Reg n w → Reg n w → Reg n w := map2 fun a b => if a.slt b then a else b

/-- `_mm_cmpeq_epi32`, `vceqq_s32`, `wasm_i32x4_eq`, `__builtin_msa_ceq_w`. -/
def cmpeq : Reg n w → Reg n w → Reg n w := map2 fun a b => maskOf (a == b)
/-- `wasm_i32x4_ne`. -/
def cmpne : Reg n w → Reg n w → Reg n w := map2 fun a b => maskOf (a != b)
/-- `_mm_cmpgt_epi32`, `vcgtq_s32`, `wasm_i32x4_gt`. -/
def cmpgt : Reg n w → Reg n w → Reg n w := map2 fun a b => maskOf (b.slt a)
/-- `_mm_cmplt_epi32`, `vcltq_s32`, `wasm_i32x4_lt`, `__builtin_msa_clt_s_w`. -/
def cmplt : Reg n w → Reg n w → Reg n w := map2 fun a b => maskOf (a.slt b)
/-- `vcgeq_s32`, `wasm_i32x4_ge`. -/
def cmpge : Reg n w → Reg n w → Reg n w := map2 fun a b => maskOf (b.sle a)
/-- `vcleq_s32`, `wasm_i32x4_le`, `__builtin_msa_cle_s_w`. -/
def cmple : Reg n w → Reg n w → Reg n w := map2 fun a b => maskOf (a.sle b)
/-- `vtstq_s32`. -/
def tst : Reg n w → Reg n w → Reg n w := map2 fun a b => maskOf ((a &&& b) != 0)

/-- `_mm_slli_epi32`: zero for counts of the lane width or more. -/
def slli (a : Reg n w) (k : Int) : Reg n w :=
  map1 (fun x => if 0 ≤ k ∧ k < w then x <<< k.toNat else 0) a
/-- `_mm_srai_epi32`: copies of the sign bit for counts of the lane width or more. -/
def srai (a : Reg n w) (k : Int) : Reg n w :=
  map1 (fun x => if 0 ≤ k ∧ k < w then x.sshiftRight k.toNat else x.sshiftRight w) a
/-- `wasm_i32x4_shl`, `__builtin_msa_sll_w` with all counts equal: counts modulo the lane width. -/
def shlMod (a : Reg n w) (k : Int) : Reg n w := map1 (fun x => x <<< (k % w).toNat) a
/-- `wasm_i32x4_shr`, `__builtin_msa_sra_w` with all counts equal: counts modulo the lane width. -/
def shrMod (a : Reg n w) (k : Int) : Reg n w := map1 (fun x => x.sshiftRight (k % w).toNat) a
/-- `__builtin_msa_srli_w`: logical shift right by an immediate. -/
def srli (a : Reg n w) (k : Nat) : Reg n w := map1 (fun x => x >>> k) a
/-- `__builtin_msa_slli_w`: shift left by an immediate. -/
def slliImm (a : Reg n w) (k : Nat) : Reg n w := map1 (fun x => x <<< k) a
/-- `vshrq_n_s32`: arithmetic shift right by an immediate. -/
def shrN (a : Reg n w) (k : Nat) : Reg n w := map1 (fun x => x.sshiftRight k) a

/-- The count of a NEON shift by register: the low byte of the lane, signed. -/
def neonCount (s : BitVec w) : Int := (BitVec.ofInt 8 s.toInt).toInt
/-- `vshlq_s32`: shift left by the signed count of each lane, right if negative. -/
def vshl : Reg n w → Reg n w → Reg n w := map2 fun a s =>
  if 0 ≤ neonCount s then a <<< (neonCount s).toNat else a.sshiftRight (-neonCount s).toNat
/-- `vrshlq_s32`: the same, right shifts being rounded to nearest, ties up. -/
def vrshl : Reg n w → Reg n w → Reg n w := map2 fun a s =>
  if 0 ≤ neonCount s then a <<< (neonCount s).toNat
  else BitVec.ofInt w ((a.toInt + 2 ^ ((-neonCount s).toNat - 1)) / 2 ^ (-neonCount s).toNat)
/-- `vrshrq_n_s32`, `__builtin_msa_srari_w`: right shift by an immediate, rounded to nearest, ties
up. -/
def vrshrN (a : Reg n w) (k : Nat) : Reg n w :=
  map1 (fun x => BitVec.ofInt w ((x.toInt + 2 ^ (k - 1)) / 2 ^ k)) a
/-- `__builtin_msa_srar_w` with all counts equal: counts modulo the lane width, a zero count adds
no rounding bit. -/
def srar (a : Reg n w) (k : Int) : Reg n w := map1 (fun x =>
  let s := (k % w).toNat
  if s = 0 then x else BitVec.ofInt w ((x.toInt + 2 ^ (s - 1)) / 2 ^ s)) a
/-- `vqshlq_n_s32`: saturating shift left by an immediate. -/
def vqshlN (a : Reg n w) (k : Nat) : Reg n w := map1 (fun x => satW w (x.toInt * 2 ^ k)) a
/-- `__builtin_msa_sat_s_w (a, m)`: saturate to `m + 1` bits, signed. -/
def satS (a : Reg n w) (m : Nat) : Reg n w :=
  map1 (fun x => BitVec.ofInt w (min (2 ^ m - 1) (max (-2 ^ m) x.toInt))) a

/-- `vrhaddq_s32`, `__builtin_msa_aver_s_w`: signed average, ties up. -/
def rhadd : Reg n w → Reg n w → Reg n w :=
  map2 fun a b => BitVec.ofInt w ((a.toInt + b.toInt + 1) / 2)
/-- `_mm_avg_epu16`, `wasm_u16x8_avgr`: unsigned average, ties up. -/
def avgu : Reg n w → Reg n w → Reg n w :=
  map2 fun a b => BitVec.ofNat w ((a.toNat + b.toNat + 1) / 2)
/-- `vqrdmulhq_s32`, `__builtin_msa_mulr_q_w`. -/
def qrdmulh : Reg n w → Reg n w → Reg n w :=
  map2 fun a b => satW w ((2 * (a.toInt * b.toInt) + 2 ^ (w - 1)) / 2 ^ w)
/-- `_mm_mulhrs_epi16`: bits 15 and up of the product, plus one, halved; not saturated. -/
def mulhrs : Reg n w → Reg n w → Reg n w :=
  map2 fun a b => BitVec.ofInt w (((a.toInt * b.toInt) / 2 ^ (w - 2) + 1) / 2)

/-- The 64-bit lane to which 32-bit lane `i` belongs. -/
def q64 (a : Reg n 32) (i : Fin n) : BitVec 64 := rd a (2 * (i / 2) + 1) ++ rd a (2 * (i / 2))
/-- A register of 64-bit lanes, given by the lane to which each 32-bit lane belongs. -/
def ofQ (f : Fin n → BitVec 64) : Reg n 32 := fun i =>
  if i.val % 2 = 0 then (f i).extractLsb' 0 32 else (f i).extractLsb' 32 32
/-- `_mm_mul_epi32`: signed products of the even 32-bit lanes, as 64-bit lanes. -/
def mulEven (a b : Reg n 32) : Reg n 32 := ofQ fun i =>
  BitVec.ofInt 64 ((rd a (2 * (i / 2))).toInt * (rd b (2 * (i / 2))).toInt)
/-- `_mm_add_epi64`, `wasm_i64x2_add`. -/
def add64 (a b : Reg n 32) : Reg n 32 := ofQ fun i => q64 a i + q64 b i
/-- `wasm_i64x2_mul`. -/
def mul64 (a b : Reg n 32) : Reg n 32 := ofQ fun i => q64 a i * q64 b i
/-- `_mm_slli_epi64`. -/
def slli64 (a : Reg n 32) (k : Nat) : Reg n 32 := ofQ fun i => q64 a i <<< k
/-- `_mm_set1_epi64x`, `wasm_i64x2_const` with equal lanes. -/
def splat64 (x : BitVec 64) : Reg n 32 := ofQ fun _ => x
/-- `_mm_srli_si128 (a, 4)` and `_mm256_srli_si256 (a, 4)`: each 128-bit half moves down by one
32-bit lane. -/
def srliBytes4 (a : Reg n 32) : Reg n 32 := fun i => if i.val % 4 = 3 then 0 else rd a (i + 1)
/-- `_mm_blend_epi16 (a, b, 0xcc)` and `_mm256_blend_epi16 (a, b, 0xcc)`: in each 128-bit half,
16-bit lanes 2, 3, 6, 7, that is 32-bit lanes 1 and 3, come from `b`. -/
def blend0xcc (a b : Reg n 32) : Reg n 32 := fun i => if i.val % 2 = 1 then b i else a i
/-- `wasm_v32x4_shuffle (a, b, c0, c1, c2, c3)`: lanes 0-3 are those of `a`, 4-7 those of `b`. -/
def shuffle4 (a b : Reg 4 32) (c0 c1 c2 c3 : Nat) : Reg 4 32 := fun i =>
  let c := [c0, c1, c2, c3].getD i.val 0
  if c < 4 then rd a c else rd b (c - 4)

/-- `_mm_testc_si128 (a, b)`: 1 if `~a & b` is all zeroes. -/
def testc (a b : Reg n w) : Int := if ∀ i, andnot a b i = 0 then 1 else 0
/-- `_mm_testz_si128 (a, b)`: 1 if `a & b` is all zeroes. -/
def testz (a b : Reg n w) : Int := if ∀ i, vand a b i = 0 then 1 else 0
/-- `vextq_s32 (a, b, k)`: lanes `k`, `k + 1`, … of `a` followed by `b`. -/
def ext (a b : Reg n w) (k : Nat) : Reg n w := fun i =>
  if i.val + k < n then rd a (i + k) else rd b (i + k - n)
/-- `wasm_i32x4_all_true`: no lane is zero. -/
def allTrue (a : Reg n w) : Bool := decide (∀ i, a i ≠ 0)
/-- `wasm_i32x4_any_true`, `__builtin_msa_bnz_v`: some lane is not zero. -/
def anyTrue (a : Reg n w) : Bool := decide (∃ i, a i ≠ 0)
/-- `__builtin_msa_bz_v`: the register is zero. -/
def isZero (a : Reg n w) : Bool := decide (∀ i, a i = 0)

end Isa

/-! ## The operations on a raw type -/

/-- The operations which the templates of fixedpoint/fixedpoint.h need on a raw type `V` whose
scalar type has `w` bits. -/
structure RawOps (w : Nat) (V : Type) where
  dup : BitVec w → V
  bitAnd : V → V → V
  bitOr : V → V → V
  bitXor : V → V → V
  bitNot : V → V
  add : V → V → V
  mul : V → V → V
  sub : V → V → V
  neg : V → V
  shiftLeft : V → Int → V
  shiftRight : V → Int → V
  selectUsingMask : V → V → V → V
  maskIfEqual : V → V → V
  maskIfNotEqual : V → V → V
  maskIfZero : V → V
  maskIfNonZero : V → V
  maskIfGreaterThan : V → V → V
  maskIfGreaterThanOrEqual : V → V → V
  maskIfLessThan : V → V → V
  maskIfLessThanOrEqual : V → V → V
  all : V → Bool
  any : V → Bool
  roundingHalfSum : V → V → V
  srdhm : V → V → V
  /-- Only defined for 16-bit lanes; the field is not used for others. -/
  saturatingAdd : V → V → V
  rdpot : V → Int → M V
  srmbp : Int → V → M V

namespace Gen

variable {w : Nat} {V : Type}

/-- fixedpoint/fixedpoint.h:373-386 `RoundingDivideByPOT`, the generic template, which the SSE, AVX
and WebAssembly types use.  `O.rdpot` and `O.srmbp` are not used. -/
def rdpot (O : RawOps w V) (x : V) (exponent : Int) : M V := do
  assertM (decide (exponent ≥ 0))
  assertM (decide (exponent ≤ 31))
  let mask := O.dup (BitVec.ofInt w (2 ^ exponent.toNat - 1))
  let zero := O.dup 0
  let one := O.dup 1
  let remainder := O.bitAnd x mask
  let threshold := O.add (O.shiftRight mask 1) (O.bitAnd (O.maskIfLessThan x zero) one)
  pure (O.add (O.shiftRight x exponent) (O.bitAnd (O.maskIfGreaterThan remainder threshold) one))

/-- fixedpoint/fixedpoint.h:392-428 `SaturatingRoundingMultiplyByPOT<Exponent>`, the generic
template. -/
def srmbp (O : RawOps w V) (exponent : Int) (x : V) : M V :=
  if exponent = 0 then .ok x
  else if 0 < exponent then
    let k : Int := w - 1 - exponent
    if k < 0 then .error .badOp
    else
      let threshold : Int := 2 ^ k.toNat - 1
      let positiveMask := O.maskIfGreaterThan x (O.dup (BitVec.ofInt w threshold))
      let negativeMask := O.maskIfLessThan x (O.dup (BitVec.ofInt w (-threshold)))
      let result := O.shiftLeft x exponent
      let result := O.selectUsingMask positiveMask (O.dup (BitVec.ofInt w (Fx.maxW w))) result
      .ok (O.selectUsingMask negativeMask (O.dup (BitVec.ofInt w (Fx.minW w))) result)
  else rdpot O x (-exponent)

/-- The dictionary completed with the generic templates. -/
def complete (O : RawOps w V) : RawOps w V := { O with rdpot := rdpot O, srmbp := srmbp O }

/-- fixedpoint/fixedpoint.h:639-643 `operator==` on `FixedPoint` values, raw values given. -/
def eq (O : RawOps w V) (a b : V) : Bool := O.all (O.maskIfEqual a b)

end Gen

open Isa

/-! ## SSE (fixedpoint_sse.h) -/
namespace Sse

variable {n w : Nat}

/-- fixedpoint_sse.h:88-96 and fixedpoint_avx.h:82-90 `BitNot`. -/
def bitNot (a : Reg n w) : Reg n w := andnot a (splat (-1))
/-- fixedpoint_sse.h:128-136 and fixedpoint_avx.h:122-130 `Neg`. -/
def neg (a : Reg n w) : Reg n w := sign a (splat (-1))
/-- fixedpoint_sse.h:158-172 `SelectUsingMask`; also fixedpoint_avx.h:160-168 (16-bit lanes). -/
def selectUsingMask (m t e : Reg n w) : Reg n w := vor (vand m t) (andnot m e)
/-- fixedpoint_sse.h:174-192 and fixedpoint_avx.h:170-188 `MaskIfEqual`, `MaskIfNotEqual`. -/
def maskIfEqual (a b : Reg n w) : Reg n w := cmpeq a b
@[inherit_doc maskIfEqual] def maskIfNotEqual (a b : Reg n w) : Reg n w := bitNot (maskIfEqual a b)
/-- fixedpoint_sse.h:214-232 `MaskIfGreaterThan`, `MaskIfLessThan`. -/
def maskIfGreaterThan (a b : Reg n w) : Reg n w := cmpgt a b
@[inherit_doc maskIfGreaterThan] def maskIfLessThan (a b : Reg n w) : Reg n w := cmplt a b
/-- fixedpoint_sse.h:261-269 and fixedpoint_avx.h:258-266 `All`. -/
def all (a : Reg n w) : Bool := testc a a != 0
/-- fixedpoint_sse.h:271-279 `Any`. -/
def any (a : Reg n w) : Bool := !(testz a a != 0)
/-- fixedpoint_sse.h:281-306 `RoundingHalfSum` for 32-bit lanes; fixedpoint_avx.h:278-303 is the
same. -/
def roundingHalfSum32 (a b : Reg n 32) : Reg n 32 :=
  let one := splat 1#32
  let sign_bit_mask := splat 0x80000000#32
  let sum := vadd a b
  let rounded_half_sum := srai (vadd sum one) 1
  let overflow := vand (vand (vxor a rounded_half_sum) (vxor b rounded_half_sum)) sign_bit_mask
  vxor rounded_half_sum overflow
/-- fixedpoint_sse.h:308-318 `RoundingHalfSum` for 16-bit lanes; fixedpoint_avx.h:305-314 is the
same. -/
def roundingHalfSum16 (a b : Reg n 16) : Reg n 16 :=
  let c := splat (-32768#16)
  let avg_unsigned := avgu (vsub a c) (vsub b c)
  vadd avg_unsigned c
/-- fixedpoint_sse.h:320-356 `SaturatingRoundingDoublingHighMul` for 32-bit lanes; `sel` is
`SelectUsingMask`, in which the AVX version (fixedpoint_avx.h:316-352) differs. -/
def srdhm32 (sel : Reg n 32 → Reg n 32 → Reg n 32 → Reg n 32) (a b : Reg n 32) : Reg n 32 :=
  let min := splat 0x80000000#32
  let saturation_mask := vand (maskIfEqual a b) (maskIfEqual a min)
  let a1_a3 := srliBytes4 a
  let b1_b3 := srliBytes4 b
  let a0b0_a2b2 := mulEven a b
  let a1b1_a3b3 := mulEven a1_a3 b1_b3
  let nudge := splat64 0x40000000#64
  let a0b0_a2b2_rounded := add64 a0b0_a2b2 nudge
  let a1b1_a3b3_rounded := add64 a1b1_a3b3 nudge
  let a0b0_a2b2_rounded_2x := slli64 a0b0_a2b2_rounded 1
  let a1b1_a3b3_rounded_2x := slli64 a1b1_a3b3_rounded 1
  let result := blend0xcc (srliBytes4 a0b0_a2b2_rounded_2x) a1b1_a3b3_rounded_2x
  sel saturation_mask min result
/-- fixedpoint_sse.h:358-368 `SaturatingRoundingDoublingHighMul` for 16-bit lanes;
fixedpoint_avx.h:354-364 is the same. -/
def srdhm16 (a b : Reg n 16) : Reg n 16 :=
  let result_unsaturated := mulhrs a b
  let saturation_mask := cmpeq result_unsaturated (splat 0x8000#16)
  vxor result_unsaturated saturation_mask

/-- fixedpoint_sse.h:58-279 and 370-384, the operations whose code does not depend on the lane
width. -/
def common (n w : Nat) : RawOps w (Reg n w) where
  dup := splat
  bitAnd := vand
  bitOr := vor
  bitXor := vxor
  bitNot := bitNot
  add := vadd
  mul := mullo
  sub := vsub
  neg := neg
  shiftLeft := slli
  shiftRight := srai
  selectUsingMask := selectUsingMask
  maskIfEqual := maskIfEqual
  maskIfNotEqual := maskIfNotEqual
  maskIfZero a := maskIfEqual a (splat 0)
  maskIfNonZero a := maskIfNotEqual a (splat 0)
  maskIfGreaterThan := maskIfGreaterThan
  maskIfGreaterThanOrEqual a b := bitNot (maskIfLessThan a b)
  maskIfLessThan := maskIfLessThan
  maskIfLessThanOrEqual a b := bitNot (maskIfGreaterThan a b)
  all := all
  any := any
  roundingHalfSum a _ := a
  srdhm a _ := a
  saturatingAdd := adds
  rdpot _ _ := .error .badOp
  srmbp _ _ := .error .badOp

/-- fixedpoint_sse.h for `__m128i`, taken as four 32-bit lanes. -/
def ops32 : RawOps 32 (Reg 4 32) := Gen.complete
  { common 4 32 with roundingHalfSum := roundingHalfSum32, srdhm := srdhm32 selectUsingMask }
/-- fixedpoint_sse.h for `int16x8_m128i`. -/
def ops16 : RawOps 16 (Reg 8 16) := Gen.complete
  { common 8 16 with roundingHalfSum := roundingHalfSum16, srdhm := srdhm16 }

end Sse

/-! ## AVX2 (fixedpoint_avx.h) -/
namespace Avx

variable {n w : Nat}

/-- fixedpoint_avx.h:152-158 `SelectUsingMask` for 32-bit lanes. -/
def selectUsingMask32 (m t e : Reg n 32) : Reg n 32 := blendv e t m
/-- fixedpoint_avx.h:220-228 `MaskIfLessThan`. -/
def maskIfLessThan (a b : Reg n w) : Reg n w := cmpgt b a
/-- fixedpoint_avx.h:268-276 `Any`: `BitNot` is here the scalar template at type `int`. -/
def any (a : Reg n w) : Bool := (-1 - testz a a) != 0

/-- fixedpoint_avx.h:52-276 and 366-380, the operations whose code does not depend on the lane
width. -/
def common (n w : Nat) : RawOps w (Reg n w) :=
  { Sse.common n w with
    maskIfLessThan := maskIfLessThan
    maskIfGreaterThanOrEqual := fun a b => Sse.bitNot (maskIfLessThan a b)
    any := any }

/-- fixedpoint_avx.h for `__m256i`, taken as eight 32-bit lanes. -/
def ops32 : RawOps 32 (Reg 8 32) := Gen.complete
  { common 8 32 with
    selectUsingMask := selectUsingMask32
    roundingHalfSum := Sse.roundingHalfSum32
    srdhm := Sse.srdhm32 selectUsingMask32 }
/-- fixedpoint_avx.h for `int16x16_m256i`. -/
def ops16 : RawOps 16 (Reg 16 16) := Gen.complete
  { common 16 16 with roundingHalfSum := Sse.roundingHalfSum16, srdhm := Sse.srdhm16 }

end Avx

/-! ## NEON (fixedpoint_neon.h) -/
namespace Neon

variable {n w : Nat}

/-- fixedpoint_neon.h:67-75 `BitNot`. -/
def bitNot (a : Reg n w) : Reg n w := vxor a (splat (-1))
/-- `vdupq_n_s32 (x)`, `vdupq_n_s16 (x)` for an `int` argument. -/
def dupInt (x : Int) : Reg n w := splat (BitVec.ofInt w x)
/-- fixedpoint_neon.h:107-115 `ShiftLeft (a, int)`. -/
def shiftLeft (a : Reg n w) (offset : Int) : Reg n w := vshl a (dupInt offset)
/-- fixedpoint_neon.h:127-135 `ShiftRight (a, int)`. -/
def shiftRight (a : Reg n w) (offset : Int) : Reg n w := vshl a (dupInt (-offset))
/-- fixedpoint_neon.h:229-234 `All (int32x4_t)`. -/
def all32 (a : Reg 4 32) : Bool :=
  let a := vand a (ext a a 1)
  let a := vand a (ext a a 2)
  a 0 != 0
/-- fixedpoint_neon.h:236-242 `All (int16x8_t)`. -/
def all16 (a : Reg 8 16) : Bool :=
  let a := vand a (ext a a 1)
  let a := vand a (ext a a 2)
  let a := vand a (ext a a 4)
  a 0 != 0
/-- fixedpoint_neon.h:244-249 `Any (int32x4_t)`. -/
def any32 (a : Reg 4 32) : Bool :=
  let a := vor a (ext a a 1)
  let a := vor a (ext a a 2)
  a 0 != 0
/-- fixedpoint_neon.h:251-257 `Any (int16x8_t)`. -/
def any16 (a : Reg 8 16) : Bool :=
  let a := vor a (ext a a 1)
  let a := vor a (ext a a 2)
  let a := vor a (ext a a 4)
  a 0 != 0
/-- fixedpoint_neon.h:295-309 `RoundingDivideByPOT (x, exponent)` for a vector of exponents; `shift_vec`
is its negation. -/
def rdpotVec (x exponent : Reg n w) : Reg n w :=
  let shift_vec := vneg exponent
  let fixup := shrN (vand x shift_vec) (w - 1)
  vrshl (adds x fixup) shift_vec
/-- fixedpoint_neon.h:279-293 `RoundingDivideByPOT (x, int)`. -/
def rdpot (x : Reg n w) (exponent : Int) : Reg n w :=
  let shift_vec := dupInt (-exponent)
  let fixup := shrN (vand x shift_vec) (w - 1)
  vrshl (adds x fixup) shift_vec
/-- fixedpoint_neon.h:311-337 `ImplSaturatingRoundingMultiplyByPOT<Exponent, …>`.  The immediate of
`vqshlq_n` is at most the lane width less one, that of `vrshrq_n` from one to the lane width; other
exponents do not compile, which is a fault here. -/
def srmbp (exponent : Int) (x : Reg n w) : M (Reg n w) :=
  if exponent = 0 then .ok x
  else if 0 < exponent then
    if exponent < w then .ok (vqshlN x exponent.toNat) else .error .badOp
  else if -exponent ≤ w then
    let fixup := shrN x (w - 1)
    .ok (vrshrN (adds x fixup) (-exponent).toNat)
  else .error .badOp

/-- fixedpoint_neon.h:37-353, the operations whose code does not depend on the lane width.  `Mul`
has no specialisation: the template `a * b` on a vector type multiplies lane by lane. -/
def common (n w : Nat) : RawOps w (Reg n w) where
  dup := splat
  bitAnd := vand
  bitOr := vor
  bitXor := vxor
  bitNot := bitNot
  add := vadd
  mul := mullo
  sub := vsub
  neg := vneg
  shiftLeft := shiftLeft
  shiftRight := shiftRight
  selectUsingMask := bsl
  maskIfEqual := cmpeq
  maskIfNotEqual a b := bitNot (cmpeq a b)
  maskIfZero a := cmpeq a (splat 0)
  maskIfNonZero a := tst a a
  maskIfGreaterThan := cmpgt
  maskIfGreaterThanOrEqual := cmpge
  maskIfLessThan := cmplt
  maskIfLessThanOrEqual := cmple
  all _ := false
  any _ := false
  roundingHalfSum := rhadd
  srdhm := qrdmulh
  saturatingAdd := adds
  rdpot x e := .ok (rdpot x e)
  srmbp := srmbp

/-- fixedpoint_neon.h for `int32x4_t`. -/
def ops32 : RawOps 32 (Reg 4 32) := { common 4 32 with all := all32, any := any32 }
/-- fixedpoint_neon.h for `int16x8_t`. -/
def ops16 : RawOps 16 (Reg 8 16) := { common 8 16 with all := all16, any := any16 }

end Neon

/-! ## WebAssembly SIMD (fixedpoint_wasmsimd.h) -/
namespace Wasm

variable {n w : Nat}

/-- fixedpoint_wasmsimd.h:281-294 `RoundingHalfSum` for 32-bit lanes. -/
def roundingHalfSum32 (a b : Reg n 32) : Reg n 32 :=
  let one := splat 1#32
  let sign_bit_mask := splat 0x80000000#32
  let sum := vadd a b
  let rounded_half_sum := shrMod (vadd sum one) 1
  let overflow := vand (vand (vxor a rounded_half_sum) (vxor b rounded_half_sum)) sign_bit_mask
  vxor rounded_half_sum overflow
/-- fixedpoint_wasmsimd.h:296-307 `RoundingHalfSum` for 16-bit lanes. -/
def roundingHalfSum16 (a b : Reg n 16) : Reg n 16 :=
  let c := splat (-32768#16)
  vxor (avgu (vxor a c) (vxor b c)) c
/-- fixedpoint_wasmsimd.h:309-340 `SaturatingRoundingDoublingHighMul` for 32-bit lanes. -/
def srdhm32 (a b : Reg 4 32) : Reg 4 32 :=
  let a_sign := shrMod a 31
  let b_sign := shrMod b 31
  let a_ext_lo := shuffle4 a a_sign 0 4 1 5
  let a_ext_hi := shuffle4 a a_sign 2 6 3 7
  let b_ext_lo := shuffle4 b b_sign 0 4 1 5
  let b_ext_hi := shuffle4 b b_sign 2 6 3 7
  let ab_lo := mul64 a_ext_lo b_ext_lo
  let ab_hi := mul64 a_ext_hi b_ext_hi
  let nudge_2x := splat64 0x80000000#64
  let ab_lo_2x := add64 ab_lo ab_lo
  let ab_hi_2x := add64 ab_hi ab_hi
  let ab_lo_rounded_2x := add64 ab_lo_2x nudge_2x
  let ab_hi_rounded_2x := add64 ab_hi_2x nudge_2x
  let prod := shuffle4 ab_lo_rounded_2x ab_hi_rounded_2x 1 3 5 7
  let min := splat 0x80000000#32
  vxor prod (cmpeq prod min)
/-- `wasm_i32x4_widen_low_i16x8`. -/
def widenLow (a : Reg 8 16) : Reg 4 32 := fun i => (rd a i).signExtend 32
/-- `wasm_i32x4_widen_high_i16x8`. -/
def widenHigh (a : Reg 8 16) : Reg 4 32 := fun i => (rd a (i + 4)).signExtend 32
/-- `wasm_i16x8_narrow_i32x4 (lo, hi)`: signed saturation. -/
def narrow (lo hi : Reg 4 32) : Reg 8 16 := fun i =>
  satW 16 (if i.val < 4 then rd lo i else rd hi (i - 4)).toInt
/-- fixedpoint_wasmsimd.h:342-361 `SaturatingRoundingDoublingHighMul` for 16-bit lanes (the branch
that is compiled). -/
def srdhm16 (a b : Reg 8 16) : Reg 8 16 :=
  let lo := mullo (widenLow a) (widenLow b)
  let hi := mullo (widenHigh a) (widenHigh b)
  let inc := splat 0x4000#32
  let lo := vadd lo inc
  let hi := vadd hi inc
  let lo := shrMod lo 15
  let hi := shrMod hi 15
  narrow lo hi

/-- fixedpoint_wasmsimd.h:57-279 and 363-377, the operations whose code does not depend on the lane
width. -/
def common (n w : Nat) : RawOps w (Reg n w) where
  dup := splat
  bitAnd := vand
  bitOr := vor
  bitXor := vxor
  bitNot := vnot
  add := vadd
  mul := mullo
  sub := vsub
  neg := vneg
  shiftLeft := shlMod
  shiftRight := shrMod
  selectUsingMask m t e := bitselect t e m
  maskIfEqual := cmpeq
  maskIfNotEqual := cmpne
  maskIfZero a := cmpeq a (splat 0)
  maskIfNonZero a := cmpne a (splat 0)
  maskIfGreaterThan := cmpgt
  maskIfGreaterThanOrEqual := cmpge
  maskIfLessThan := cmplt
  maskIfLessThanOrEqual := cmple
  all := allTrue
  any := anyTrue
  roundingHalfSum a _ := a
  srdhm a _ := a
  saturatingAdd := adds
  rdpot _ _ := .error .badOp
  srmbp _ _ := .error .badOp

/-- fixedpoint_wasmsimd.h for `v128_t`, taken as four 32-bit lanes. -/
def ops32 : RawOps 32 (Reg 4 32) := Gen.complete
  { common 4 32 with roundingHalfSum := roundingHalfSum32, srdhm := srdhm32 }
/-- fixedpoint_wasmsimd.h for `int16x8_v128_t`. -/
def ops16 : RawOps 16 (Reg 8 16) := Gen.complete
  { common 8 16 with roundingHalfSum := roundingHalfSum16, srdhm := srdhm16 }

end Wasm

/-! ## MSA (fixedpoint_msa.h) -/
namespace Msa

variable {n w : Nat}

/-- fixedpoint_msa.h:73-83 `BitNot`. -/
def bitNot (a : Reg n w) : Reg n w := nor a a
/-- fixedpoint_msa.h:105-115 `Neg`. -/
def neg (a : Reg n w) : Reg n w := vsub (splat 0) a
/-- fixedpoint_msa.h:276-281 and 304-309, in `SaturatingRoundingMultiplyByPOT`: `adds_s (x, x)` repeated
`k` times. -/
def doubleSat : Nat → Reg n w → Reg n w
  | 0, x => x
  | k + 1, x => doubleSat k (adds x x)
/-- fixedpoint_msa.h:273-359 `ImplSaturatingRoundingMultiplyByPOT`.  The static assertions are faults. -/
def srmbp (exponent : Int) (x : Reg n w) : M (Reg n w) :=
  if exponent = 0 then .ok x
  else if 0 < exponent then
    if exponent < w then
      if exponent < 5 then .ok (doubleSat exponent.toNat x)
      else
        let res := satS x (w - 1 - exponent.toNat)
        let tmp := srli (cmplt res x) 1
        let res := slliImm res exponent.toNat
        .ok (vor res tmp)
    else .error .badOp
  else if -exponent < w then
    let sign := srli x (w - 1)
    let x := subs x sign
    .ok (vrshrN x (-exponent).toNat)
  else .error .badOp
/-- fixedpoint_msa.h:361-393 `RoundingDivideByPOT`. -/
def rdpot (x : Reg n w) (exponent : Int) : Reg n w :=
  let e := splat (BitVec.ofInt w exponent)
  let sign := srli x (w - 1)
  let sign := mins sign e
  let x := subs x sign
  srar x exponent

/-- fixedpoint_msa.h:37-409, all operations; `Mul` as for NEON. -/
def ops (n w : Nat) : RawOps w (Reg n w) where
  dup := splat
  bitAnd := vand
  bitOr := vor
  bitXor := vxor
  bitNot := bitNot
  add := vadd
  mul := mullo
  sub := vsub
  neg := neg
  shiftLeft := shlMod
  shiftRight := shrMod
  selectUsingMask m t e := bsel m e t
  maskIfEqual := cmpeq
  maskIfNotEqual a b := bitNot (cmpeq a b)
  maskIfZero a := cmpeq a (splat 0)
  maskIfNonZero a := bitNot (cmpeq a (splat 0))
  maskIfGreaterThan a b := cmplt b a
  maskIfGreaterThanOrEqual a b := cmple b a
  maskIfLessThan := cmplt
  maskIfLessThanOrEqual := cmple
  all a := isZero (bitNot a)
  any := anyTrue
  roundingHalfSum := rhadd
  srdhm := qrdmulh
  saturatingAdd := adds
  rdpot x e := .ok (rdpot x e)
  srmbp := srmbp

/-- fixedpoint_msa.h for `v4i32`. -/
def ops32 : RawOps 32 (Reg 4 32) := ops 4 32
/-- fixedpoint_msa.h for `v8i16`. -/
def ops16 : RawOps 16 (Reg 8 16) := ops 8 16

end Msa

end Gemmlowp
