import Verif.Pack
import Verif.Vec128
/-!
# internal/pack_sse.h, pack_avx.h, pack_neon.h, pack_msa.h: packing with vector instructions

These headers specialise `PackingRegisterBlock::Pack` for some formats and sources in width-major
order.  Each intrinsic is a function on registers (16 or 32 bytes, lowest first) under its own name.
The arrays of registers of the NEON and MSA code are written as functions of the index: an array that
a loop fills entry by entry, each entry from earlier arrays, is the function that gives the entry.
-/
namespace Gemmlowp.PackSimd

open Vec (VReg ofH ofS ofD)

/-! ## Memory -/

/-- Load `n` bytes at `a`; the rest of the register is zero. -/
def loadBytes (mem : Mem) (a n : Nat) : M VReg :=
  if ∀ i : Fin n, (mem (a + i)).isSome then
    .ok (fun i => if i < n then ((mem (a + i)).getD 0).toBitVec else 0#8)
  else .error .oob

/-- Store the low `n` bytes of `v` at `a`. -/
def storeBytes (b : Buf UInt8) (a n : Nat) (v : VReg) : M (Buf UInt8) :=
  if a + n ≤ b.size then
    .ok { b with get := fun x => if a ≤ x ∧ x < a + n then UInt8.ofBitVec (v (x - a)) else b.get x }
  else .error .oob

/-- Load `n` words at `a`. -/
def loadWords (b : Buf (BitVec 32)) (a n : Nat) : M VReg :=
  if a + n ≤ b.size then .ok (ofS fun i => b.get (a + i)) else .error .oob

/-- Store the low `n` words of `v` at `a`. -/
def storeWords (b : Buf (BitVec 32)) (a n : Nat) (v : VReg) : M (Buf (BitVec 32)) :=
  if a + n ≤ b.size then
    .ok { b with get := fun x => if a ≤ x ∧ x < a + n then v.s (x - a) else b.get x }
  else .error .oob

/-! ## SSE4 and AVX2 intrinsics -/

/-- `_mm_unpacklo_epi16`, `_mm256_unpacklo_epi16`: the low four 16-bit lanes of each half of 128 bits,
alternately. -/
def unpacklo_epi16 (a b : VReg) : VReg := fun j =>
  (if j / 2 % 2 = 0 then a else b) (j / 16 * 16 + (j % 16) / 4 * 2 + j % 2)

/-- `_mm256_unpackhi_epi16` -/
def unpackhi_epi16 (a b : VReg) : VReg := fun j =>
  (if j / 2 % 2 = 0 then a else b) (j / 16 * 16 + 8 + (j % 16) / 4 * 2 + j % 2)

/-- `_mm256_unpacklo_epi32` -/
def unpacklo_epi32 (a b : VReg) : VReg := fun j =>
  (if j / 4 % 2 = 0 then a else b) (j / 16 * 16 + (j % 16) / 8 * 4 + j % 4)

/-- `_mm256_unpackhi_epi32` -/
def unpackhi_epi32 (a b : VReg) : VReg := fun j =>
  (if j / 4 % 2 = 0 then a else b) (j / 16 * 16 + 8 + (j % 16) / 8 * 4 + j % 4)

/-- `_mm_shuffle_epi32` -/
def shuffle_epi32 (a : VReg) (imm : Nat) : VReg := fun j => a (imm / 4 ^ (j / 4) % 4 * 4 + j % 4)

/-- `_mm_blend_epi16` -/
def blend_epi16 (a b : VReg) (imm : Nat) : VReg := fun j => (if imm / 2 ^ (j / 2) % 2 = 1 then b else a) j

/-- `_mm256_permute4x64_epi64` -/
def permute4x64_epi64 (a : VReg) (imm : Nat) : VReg := fun j => a (imm / 4 ^ (j / 8) % 4 * 8 + j % 8)

/-- `_mm256_set_m128i` -/
def set_m128i (hi lo : VReg) : VReg := fun j => if j < 16 then lo j else hi (j - 16)

/-- `_mm256_extracti128_si256(a, 1)`; `_mm256_castsi256_si128` changes nothing here, as only the low
bytes are used afterwards. -/
def extracti128_hi (a : VReg) : VReg := fun j => a (16 + j)

/-- `_mm_cvtepu8_epi16`, `_mm256_cvtepu8_epi16` -/
def cvtepu8_epi16 (a : VReg) : VReg := ofH fun i => (a i).setWidth 16

/-- `_mm_set1_epi16`, `_mm256_set1_epi16` -/
def set1_epi16 (x : BitVec 16) : VReg := ofH fun _ => x

/-- `_mm_madd_epi16`, `_mm256_madd_epi16` -/
def madd_epi16 (a b : VReg) : VReg := ofS fun i =>
  (a.h (2 * i)).signExtend 32 * (b.h (2 * i)).signExtend 32 +
    (a.h (2 * i + 1)).signExtend 32 * (b.h (2 * i + 1)).signExtend 32

/-- `_mm_add_epi32`, `_mm256_add_epi32`, `vaddq_s32`, `__builtin_msa_addv_w` -/
def add_epi32 (a b : VReg) : VReg := ofS fun i => a.s i + b.s i

/-! ## internal/pack_sse.h -/

/-- internal/pack_sse.h:64-80 (and pack_avx.h:223-239): the four registers to be stored, `xmm9`,
`xmm10`, `xmm11`, `xmm12`, from `xmm1` to `xmm4`. -/
def sseCells (xmm1 xmm2 xmm3 xmm4 : VReg) : VReg × VReg × VReg × VReg :=
  let xmm5 := unpacklo_epi16 xmm1 xmm2
  let xmm8 := shuffle_epi32 xmm5 0x31
  let xmm6 := unpacklo_epi16 xmm3 xmm4
  let xmm7 := shuffle_epi32 xmm6 0x80
  let xmm9 := blend_epi16 xmm5 xmm7 0xcc
  let xmm10 := blend_epi16 xmm8 xmm6 0xcc
  let xmm11 := shuffle_epi32 xmm9 0xee
  let xmm12 := shuffle_epi32 xmm10 0xee
  (xmm9, xmm10, xmm11, xmm12)

/-- internal/pack_sse.h:61-113, the body of the inner loop: four cells of one row of cells.  The same
code is at internal/pack_avx.h:217-269. -/
def sseBody (cells : Nat) (mem : Mem) (src : SideMap) (startWidth csd csw dstPtr : Nat)
    (ps : PackedSide) : M PackedSide := do
  let one := set1_epi16 1#16
  let sumsPtr := startWidth + csw
  let srcData := src.addr csw csd
  let xmm1 ← loadBytes mem srcData 8
  let xmm2 ← loadBytes mem (srcData + 1 * src.widthStride) 8
  let xmm3 ← loadBytes mem (srcData + 2 * src.widthStride) 8
  let xmm4 ← loadBytes mem (srcData + 3 * src.widthStride) 8
  let (xmm9, xmm10, xmm11, xmm12) := sseCells xmm1 xmm2 xmm3 xmm4
  let data ← storeBytes ps.data dstPtr 8 xmm9
  let data ← storeBytes data (dstPtr + 8 * cells) 8 xmm10
  let data ← storeBytes data (dstPtr + 2 * 8 * cells) 8 xmm11
  let data ← storeBytes data (dstPtr + 3 * 8 * cells) 8 xmm12
  let sum ← loadWords ps.sums sumsPtr 4
  let sum := add_epi32 sum (madd_epi16 (cvtepu8_epi16 xmm9) one)
  let sum := add_epi32 sum (madd_epi16 (cvtepu8_epi16 xmm10) one)
  let sum := add_epi32 sum (madd_epi16 (cvtepu8_epi16 xmm11) one)
  let sum := add_epi32 sum (madd_epi16 (cvtepu8_epi16 xmm12) one)
  let sums ← storeWords ps.sums sumsPtr 4 sum
  pure { ps with data := data, sums := sums }

/-- internal/pack_sse.h:50-121, internal/pack_avx.h:207-276 `Pack` for width-major cells of 4x2.
`seek_forward_n_cells` moves the cursor by so many cells (internal/pack.h:96-98). -/
def ssePack (f : SideFormat) (reg : Nat) (mem : Mem) (src : SideMap) (startWidth : Nat)
    (ps : PackedSide) : M PackedSide := do
  let (ps', _) ← forLoop 0 reg 8 (fun csd (st : PackedSide × Nat) => do
    let (ps, dstPtr) ← forLoop 0 f.kw 4 (fun csw (st : PackedSide × Nat) => do
      let ps ← sseBody f.cells mem src startWidth csd csw st.2 st.1
      pure (ps, st.2 + 8)) st
    pure (ps, dstPtr + 3 * 8 * f.cells)) (ps, ps.pos)
  pure { ps' with pos := ps.pos + f.cells * reg / 2 * 8 }

/-- Width-major source, width-major cells of `cw`x2 of uint8, any number of them
(internal/pack_sse.h:30-40, internal/pack_avx.h:34-44, 191-201, internal/pack_neon.h:131-142,
internal/pack_msa.h:182-193). -/
def isWidthMajor2 (cw : Nat) (f : SideFormat) (src : SideMap) : Bool :=
  src.order == .widthMajor && f.cw == cw && f.cd == 2 && f.order == .widthMajor && f.scalar == .uint8

/-- `PackingRegisterBlock::Pack` in a build for SSE4. -/
def ssePacker : BlockPacker := fun mode f reg mem src startWidth ps =>
  if isWidthMajor2 4 f src then ssePack f reg mem src startWidth ps
  else packBlock mode f reg mem src startWidth ps

/-! ## internal/pack_avx.h -/

/-- internal/pack_avx.h:85-118: the eight registers of 16 bytes to be stored, in the order of the
stores: `xmm9`, `xmm11`, `xmm10`, `xmm12`, then the new `xmm1`, `xmm3`, `xmm2`, `xmm4`. -/
def avxCells (xmm1 xmm2 xmm3 xmm4 xmm5 xmm6 xmm7 xmm8 : VReg) :
    VReg × VReg × VReg × VReg × VReg × VReg × VReg × VReg :=
  let ymm1 := set_m128i xmm5 xmm1
  let ymm2 := set_m128i xmm6 xmm2
  let ymm3 := set_m128i xmm7 xmm3
  let ymm4 := set_m128i xmm8 xmm4
  let ymm5 := unpacklo_epi16 ymm1 ymm2
  let ymm6 := unpacklo_epi16 ymm3 ymm4
  let ymm9 := unpackhi_epi16 ymm1 ymm2
  let ymm10 := unpackhi_epi16 ymm3 ymm4
  let ymm7 := unpacklo_epi32 ymm5 ymm6
  let ymm8 := unpackhi_epi32 ymm5 ymm6
  let ymm13 := unpacklo_epi32 ymm9 ymm10
  let ymm14 := unpackhi_epi32 ymm9 ymm10
  let ymm11 := permute4x64_epi64 ymm7 0xd8
  let ymm12 := permute4x64_epi64 ymm8 0xd8
  let ymm15 := permute4x64_epi64 ymm13 0xd8
  let ymm16 := permute4x64_epi64 ymm14 0xd8
  let xmm9 := ymm11
  let xmm10 := ymm12
  let xmm11 := extracti128_hi ymm11
  let xmm12 := extracti128_hi ymm12
  let xmm1 := ymm15
  let xmm2 := ymm16
  let xmm3 := extracti128_hi ymm15
  let xmm4 := extracti128_hi ymm16
  (xmm9, xmm11, xmm10, xmm12, xmm1, xmm3, xmm2, xmm4)

/-- internal/pack_avx.h:62-182, the body of the inner loop: eight cells of one row of cells. -/
def avxBody (cells : Nat) (mem : Mem) (src : SideMap) (startWidth csd csw dstPtr : Nat)
    (ps : PackedSide) : M PackedSide := do
  let one := set1_epi16 1#16
  let sumsPtr := startWidth + csw
  let srcData := src.addr csw csd
  let xmm1 ← loadBytes mem srcData 16
  let xmm2 ← loadBytes mem (srcData + 1 * src.widthStride) 16
  let xmm3 ← loadBytes mem (srcData + 2 * src.widthStride) 16
  let xmm4 ← loadBytes mem (srcData + 3 * src.widthStride) 16
  let xmm5 ← loadBytes mem (srcData + 4 * src.widthStride) 16
  let xmm6 ← loadBytes mem (srcData + 5 * src.widthStride) 16
  let xmm7 ← loadBytes mem (srcData + 6 * src.widthStride) 16
  let xmm8 ← loadBytes mem (srcData + 7 * src.widthStride) 16
  let (xmm9, xmm11, xmm10, xmm12, xmm1, xmm3, xmm2, xmm4) :=
    avxCells xmm1 xmm2 xmm3 xmm4 xmm5 xmm6 xmm7 xmm8
  let data ← storeBytes ps.data dstPtr 16 xmm9
  let data ← storeBytes data (dstPtr + 16 * cells) 16 xmm11
  let data ← storeBytes data (dstPtr + 2 * 16 * cells) 16 xmm10
  let data ← storeBytes data (dstPtr + 3 * 16 * cells) 16 xmm12
  let data ← storeBytes data (dstPtr + 4 * 16 * cells) 16 xmm1
  let data ← storeBytes data (dstPtr + 5 * 16 * cells) 16 xmm3
  let data ← storeBytes data (dstPtr + 6 * 16 * cells) 16 xmm2
  let data ← storeBytes data (dstPtr + 7 * 16 * cells) 16 xmm4
  let sum ← loadWords ps.sums sumsPtr 8
  let sum := add_epi32 sum (madd_epi16 (cvtepu8_epi16 xmm9) one)
  let sum := add_epi32 sum (madd_epi16 (cvtepu8_epi16 xmm11) one)
  let sum := add_epi32 sum (madd_epi16 (cvtepu8_epi16 xmm10) one)
  let sum := add_epi32 sum (madd_epi16 (cvtepu8_epi16 xmm12) one)
  let sum := add_epi32 sum (madd_epi16 (cvtepu8_epi16 xmm1) one)
  let sum := add_epi32 sum (madd_epi16 (cvtepu8_epi16 xmm3) one)
  let sum := add_epi32 sum (madd_epi16 (cvtepu8_epi16 xmm2) one)
  let sum := add_epi32 sum (madd_epi16 (cvtepu8_epi16 xmm4) one)
  let sums ← storeWords ps.sums sumsPtr 8 sum
  pure { ps with data := data, sums := sums }

/-- internal/pack_avx.h:51-188 `Pack` for width-major cells of 8x2. -/
def avxPack (f : SideFormat) (reg : Nat) (mem : Mem) (src : SideMap) (startWidth : Nat)
    (ps : PackedSide) : M PackedSide := do
  let (ps', _) ← forLoop 0 reg 16 (fun csd (st : PackedSide × Nat) => do
    let (ps, dstPtr) ← forLoop 0 f.kw 8 (fun csw (st : PackedSide × Nat) => do
      let ps ← avxBody f.cells mem src startWidth csd csw st.2 st.1
      pure (ps, st.2 + 16)) st
    pure (ps, dstPtr + 7 * 16 * f.cells)) (ps, ps.pos)
  pure { ps' with pos := ps.pos + f.cells * reg / 2 * 16 }

/-- `PackingRegisterBlock::Pack` in a build for AVX2. -/
def avxPacker : BlockPacker := fun mode f reg mem src startWidth ps =>
  if isWidthMajor2 8 f src then avxPack f reg mem src startWidth ps
  else if isWidthMajor2 4 f src then ssePack f reg mem src startWidth ps
  else packBlock mode f reg mem src startWidth ps

/-! ## NEON intrinsics -/

/-- `vzipq_u8(a, b).val[0]`, `__builtin_msa_ilvr_b(b, a)`, also of halves: the low bytes,
alternately. -/
def zip1B (a b : VReg) : VReg := fun j => (if j % 2 = 0 then a else b) (j / 2)
/-- `vzipq_u8(a, b).val[1]`, `__builtin_msa_ilvl_b(b, a)` -/
def zip2B (a b : VReg) : VReg := fun j => (if j % 2 = 0 then a else b) (8 + j / 2)
/-- `vzipq_u16(a, b).val[0]`, `__builtin_msa_ilvr_h(b, a)` -/
def zip1H (a b : VReg) : VReg := fun j => (if j / 2 % 2 = 0 then a else b) (j / 4 * 2 + j % 2)
/-- `vzipq_u16(a, b).val[1]`, `__builtin_msa_ilvl_h(b, a)` -/
def zip2H (a b : VReg) : VReg := fun j => (if j / 2 % 2 = 0 then a else b) (8 + j / 4 * 2 + j % 2)

/-- `vzipq_u8` -/
def vzipq_u8 (a b : VReg) (val : Nat) : VReg := if val = 0 then zip1B a b else zip2B a b
/-- `vzipq_u16` -/
def vzipq_u16 (a b : VReg) (val : Nat) : VReg := if val = 0 then zip1H a b else zip2H a b

/-- `vget_high_u8`, `vget_high_u16`, `vget_high_s16`; `vget_low` changes nothing here, as only the low
bytes are used afterwards. -/
def vget_high (a : VReg) : VReg := fun j => a (8 + j)

/-- `vaddl_u8` -/
def vaddl_u8 (a b : VReg) : VReg := ofH fun i => (a i).setWidth 16 + (b i).setWidth 16
/-- `vaddl_s8` -/
def vaddl_s8 (a b : VReg) : VReg := ofH fun i => (a i).signExtend 16 + (b i).signExtend 16
/-- `vaddl_u16` -/
def vaddl_u16 (a b : VReg) : VReg := ofS fun i => (a.h i).setWidth 32 + (b.h i).setWidth 32
/-- `vpaddlq_u8`; `__builtin_msa_hadd_u_h(a, a)` -/
def vpaddlq_u8 (a : VReg) : VReg := ofH fun i => (a (2 * i)).setWidth 16 + (a (2 * i + 1)).setWidth 16
/-- `vaddq_u16`, `vadd_u16`, `__builtin_msa_addv_h` -/
def vaddq_u16 (a b : VReg) : VReg := ofH fun i => a.h i + b.h i
/-- `vmovl_u16` -/
def vmovl_u16 (a : VReg) : VReg := ofS fun i => (a.h i).setWidth 32
/-- `vpaddq_s16`; on 32-bit ARM the function at internal/pack_neon.h:249-255 that does the same with
two `vpadd_s16`. -/
def vpaddq_s16 (a b : VReg) : VReg := ofH fun i =>
  if i < 4 then a.h (2 * i) + a.h (2 * i + 1) else b.h (2 * (i - 4)) + b.h (2 * (i - 4) + 1)
/-- `vpadd_s16` -/
def vpadd_s16 (a b : VReg) : VReg := ofH fun i =>
  if i < 2 then a.h (2 * i) + a.h (2 * i + 1) else b.h (2 * (i - 2)) + b.h (2 * (i - 2) + 1)
/-- `vcombine_s16` -/
def vcombine_s16 (lo hi : VReg) : VReg := fun j => if j < 8 then lo j else hi (j - 8)
/-- `vpadalq_s16`, `vpadal_s16` -/
def vpadalq_s16 (a b : VReg) : VReg := ofS fun i =>
  a.s i + ((b.h (2 * i)).signExtend 32 + (b.h (2 * i + 1)).signExtend 32)
/-- `veorq_u8(a, vdupq_n_u8(0x80))`, `__builtin_msa_bnegi_b(a, 7)` -/
def eor80 (a : VReg) : VReg := fun j => a j ^^^ 0x80#8

/-- internal/pack_neon.h:249-255, the replacement of `vpaddq_s16` on 32-bit ARM. -/
def vpaddq_s16_32 (a b : VReg) : VReg :=
  let c := vpadd_s16 a (vget_high a)
  let d := vpadd_s16 b (vget_high b)
  vcombine_s16 c d

/-! ## internal/pack_neon.h -/

/-- internal/pack_neon.h:56-59, 157-175: `n` rows of 16 bytes.  (The two loops step through the rows
by index and by pointer.) -/
def loadLines (mem : Mem) (src : SideMap) (n : Nat) : M (Nat → VReg) :=
  forLoop 0 n 1 (fun i (lines : Nat → VReg) => do
    let v ← loadBytes mem (src.base + i * src.stride) 16
    pure fun r => if r = i then v else lines r) (fun _ _ => 0#8)

/-- internal/pack_neon.h:61-77, 177-193: `src_lines_intertwined_4x`, with `zip` for `vzipq_u8` or
`vzipq_u16`. -/
def intertwined4x (zip : VReg → VReg → Nat → VReg) (lines : Nat → VReg) : Nat → Nat → VReg :=
  let twice : Nat → Nat → VReg := fun r =>
    if r % 2 = 0 then zip (lines (4 * (r / 2))) (lines (4 * (r / 2) + 2))
    else zip (lines (4 * (r / 2) + 1)) (lines (4 * (r / 2) + 3))
  fun r =>
    if r % 2 = 0 then zip (twice (2 * (r / 2)) 0) (twice (2 * (r / 2) + 1) 0)
    else zip (twice (2 * (r / 2)) 1) (twice (2 * (r / 2) + 1) 1)

/-- internal/pack_neon.h:82-93, 198-209: the low halves of all cells, then the high halves. -/
def neonStoreHalves (cells : Nat) (v : Nat → VReg) (st : Buf UInt8 × Nat) : M (Buf UInt8 × Nat) :=
  forLoop 0 cells 1 (fun cell (st : Buf UInt8 × Nat) => do
    let data ← storeBytes st.1 st.2 8 (v cell)
    pure (data, st.2 + 8)) st >>= fun st =>
  forLoop 0 cells 1 (fun cell (st : Buf UInt8 × Nat) => do
    let data ← storeBytes st.1 st.2 8 (vget_high (v cell))
    pure (data, st.2 + 8)) st

/-- internal/pack_neon.h:79-96, 195-212: all stores; `halves` is the body of the two loops. -/
def storeCells (halves : Nat → (Nat → VReg) → Buf UInt8 × Nat → M (Buf UInt8 × Nat)) (cells : Nat)
    (x4 : Nat → Nat → VReg) (data : Buf UInt8) (dst : Nat) : M (Buf UInt8) := do
  let (data, _) ← forLoop 0 2 1 (fun outer st =>
    forLoop 0 2 1 (fun inner st => halves cells (fun cell => x4 (2 * cell + outer) inner) st) st)
      (data, dst)
  pure data

/-- internal/pack_neon.h:117-128, 234-243: add to the sums. -/
def updateSums (cells : Nat) (s : Nat → VReg) (startWidth : Nat) (sums : Buf (BitVec 32)) :
    M (Buf (BitVec 32)) :=
  forLoop 0 cells 1 (fun cell sums => do
    let old ← loadWords sums (startWidth + 4 * cell) 4
    storeWords sums (startWidth + 4 * cell) 4 (add_epi32 (s cell) old)) sums

/-- internal/pack_neon.h:98-125: the sums of a cell, depth-major cells. -/
def neonSumsDepth (x4 : Nat → Nat → VReg) (cell : Nat) : VReg :=
  let sums_of_2_cells : Nat → VReg := fun i =>
    vaddl_u8 (x4 (2 * cell + i / 2) (i % 2)) (vget_high (x4 (2 * cell + i / 2) (i % 2)))
  let sums_of_4_cells : Nat → VReg := fun i =>
    vaddl_u16 (sums_of_2_cells i) (vget_high (sums_of_2_cells i))
  let s01 := add_epi32 (sums_of_4_cells 0) (sums_of_4_cells 1)
  let s23 := add_epi32 (sums_of_4_cells 2) (sums_of_4_cells 3)
  add_epi32 s01 s23

/-- internal/pack_neon.h:214-237: the sums of a cell, width-major cells. -/
def neonSumsWidth (x4 : Nat → Nat → VReg) (cell : Nat) : VReg :=
  let sums_of_2 : Nat → VReg := fun i => vpaddlq_u8 (x4 (2 * cell + i / 2) (i % 2))
  let sums_of_4 : Nat → VReg := fun i => vaddq_u16 (sums_of_2 (2 * i)) (sums_of_2 (2 * i + 1))
  let sums_of_8 := vaddq_u16 (sums_of_4 0) (sums_of_4 1)
  let sums_of_16 := vaddq_u16 sums_of_8 (vget_high sums_of_8)
  vmovl_u16 sums_of_16

/-- internal/pack_neon.h:52-129, 151-246 `Pack` for cells of 4x2, and internal/pack_msa.h:48-180,
204-345. -/
def packCells4x2 (zip : VReg → VReg → Nat → VReg)
    (halves : Nat → (Nat → VReg) → Buf UInt8 × Nat → M (Buf UInt8 × Nat))
    (sumsOf : (Nat → Nat → VReg) → Nat → VReg) (f : SideFormat) (reg : Nat) (mem : Mem)
    (src : SideMap) (startWidth : Nat) (ps : PackedSide) : M PackedSide := do
  let lines ← loadLines mem src (4 * f.cells)
  let x4 := intertwined4x zip lines
  let data ← storeCells halves f.cells x4 ps.data ps.pos
  let sums ← updateSums f.cells (sumsOf x4) startWidth ps.sums
  pure { data := data, sums := sums, pos := ps.pos + f.cells * reg / 2 * 8 }

/-- internal/pack_neon.h:281-290: the rows, with the sign bits inverted if `flip`. -/
def storeLines (lines : Nat → VReg) (n dst : Nat) (data : Buf UInt8) : M (Buf UInt8) :=
  forLoop 0 n 1 (fun i data => storeBytes data (dst + 16 * i) 16 (lines i)) data

/-- internal/pack_neon.h:291-314: the sums for cells of depth 16; `padd` is `vpaddq_s16`. -/
def neonSums16 (padd : VReg → VReg → VReg) (width : Nat) (lines : Nat → VReg) (sumsPtr : Nat)
    (sums : Buf (BitVec 32)) : M (Buf (BitVec 32)) :=
  let sums2 : Nat → VReg := fun i => vaddl_s8 (lines i) (vget_high (lines i))
  let sums4 : Nat → VReg := fun i => padd (sums2 (2 * i)) (sums2 (2 * i + 1))
  if width = 4 then do
    let sum ← loadWords sums sumsPtr 4
    let sums8 := padd (sums4 0) (sums4 1)
    storeWords sums sumsPtr 4 (vpadalq_s16 sum sums8)
  else if width = 2 then do
    let sum ← loadWords sums sumsPtr 2
    let sums8 := vpadd_s16 (sums4 0) (vget_high (sums4 0))
    storeWords sums sumsPtr 2 (vpadalq_s16 sum sums8)
  else .error .assertion

/-- internal/pack_neon.h:275-317 and internal/pack_msa.h:368-424 `Pack` for one cell of depth 16 of
int8. -/
def packInt8 (sumsOf : OvMode → Nat → (Nat → VReg) → Nat → Buf (BitVec 32) → M (Buf (BitVec 32)))
    (mode : OvMode) (f : SideFormat) (mem : Mem) (src : SideMap) (startWidth : Nat)
    (ps : PackedSide) : M PackedSide := do
  let lines ← loadLines mem src f.cw
  let lines : Nat → VReg := fun i => eor80 (lines i)
  let data ← storeLines lines f.cw ps.pos ps.data
  let sums ← sumsOf mode f.cw lines startWidth ps.sums
  pure { data := data, sums := sums, pos := ps.pos + 1 * f.cellSize }

/-- internal/pack_neon.h:341-380 `Pack` for one cell of depth 16 of int8 inputs. -/
def packInt8Inputs (sumsOf : OvMode → Nat → (Nat → VReg) → Nat → Buf (BitVec 32) → M (Buf (BitVec 32)))
    (mode : OvMode) (f : SideFormat) (mem : Mem) (src : SideMap) (startWidth : Nat)
    (ps : PackedSide) : M PackedSide := do
  let lines ← loadLines mem src f.cw
  let data ← storeLines lines f.cw ps.pos ps.data
  let sums ← sumsOf mode f.cw lines startWidth ps.sums
  pure { data := data, sums := sums, pos := ps.pos + 1 * f.cellSize }

/-- Width-major source, depth-major cells of 4x2 of uint8 (internal/pack_neon.h:32-41,
internal/pack_msa.h:29-38). -/
def isDepthMajor4x2 (f : SideFormat) (src : SideMap) : Bool :=
  src.order == .widthMajor && f.cw == 4 && f.cd == 2 && f.order == .depthMajor && f.scalar == .uint8

/-- Width-major source, one width-major cell of depth 16 of int8 (internal/pack_neon.h:258-267,
internal/pack_msa.h:350-359).  Both headers assert statically that the width is 2 or 4. -/
def isInt8Fast (f : SideFormat) (src : SideMap) : Bool :=
  src.order == .widthMajor && f.cd == 16 && f.order == .widthMajor && f.cells == 1 &&
    f.scalar == .int8

/-- Width-major source, one width-major cell of depth 16 of int8 inputs (internal/pack_neon.h:320-332). -/
def isInt8InputsFast (f : SideFormat) (src : SideMap) : Bool :=
  src.order == .widthMajor && f.cd == 16 && f.order == .widthMajor && f.cells == 1 &&
    f.scalar == .int8Inputs

/-- `PackingRegisterBlock::Pack` in a build for NEON; `arm32` for 32-bit ARM. -/
def neonPacker (arm32 : Bool) : BlockPacker := fun mode f reg mem src startWidth ps =>
  if isDepthMajor4x2 f src then
    packCells4x2 vzipq_u8 neonStoreHalves neonSumsDepth f reg mem src startWidth ps
  else if isWidthMajor2 4 f src then
    packCells4x2 vzipq_u16 neonStoreHalves neonSumsWidth f reg mem src startWidth ps
  else if isInt8Fast f src then
    packInt8 (fun _ => neonSums16 (if arm32 then vpaddq_s16_32 else vpaddq_s16)) mode f mem src
      startWidth ps
  else if isInt8InputsFast f src then
    packInt8Inputs (fun _ => neonSums16 (if arm32 then vpaddq_s16_32 else vpaddq_s16)) mode f mem src
      startWidth ps
  else packBlock mode f reg mem src startWidth ps

/-! ## internal/pack_msa.h -/

/-- `__builtin_msa_ilvr_b`, `__builtin_msa_ilvl_b`, `__builtin_msa_ilvr_h`, `__builtin_msa_ilvl_h`: the
even positions of the result come from the second argument. -/
def ilvr_b (b a : VReg) : VReg := zip1B a b
def ilvl_b (b a : VReg) : VReg := zip2B a b
def ilvr_h (b a : VReg) : VReg := zip1H a b
def ilvl_h (b a : VReg) : VReg := zip2H a b
/-- `__builtin_msa_ilvr_d` -/
def ilvr_d (b a : VReg) : VReg := fun j => if j < 8 then a j else b (j - 8)
/-- `__builtin_msa_ilvl_d` -/
def ilvl_d (b a : VReg) : VReg := fun j => if j < 8 then a (8 + j) else b j
/-- `__builtin_msa_insve_d(a, 0, b)` -/
def insve_d0 (a b : VReg) : VReg := fun j => if j < 8 then b j else a j
/-- `__builtin_msa_ldi_b(0)` -/
def zeroes : VReg := fun _ => 0#8
/-- `__builtin_msa_hadd_s_h(a, b)`: the odd bytes of `a` plus the even bytes of `b`. -/
def hadd_s_h (a b : VReg) : VReg := ofH fun i =>
  (a (2 * i + 1)).signExtend 16 + (b (2 * i)).signExtend 16
/-- `__builtin_msa_hadd_u_h` -/
def hadd_u_h (a b : VReg) : VReg := ofH fun i => (a (2 * i + 1)).setWidth 16 + (b (2 * i)).setWidth 16
/-- `__builtin_msa_hadd_s_w` -/
def hadd_s_w (a b : VReg) : VReg := ofS fun i =>
  (a.h (2 * i + 1)).signExtend 32 + (b.h (2 * i)).signExtend 32
/-- `__builtin_msa_hadd_s_d` -/
def hadd_s_d (a b : VReg) : VReg := ofD fun i =>
  (a.s (2 * i + 1)).signExtend 64 + (b.s (2 * i)).signExtend 64
/-- `__builtin_msa_pckev_h(a, b)`: the even lanes of `b`, then those of `a`. -/
def pckev_h (a b : VReg) : VReg := ofH fun i => if i < 4 then b.h (2 * i) else a.h (2 * (i - 4))

/-- internal/pack_msa.h:57-84: `ilvr` and `ilvl` of bytes as one function of the index of the result. -/
def msaZipB (a b : VReg) (val : Nat) : VReg := if val = 0 then ilvr_b b a else ilvl_b b a
/-- internal/pack_msa.h:224-251 -/
def msaZipH (a b : VReg) (val : Nat) : VReg := if val = 0 then ilvr_h b a else ilvl_h b a

/-- Stores of 16 bytes for two cells each, cells `lo`, `lo + 2`, ... below `hi`
(internal/pack_msa.h:89-106, 109-116, 128-135). -/
def msaStorePairs (pair : VReg → VReg → VReg) (lo hi : Nat) (v : Nat → VReg) (st : Buf UInt8 × Nat) :
    M (Buf UInt8 × Nat) :=
  forLoop lo hi 2 (fun cell (st : Buf UInt8 × Nat) => do
    let data ← storeBytes st.1 st.2 16 (pair (v (cell + 1)) (v cell))
    pure (data, st.2 + 16)) st

/-- internal/pack_msa.h:88-136, 255-303: the low halves of all cells, then the high halves. -/
def msaStoreHalves (cells : Nat) (v : Nat → VReg) (st : Buf UInt8 × Nat) : M (Buf UInt8 × Nat) :=
  if cells % 2 = 0 then
    msaStorePairs ilvr_d 0 cells v st >>= fun st => msaStorePairs ilvl_d 0 cells v st
  else
    msaStorePairs ilvr_d 0 (cells - 1) v st >>= fun st =>
    storeBytes st.1 st.2 16 (insve_d0 (v 0) (v (cells - 1))) >>= fun data =>
    msaStorePairs ilvl_d 1 cells v (data, st.2 + 16)

/-- internal/pack_msa.h:139-171: the sums of a cell, depth-major cells. -/
def msaSumsDepth (x4 : Nat → Nat → VReg) (cell : Nat) : VReg :=
  let sums_of_2_cells : Nat → VReg := fun i =>
    vaddq_u16 (ilvr_b zeroes (x4 (2 * cell + i / 2) (i % 2)))
      (ilvl_b zeroes (x4 (2 * cell + i / 2) (i % 2)))
  let sums_of_4_cells : Nat → VReg := fun i =>
    add_epi32 (ilvr_h zeroes (sums_of_2_cells i)) (ilvl_h zeroes (sums_of_2_cells i))
  let s01 := add_epi32 (sums_of_4_cells 0) (sums_of_4_cells 1)
  let s23 := add_epi32 (sums_of_4_cells 2) (sums_of_4_cells 3)
  add_epi32 s01 s23

/-- internal/pack_msa.h:305-336: the sums of a cell, width-major cells. -/
def msaSumsWidth (x4 : Nat → Nat → VReg) (cell : Nat) : VReg :=
  let sums_of_2 : Nat → VReg := fun i =>
    hadd_u_h (x4 (2 * cell + i / 2) (i % 2)) (x4 (2 * cell + i / 2) (i % 2))
  let sums_of_4 : Nat → VReg := fun i => vaddq_u16 (sums_of_2 (2 * i)) (sums_of_2 (2 * i + 1))
  let sums_of_8 := vaddq_u16 (sums_of_4 0) (sums_of_4 1)
  add_epi32 (ilvr_h zeroes sums_of_8) (ilvl_h zeroes sums_of_8)

/-- internal/pack_msa.h:389-421: the sums for cells of depth 16.  For two columns the sums are added
as `int`. -/
def msaSums16 (mode : OvMode) (width : Nat) (lines : Nat → VReg) (sumsPtr : Nat)
    (sums : Buf (BitVec 32)) : M (Buf (BitVec 32)) :=
  let sums2 : Nat → VReg := fun i => hadd_s_h (lines i) (lines i)
  let sums4_wide : Nat → VReg := fun i => hadd_s_w (sums2 i) (sums2 i)
  let sums4 : Nat → VReg := fun i => pckev_h (sums4_wide (2 * i + 1)) (sums4_wide (2 * i))
  let sums8_wide : Nat → VReg := fun i => hadd_s_w (sums4 i) (sums4 i)
  if width = 4 then do
    let sum ← loadWords sums sumsPtr 4
    let sums8 := pckev_h (sums8_wide 1) (sums8_wide 0)
    let sums16 := hadd_s_w sums8 sums8
    storeWords sums sumsPtr 4 (add_epi32 sum sums16)
  else if width = 2 then do
    let s0 ← sums.read sumsPtr
    let s1 ← sums.read (sumsPtr + 1)
    let sums16 := hadd_s_d (sums8_wide 0) (sums8_wide 0)
    let s0 ← add32 mode s0 (sums16.s 0)
    let s1 ← add32 mode s1 (sums16.s 2)
    let sums ← sums.write sumsPtr s0
    sums.write (sumsPtr + 1) s1
  else .error .assertion

/-- `PackingRegisterBlock::Pack` in a build for MSA. -/
def msaPacker : BlockPacker := fun mode f reg mem src startWidth ps =>
  if isDepthMajor4x2 f src then
    packCells4x2 msaZipB msaStoreHalves msaSumsDepth f reg mem src startWidth ps
  else if isWidthMajor2 4 f src then
    packCells4x2 msaZipH msaStoreHalves msaSumsWidth f reg mem src startWidth ps
  else if isInt8Fast f src then packInt8 msaSums16 mode f mem src startWidth ps
  else packBlock mode f reg mem src startWidth ps

end Gemmlowp.PackSimd
