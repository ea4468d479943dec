import Verif.MetaColProof
import Verif.MetaKernelProof
import Verif.MetaLane
import Verif.MetaStreamsRow32
import Verif.MetaStreamsCol32
import Verif.MetaKernels32
/-!
# The packing code and the kernels for 32-bit ARM, symbolically

The loops are those for 64-bit ARM; the ends differ.
-/
namespace Gemmlowp.MetaAsm

open Vec (VReg)

/-! ## Packing -/

/-- The word for lane `i`: the sum of its eight partial sums times the one offset plus the other. -/
def sumL (i : Nat) : LE :=
  let h j := LE.other (.reg (8 + i)) .h j
  .add (.mul (.add (.add (.add (h 0) (h 1)) (.add (h 2) (h 3))) (.add (.add (h 4) (h 5)) (.add (h 6) (h 7))))
    (.parW (.lin .mulSum 0 0))) (.parW (.lin .addSum 0 0))

/-- The register that gives bytes `8 * i` to `8 * i + 7`. -/
def redE (l : List Ins) (i : Nat) : VE := (((exec sym l symInit).wr.reverse[2 * i]?).map (·.v)).getD .zero

def redOk32 (n : Nat) (l : List Ins) : Bool :=
  let s := exec sym l symInit
  decide (s.rd = []) && decide (s.wr = chunkWrS (redE l) (2 * groups n)) &&
  (List.range n).all fun i => decide (lane (redE l (i / 2)) .s (i % 2) = sumL i)

/-- What must be a multiple of what for the aligned accesses. -/
def packMult32 (n : Nat) : List (X × Nat) := [(.out, Nat.gcd 32 (8 * n))]

theorem rows32_all : ((List.range 8).all fun n => (List.range 8).all fun L =>
    (row32Prog (n + 1) L).any fun p =>
      rowOk (n + 1) L p.code && redOk32 (n + 1) p.code.red && alOk (packMult32 (n + 1)) p.code) = true := by
  decide +kernel

theorem cols32_all : ((List.range 8).all fun n => (List.range 8).all fun L =>
    (col32Prog (n + 1) L).any fun p =>
      colOk (n + 1) L p.code && redOk32 (n + 1) p.code.red && alOk (packMult32 (n + 1)) p.code) = true := by
  decide +kernel

/-! ## Multiplying -/

/-- An entry before it is converted to the type of the result. -/
def totalL (n i j : Nat) : LE :=
  let a t := LE.other (.reg (i * n + j)) .s t
  .add (.add (.add (.add (a 0) (a 1)) (.add (a 2) (a 3))) (.word (.lin .lhs 0 (4 * i : Nat)))) (.word (.lin .rhs 0 (4 * j : Nat)))

def q8L (n i j : Nat) : LE :=
  .satU8 (.sat16 (.sshl (.add (.mul (totalL n i j) (.parW (.lin .mulOffset 0 0))) (.parW (.lin .rounding 0 0)))
    (.parW (.lin .shift 0 0))))

def f32L (n i j : Nat) : LE := .f2 .fmul (.f1 .scvtf (totalL n i j)) (.parW (.lin .scale 0 0))

/-- The bytes stored, as lanes. -/
def bytesL (l : List (Write VE XE)) : List (XE × LE) := (bytesS l).map fun x => (x.1, lane x.2.1 .b x.2.2)

/-- The words stored. -/
def wordsL (l : List (Write VE XE)) : List (XE × LE) := l.map fun w => (w.addr, lane w.v .s w.lane)

def q8TailOk32 (m n : Nat) (l : List Ins) : Bool :=
  let s := exec sym l symInit
  kernReads 16 (16 * groups n) s.rd &&
  sameMembers (bytesL s.wr) ((pairs m n).map fun x => (.lin .result x.1 x.2, q8L n x.1 x.2))

def wordTailOk32 (e : Nat → Nat → Nat → LE) (m n : Nat) (l : List Ins) : Bool :=
  let s := exec sym l symInit
  kernReads 16 (16 * groups n) s.rd && (s.wr.all fun w => decide (w.size = 4)) &&
  sameMembers (wordsL s.wr) ((pairs m n).map fun x => (.lin .result x.1 (4 * x.2 : Nat), e n x.1 x.2))

def mulMult32 (m n : Nat) : List (X × Nat) := [(.lhs, Nat.gcd 32 (8 * m)), (.rhs, Nat.gcd 32 (8 * n))]

theorem q8_32_all : (kernSizes.all fun x => (q8_32Prog x.1 x.2).any fun p =>
    kernOk x.1 x.2 p.code && q8TailOk32 x.1 x.2 p.code.tail && alOk (mulMult32 x.1 x.2) p.code) = true := by
  decide +kernel

theorem i32_32_all : (kernSizes.all fun x => (i32_32Prog x.1 x.2).any fun p =>
    kernOk x.1 x.2 p.code && wordTailOk32 totalL x.1 x.2 p.code.tail && alOk (mulMult32 x.1 x.2) p.code) = true := by
  decide +kernel

theorem f32_32_all : (kernSizes.all fun x => (f32_32Prog x.1 x.2).any fun p =>
    kernOk x.1 x.2 p.code && wordTailOk32 f32L x.1 x.2 p.code.tail && alOk (mulMult32 x.1 x.2) p.code) = true := by
  decide +kernel

end Gemmlowp.MetaAsm
