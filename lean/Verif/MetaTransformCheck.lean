import Verif.MetaTransform
import Verif.MetaLane
import Verif.MetaKernelProof
/-!
# The code of the transformations, symbolically

`Kind` says what the transformations differ in.
-/
namespace Gemmlowp.MetaAsm

open Vec (VReg)



def allPars : List Par :=
  [.rangeMin, .rangeOffset, .rangeScale, .inputMin, .inputOffset, .inputScale, .outputMin, .outputOffset,
    .outputInvScale, .biasMin, .biasScale, .min, .max]

theorem mem_allPars (p : Par) : p ∈ allPars := by cases p <;> decide

/-- The contents of a register that does not change in the loop. -/
inductive CE
  | w (p : Par)
  | b (p : Par)
  | sub (p q : Par)
  deriving DecidableEq

def CE.ve : CE → VE
  | .w p => .dupW (.lin (.par p) 0 0)
  | .b p => .dupB (.lin (.par p) 0 0)
  | .sub p q => .op2 .fsub (.dupW (.lin (.par p) 0 0)) (.dupW (.lin (.par q) 0 0))

/-- What the transformations differ in: the sizes of the elements, the register that counts, the register that points
to the bias, registers that do not change, general registers that do not change in the loop, and what is
computed from an element and a bias. -/
structure Kind where
  si : Nat
  so : Nat
  ctr : X
  bp : Option X
  consts : List (Nat × CE)
  keep : List X
  expr : LE → LE → LE
  val : FloatOps → (Par → Int) → BitVec 32 → BitVec 32 → BitVec 32

def Kind.start (K : Kind) : St VE XE where
  v r := match K.consts.lookup r with
    | some c => c.ve
    | none => .reg r
  x r := .lin r 0 0
  rd := []
  wr := []
  al := []

def elemE (sz : Nat) (p : X) (i : Nat) : LE := if sz = 4 then .word (.lin p 0 (4 * i : Nat)) else .byte (.lin p 0 i)

/-- Byte `k` of result `i`. -/
def Kind.byteE (K : Kind) (i k : Nat) : LE :=
  let e := K.expr (elemE K.si .inp i) (elemE 1 (K.bp.getD .inp) i)
  if K.so = 4 then .byteOf k e else e

def readOk (K : Kind) (n : Nat) (a : XE × Nat) : Bool :=
  match a.1 with
  | .lin r 0 o =>
    (decide (r = .inp) && decide (0 ≤ o ∧ o + a.2 ≤ (K.si * n : Nat))) ||
    (decide (K.bp = some r) && decide (0 ≤ o ∧ o + a.2 ≤ n))
  | _ => false

/-- A part of the code that transforms the next `n` elements. -/
def Kind.blockOk (K : Kind) (keep : List X) (n : Nat) (l : List Ins) : Bool :=
  let s := exec sym l K.start
  sameMembers ((bytesS s.wr).map fun x => (x.1, lane x.2.1 .b x.2.2))
    ((pairs n K.so).map fun x => (.lin .out 0 (K.so * x.1 + x.2 : Nat), K.byteE x.1 x.2)) &&
  decide (s.x .inp = .lin .inp 0 (K.si * n : Nat)) && decide (s.x .out = .lin .out 0 (K.so * n : Nat)) &&
  (match K.bp with
    | some b => decide (s.x b = .lin b 0 n)
    | none => true) &&
  (K.consts.all fun c => decide (s.v c.1 = c.2.ve)) &&
  (allPars.all fun p => decide (s.x (.par p) = .lin (.par p) 0 0)) &&
  (keep.all fun r => decide (s.x r = .lin r 0 0)) &&
  (s.rd.all fun a => readOk K n a)

def Kind.bodyOk (K : Kind) (l : List Ins) : Bool :=
  let s := exec sym l K.start
  K.blockOk K.keep 16 l && decide (s.x K.ctr = .lin K.ctr 0 (-16)) && decide (s.x .flags = .lin K.ctr 0 (-16))

/-- The loop and the leftovers `r`. -/
def Kind.progOk (K : Kind) (r : Nat) (p : Prog) : Bool :=
  decide (p.skip = decide (r ≠ 0)) && decide (p.cond = .ne) &&
  (loadsFirst p.init && loadsFirst p.body && loadsFirst p.tail) && K.bodyOk p.body && K.blockOk [] r p.tail

/-- The beginning, for the transformations without rows. -/
def Kind.initOk (K : Kind) (r : Nat) (l : List Ins) : Bool :=
  let s := exec sym l symInit
  (K.consts.all fun c => decide (s.v c.1 = c.2.ve)) &&
  (allPars.all fun p => decide (s.x (.par p) = .lin (.par p) 0 0)) &&
  decide (s.x .inp = .lin .inp 0 0) && decide (s.x .out = .lin .out 0 0) &&
  decide (s.x .count = .lin .count 0 (-(r : Int))) && decide (r = 0 ∨ s.x .flags = .lin .count 0 (-(r : Int))) &&
  decide (s.rd = []) && decide (s.wr = [])

def qzKind : Kind where
  si := 4
  so := 1
  ctr := .count
  bp := none
  consts := [(4, .w .rangeMin), (5, .w .rangeOffset), (6, .w .rangeScale)]
  keep := []
  expr a _ := .satU8 (.sat16 (.f1 .fcvtzs (.f2 .fadd (.f2 .fmul (.f2 .fsub a (.parW (.lin (.par .rangeMin) 0 0)))
    (.parW (.lin (.par .rangeScale) 0 0))) (.parW (.lin (.par .rangeOffset) 0 0)))))
  val f p a _ := (satU8 (sat16 (f.toZero (f.add (f.mul (f.sub a (.ofInt 32 (p .rangeMin))) (.ofInt 32 (p .rangeScale)))
    (.ofInt 32 (p .rangeOffset)))))).zeroExtend 32

def dqKind : Kind where
  si := 1
  so := 4
  ctr := .count
  bp := none
  consts := [(4, .w .rangeMin), (5, .w .rangeOffset), (6, .w .rangeScale)]
  keep := []
  expr a _ := .f2 .fadd (.f2 .fmul (.f2 .fsub (.f1 .scvtf (.sx a)) (.parW (.lin (.par .rangeOffset) 0 0)))
    (.parW (.lin (.par .rangeScale) 0 0))) (.parW (.lin (.par .rangeMin) 0 0))
  val f p a _ := f.add (f.mul (f.sub (f.ofInt ((a.setWidth 16).signExtend 32)) (.ofInt 32 (p .rangeOffset)))
    (.ofInt 32 (p .rangeScale))) (.ofInt 32 (p .rangeMin))

def rqKind : Kind where
  si := 4
  so := 1
  ctr := .count
  bp := none
  consts := [(4, .sub .inputMin .outputMin), (6, .w .inputOffset), (7, .w .inputScale), (8, .w .outputInvScale),
    (9, .w .outputOffset)]
  keep := []
  expr a _ := .satU8 (.sat16 (.f1 .fcvtns (.f2 .fadd (.f2 .fmul (.f2 .fadd (.f2 .fmul (.f2 .fsub (.f1 .scvtf a)
    (.parW (.lin (.par .inputOffset) 0 0))) (.parW (.lin (.par .inputScale) 0 0)))
    (.f2 .fsub (.parW (.lin (.par .inputMin) 0 0)) (.parW (.lin (.par .outputMin) 0 0))))
    (.parW (.lin (.par .outputInvScale) 0 0))) (.parW (.lin (.par .outputOffset) 0 0)))))
  val f p a _ := (satU8 (sat16 (f.toNearest (f.add (f.mul (f.add (f.mul (f.sub (f.ofInt a) (.ofInt 32 (p .inputOffset)))
    (.ofInt 32 (p .inputScale))) (f.sub (.ofInt 32 (p .inputMin)) (.ofInt 32 (p .outputMin))))
    (.ofInt 32 (p .outputInvScale))) (.ofInt 32 (p .outputOffset)))))).zeroExtend 32

def mmKind : Kind where
  si := 1
  so := 1
  ctr := .count
  bp := none
  consts := [(4, .b .min), (5, .b .max)]
  keep := []
  expr a _ := .umin (.umax a (.parB (.lin (.par .min) 0 0))) (.parB (.lin (.par .max) 0 0))
  val _ p a _ :=
    let lo : BitVec 32 := (BitVec.ofInt 8 (p .min)).zeroExtend 32
    let hi : BitVec 32 := (BitVec.ofInt 8 (p .max)).zeroExtend 32
    let c := if a.toNat ≤ lo.toNat then lo else a
    if c.toNat ≤ hi.toNat then c else hi

def baKind : Kind where
  si := 1
  so := 4
  ctr := .t 0
  bp := some (.t 1)
  consts := [(8, .w .inputMin), (9, .w .inputScale), (10, .w .biasMin), (11, .w .biasScale), (12, .w .outputMin),
    (13, .w .outputInvScale), (14, .w .outputOffset)]
  keep := [.count, .bias, .rows]
  expr a b := .f1 .fcvtzs (.f2 .fadd (.f2 .fmul (.f2 .fsub (.f2 .fadd
    (.f2 .fadd (.f2 .fmul (.f1 .scvtf (.sx a)) (.parW (.lin (.par .inputScale) 0 0))) (.parW (.lin (.par .inputMin) 0 0)))
    (.f2 .fadd (.f2 .fmul (.f1 .scvtf (.sx b)) (.parW (.lin (.par .biasScale) 0 0))) (.parW (.lin (.par .biasMin) 0 0))))
    (.parW (.lin (.par .outputMin) 0 0))) (.parW (.lin (.par .outputInvScale) 0 0)))
    (.parW (.lin (.par .outputOffset) 0 0)))
  val f p a b := f.toZero (f.add (f.mul (f.sub (f.add
    (f.add (f.mul (f.ofInt ((a.setWidth 16).signExtend 32)) (.ofInt 32 (p .inputScale))) (.ofInt 32 (p .inputMin)))
    (f.add (f.mul (f.ofInt ((b.setWidth 16).signExtend 32)) (.ofInt 32 (p .biasScale))) (.ofInt 32 (p .biasMin))))
    (.ofInt 32 (p .outputMin))) (.ofInt 32 (p .outputInvScale))) (.ofInt 32 (p .outputOffset)))

def baRowOk (r : Nat) (p : Prog) : Bool :=
  let s := exec sym p.init baKind.start
  let t := exec sym p.tail baKind.start
  baKind.progOk r p &&
  (baKind.consts.all fun c => decide (s.v c.1 = c.2.ve)) &&
  (allPars.all fun p => decide (s.x (.par p) = .lin (.par p) 0 0)) &&
  ([X.inp, .out, .count, .bias, .rows].all fun r => decide (s.x r = .lin r 0 0)) &&
  decide (s.x (.t 0) = .lin .count 0 (-(r : Int))) && decide (s.x (.t 1) = .lin .bias 0 0) &&
  decide (r = 0 ∨ s.x .flags = .lin .count 0 (-(r : Int))) && decide (s.rd = []) && decide (s.wr = []) &&
  ([X.count, .bias].all fun r => decide (t.x r = .lin r 0 0)) &&
  decide (t.x .rows = .lin .rows 0 (-1)) && decide (t.x .flags = .lin .rows 0 (-1))

def baInitOk (l : List Ins) : Bool :=
  let s := exec sym l symInit
  loadsFirst l && (baKind.consts.all fun c => decide (s.v c.1 = c.2.ve)) &&
  (allPars.all fun p => decide (s.x (.par p) = .lin (.par p) 0 0)) &&
  ([X.inp, .out, .count, .bias, .rows].all fun r => decide (s.x r = .lin r 0 0)) &&
  decide (s.rd = []) && decide (s.wr = [])

theorem mm_all : ((List.range 16).all fun r => (mmProg r).any fun p => mmKind.progOk r p && mmKind.initOk r p.init) =
    true := by decide +kernel

theorem qz_all : ((List.range 16).all fun r => (qzProg r).any fun p => qzKind.progOk r p && qzKind.initOk r p.init) =
    true := by decide +kernel

theorem rq_all : ((List.range 16).all fun r => (rqProg r).any fun p => rqKind.progOk r p && rqKind.initOk r p.init) =
    true := by decide +kernel

theorem dq_all : ((List.range 16).all fun r => (dqProg r).any fun p => dqKind.progOk r p && dqKind.initOk r p.init) =
    true := by decide +kernel

theorem ba_all : ((List.range 16).all fun r => (baProg r).any fun p => baInitOk p.init && baRowOk r p.row) = true := by
  decide +kernel

end Gemmlowp.MetaAsm
