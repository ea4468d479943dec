import Verif.MetaAsm
/-!
# The generated 32-bit ARM code of meta/

The instructions of meta/streams_arm_32.h, meta/quantized_mul_kernels_arm_32.h and meta/transform_kernels_arm_32.h, as
data.  There, a register of 128 bits, `qN`, is also two of 64 bits: `d(2N)` is its low half, `d(2N+1)` its high half.
`Ins32.code` says what each instruction does in terms of the machine of `Verif.MetaAsm`, whose vector register `N` is
`qN`; its registers from 90 on do not exist, they are for intermediate results.  Prefetch hints (`pld`) change nothing
and are left out.
-/
namespace Gemmlowp.MetaAsm

/-- Registers are given by their numbers: `q` for `qN`, `d` for `dN`. -/
inductive Ins32
  /-- `vld1.T {d, …}, [p:al]`; `al` in bytes, 0: no `:al` -/
  | vld1 (ds : List Nat) (p : X) (al : Nat) (adv : Adv)
  /-- `vld1.8 {d[i]}`, `vld1.16 {d[i]}`, `vld1.32 {d[i]}`, `vld3.8 {d[i], d[i], d[i]}`: lanes of `sz` bytes -/
  | vldLane (sz lane : Nat) (ds : List Nat) (p : X) (adv : Adv)
  /-- `vst1.T {d, …}, [p:al]` with elements of `sz` bytes -/
  | vst1 (sz : Nat) (ds : List Nat) (p : X) (al : Nat) (adv : Adv)
  /-- `vst1.8 {d[i]}`, … -/
  | vstLane (sz lane d : Nat) (p : X) (adv : Adv)
  /-- `subs r, r, #n` -/
  | subs (r : X) (n : Nat)
  /-- `sub r, r, #n` -/
  | sub (r : X) (n : Nat)
  /-- `add d, a, b` -/
  | addX (d a b : X)
  /-- `ldr r, %[operand]`: the operand is in memory -/
  | ldr (d a : X)
  /-- `mov d, a` -/
  | movX (d a : X)
  /-- `vmov.T q, #0` -/
  | zeroQ (q : Nat)
  /-- `vmov.T d, #0` -/
  | zeroD (d : Nat)
  /-- `vmov.T q, q` -/
  | movQ (q a : Nat)
  /-- `vmov.32 d[0], r` -/
  | ins (d : Nat) (r : X)
  /-- `vdup.32 q, r` -/
  | dupW (q : Nat) (r : X)
  /-- `vdup.8 q, r` -/
  | dupB (q : Nat) (r : X)
  /-- `vdup.32 q, d[i]` -/
  | dupLane (q d lane : Nat)
  /-- `vmul.i32 q, q, d[i]` -/
  | mulLane (q a d lane : Nat)
  /-- `vpaddl.u16 q, q`; `vcvt.f32.s32 q, q`; `vcvt.s32.f32 q, q` -/
  | qq (o : Op1) (q a : Nat)
  /-- `vmovl.u8 q, d`; `vmovl.s16 q, d` -/
  | qd (o : Op1) (q a : Nat)
  /-- `vqmovn.s32 d, q`; `vqmovun.s16 d, q` -/
  | dq (o : Op1) (d a : Nat)
  /-- `vadd.i32 q, q, q`, …; `vpadal.u16 q, q` has its destination as the first source -/
  | qqq (o : Op2) (q a b : Nat)
  /-- `vaddw.u8 q, q, d` -/
  | qqd (o : Op2) (q a b : Nat)
  /-- `vmull.u8 q, d, d` -/
  | qdd (o : Op2) (q a b : Nat)
  /-- `vpadd.u32 d, d, d` -/
  | ddd (o : Op2) (d a b : Nat)
  /-- `vtrn.T d, d'` and `vuzp.8 d, d'`: both registers change -/
  | perm (o o' : Op2) (d d' : Nat)
  deriving DecidableEq, Repr

/-- `d` to the intermediate register `t`. -/
def readD (t d : Nat) : Ins := .op1 (if d % 2 = 0 then .lo else .hi) t (d / 2)

/-- The intermediate register `t` to `d`; the other half stays. -/
def writeD (d t : Nat) : List Ins :=
  if d % 2 = 0 then [.op1 .hi 90 (d / 2), .op2 .join (d / 2) t 90] else [.op1 .lo 90 (d / 2), .op2 .join (d / 2) 90 t]

/-- The intermediate registers for a list of registers. -/
def temps (ds : List Nat) : List Nat := (List.range ds.length).map (100 + ·)

def readDs (ds : List Nat) : List Ins := ds.zipIdx.map fun x => readD (100 + x.2) x.1

def writeDs (ds : List Nat) : List Ins := ds.zipIdx.flatMap fun x => writeD x.1 (100 + x.2)

def alignIns (p : X) (al : Nat) : List Ins := if al = 0 then [] else [.align p al]

def Ins32.code : Ins32 → List Ins
  | .vld1 ds p al adv => alignIns p al ++ [.ld1 8 (temps ds) p adv] ++ writeDs ds
  | .vldLane sz lane ds p adv => readDs ds ++ [.ldLane sz lane (temps ds) p adv] ++ writeDs ds
  | .vst1 sz ds p al adv => alignIns p al ++ readDs ds ++ [.st1 sz (8 / sz) (temps ds) p adv]
  | .vstLane sz lane d p adv => [readD 100 d, .stLane sz lane 100 p adv]
  | .subs r n => [.subs r n]
  | .sub r n => [.sub r n]
  | .addX d a b => [.addX d a b]
  | .ldr d a => [.ldr d a]
  | .movX d a => [.movX d a]
  | .zeroQ q => [.movi q]
  | .zeroD d => [.movi 100] ++ writeD d 100
  | .movQ q a => [.mov q a]
  | .ins d r => if d % 2 = 0 then [.ins (d / 2) r] else [readD 100 d, .ins 100 r] ++ writeD d 100
  | .dupW q r => [.dupW q r]
  | .dupB q r => [.dupB q r]
  | .dupLane q d lane => [.dupLane q (d / 2) (2 * (d % 2) + lane)]
  | .mulLane q a d lane => [.mulLane q a (d / 2) (2 * (d % 2) + lane)]
  | .qq o q a => [.op1 o q a]
  | .qd o q a => [readD 100 a, .op1 o q 100]
  | .dq o d a => [.op1 o 100 a] ++ writeD d 100
  | .qqq o q a b => [.op2 o q a b]
  | .qqd o q a b => [readD 100 b, .op2 o q a 100]
  | .qdd o q a b => [readD 100 a, readD 101 b, .op2 o q 100 101]
  | .ddd o d a b => [readD 100 a, readD 101 b, .op2 o 102 100 101] ++ writeD d 102
  | .perm o o' d d' =>
    [readD 100 d, readD 101 d', .op2 o 102 100 101, .op2 o' 103 100 101] ++ writeD d 102 ++ writeD d' 103

/-- The shape of the code, as `Prog`. -/
structure Prog32 where
  init : List Ins32
  skip : Bool
  body : List Ins32
  cond : Cond
  tail : List Ins32
  deriving DecidableEq, Repr

def Prog32.code (p : Prog32) : Prog where
  init := p.init.flatMap Ins32.code
  skip := p.skip
  body := p.body.flatMap Ins32.code
  cond := p.cond
  tail := p.tail.flatMap Ins32.code

end Gemmlowp.MetaAsm
