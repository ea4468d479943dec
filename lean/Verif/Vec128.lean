import Verif.AsmStore
/-!
# A machine for the NEON and MSA kernels

The kernels of internal/kernel_neon.h and internal/kernel_msa.h are inline assembly for machines
with 128-bit vector registers.  An instruction is modelled by what it does: read packed data, move a
data pointer, or set a register to a function of the registers (`Ins`).  Each instruction used has a
definition below with the name it has in the assembly, so that the kernels can be written down line
by line.  Scheduling does not matter to the meaning; instructions that only serve the loop counter or
the addresses of the destination are part of `pipe` and of `loadTiles` and `finish`.
-/
namespace Gemmlowp.Vec

open Asm (Tile)

/-- A vector register as 16 bytes, lowest first (what bytes beyond hold has no meaning). -/
abbrev VReg := Nat → BitVec 8

/-- 16-bit lane `i`. -/
def VReg.h (v : VReg) (i : Nat) : BitVec 16 := v (2 * i + 1) ++ v (2 * i)

/-- 32-bit lane `i`. -/
def VReg.s (v : VReg) (i : Nat) : BitVec 32 := v.h (2 * i + 1) ++ v.h (2 * i)

/-- The register with the given lanes of `n` bytes. -/
def ofLanes (n : Nat) (f : Nat → BitVec (8 * n)) : VReg :=
  fun j => (f (j / n)).extractLsb' (8 * (j % n)) 8

def ofH (f : Nat → BitVec 16) : VReg := ofLanes 2 f
def ofS (f : Nat → BitVec 32) : VReg := ofLanes 4 f
def ofD (f : Nat → BitVec 64) : VReg := ofLanes 8 f

/-- The pointer an access goes through. -/
inductive Ptr | lhs | rhs
  deriving DecidableEq

/-- What an instruction does. -/
inductive Ins
  /-- read `n` bytes at `off` from the pointer into register `d`, then advance the pointer by `adv`;
  `put` says where in the register they go -/
  | load (p : Ptr) (off n adv d : Nat) (put : VReg → VReg → VReg)
  /-- advance a pointer -/
  | addPtr (p : Ptr) (n : Nat)
  /-- set a register -/
  | op (d : Nat) (f : (Nat → VReg) → VReg)
  /-- set several registers at once -/
  | ops (f : (Nat → VReg) → Nat → VReg)
  /-- an encoding that is not an instruction of this machine -/
  | bad

/-- Machine state: vector registers, data pointers (as positions in their buffers), and whether all
reads so far were within the buffers.  Simplified: pointers do not wrap around. -/
structure St where
  x : Nat → VReg
  lp : Nat
  rp : Nat
  ok : Bool

/-- The memory the kernel reads. -/
structure Mem where
  lhs : Buf UInt8
  rhs : Buf UInt8

def St.setX (s : St) (d : Nat) (v : VReg) : St := { s with x := fun r => if r = d then v else s.x r }

/-- The bytes from `pos` on. -/
def bytes (b : Buf UInt8) (pos : Nat) : VReg := fun j => (b.get (pos + j)).toBitVec

/-- One instruction. -/
def step (m : Mem) (i : Ins) (s : St) : St :=
  match i with
  | .load .lhs off n adv d put =>
    { s.setX d (put (bytes m.lhs (s.lp + off)) (s.x d)) with
      lp := s.lp + adv, ok := s.ok && decide (s.lp + off + n ≤ m.lhs.size) }
  | .load .rhs off n adv d put =>
    { s.setX d (put (bytes m.rhs (s.rp + off)) (s.x d)) with
      rp := s.rp + adv, ok := s.ok && decide (s.rp + off + n ≤ m.rhs.size) }
  | .addPtr .lhs n => { s with lp := s.lp + n }
  | .addPtr .rhs n => { s with rp := s.rp + n }
  | .op d f => s.setX d (f s.x)
  | .ops f => { s with x := f s.x }
  | .bad => { s with ok := false }

/-- A straight-line part. -/
def exec (m : Mem) (l : List Ins) (s : St) : St := l.foldl (fun s i => step m i s) s

/-- The loops: `subs depth, depth, #k` has just set the zero flag; `beq after_loop`;
`loop: body` (which contains `subs depth, depth, #k`); `bne loop`; `after_loop: last`.
A counter that is no multiple of `k` wraps around and the loop runs off the buffers; this is
modelled as a fault.  `w` is the width of the counter register. -/
def pipe {w : Nat} (m : Mem) (k : Nat) (body last : List Ins) (depth : BitVec w) (s : St) : St :=
  if depth.toNat = 0 then exec m last s
  else if _h : 0 < k ∧ k ≤ depth.toNat then
    pipe m k body last (depth - BitVec.ofNat w k) (exec m body s)
  else { s with ok := false }
termination_by depth.toNat
decreasing_by
  have := depth.isLt
  have h2 : (BitVec.ofNat w k).toNat = k := by rw [BitVec.toNat_ofNat]; exact Nat.mod_eq_of_lt (by omega)
  rw [BitVec.toNat_sub, h2]
  have : 2 ^ w - k + depth.toNat = (depth.toNat - k) + 2 ^ w := by omega
  rw [this, Nat.add_mod_right, Nat.mod_eq_of_lt (by omega)]
  omega

/-- Load the accumulators from the destination (`start_depth` not 0).  Strides are in elements. -/
def loadTile (dst : Buf (BitVec 32)) (dp cs : Nat) (x : Nat → VReg) (t : Tile) : M (Nat → VReg) :=
  let pos := dp + t.row + t.col * cs
  if pos + 4 ≤ dst.size then
    .ok (fun r => if r = t.reg then ofS (fun i => dst.get (pos + i)) else x r)
  else .error .oob

def loadTiles (tiles : List Tile) (dst : Buf (BitVec 32)) (dp cs : Nat) (x : Nat → VReg) :
    M (Nat → VReg) := tiles.foldlM (loadTile dst dp cs) x

/-- A kernel that starts from the destination's values (or zeros) in its accumulators and stores them
at the end: `main` is all that lies between.  `conv` follows the loads from the destination.  `x0` are
the registers before. -/
def kernelConvFirst (loads stores : List Tile) (clear conv : List Ins) (main : Mem → Nat → St → St)
    (x0 : Nat → VReg) : KernelRun :=
  fun dst dp rs cs lhs lp rhs rp sd rd =>
    assertM (decide (rs = 1)) >>= fun _ =>
    (if sd = 0 then .ok (exec { lhs, rhs } clear { x := x0, lp, rp, ok := true })
      else loadTiles loads dst dp cs x0 >>= fun x =>
        .ok (exec { lhs, rhs } conv { x, lp, rp, ok := true })) >>= fun s =>
    let s := main { lhs, rhs } rd s
    if s.ok then Asm.finish 4 1 stores dst dp cs 0 (fun r => (s.x r).s) else .error .oob

/-- The same for a kernel that has its accumulators as they are in the destination. -/
def kernelLoadFirst (loads stores : List Tile) (clear : List Ins) (main : Mem → Nat → St → St)
    (x0 : Nat → VReg) : KernelRun := kernelConvFirst loads stores clear [] main x0

/-- A kernel that adds the destination's values at the end: after `main` and `end1` the registers of
`adds` are added to the destination, or after `main` and `end0` those of `stores` are stored.  (What is
loaded from the destination is in registers of its own, so adding to the accumulator instead is
the same.) -/
def kernelAddLast (stores adds : List Tile) (end0 end1 : List Ins) (main : Mem → Nat → St → St)
    (x0 : Nat → VReg) : KernelRun :=
  fun dst dp _rs cs lhs lp rhs rp sd rd =>
    let s := main { lhs, rhs } rd { x := x0, lp, rp, ok := true }
    let s := exec { lhs, rhs } (if sd = 0 then end0 else end1) s
    if s.ok then
      Asm.finish 4 1 (if sd = 0 then stores else adds) dst dp cs sd (fun r => (s.x r).s)
    else .error .oob

end Gemmlowp.Vec
