import Verif.Bench
/-!
# standalone/neon-gemm-kernel-benchmark.cc: the kernels for int32 and float operands

In these kernels operands, accumulators and lanes all have the same size, and the only arithmetic is
`accumulator + lhs * rhs`.  So what a word is does not matter: the model has words of any type `α` and any
operation `mac`, which may be a multiplication and addition modulo `2 ^ 32`, with two roundings or fused.
-/
namespace Gemmlowp.BenchW
open Bench

/-- standalone/neon-gemm-kernel-benchmark.cc:5594-5647 `ReferenceKernel::Run` for operands that are words.
`op a l r` is `a + l * r`, which for `int32_t` may be undefined. -/
def reference {α : Type} (op : α → α → α → M α) (k : KernelFormat) (lhs rhs accum : Buf α) (depth : Nat) :
    M (Buf α) :=
  forLoop 0 (depth / k.kDepth) 1 (fun dc acc =>
    forLoop 0 k.lhs.cells 1 (fun rc acc =>
      let lhsCell := (dc * k.lhs.cells + rc) * k.lhs.cw * k.kDepth
      forLoop 0 k.rhs.cells 1 (fun cc acc =>
        let rhsCell := (dc * k.rhs.cells + cc) * k.rhs.cw * k.kDepth
        forLoop 0 k.kDepth 1 (fun di acc =>
          forLoop 0 k.lhs.cw 1 (fun ri acc =>
            forLoop 0 k.rhs.cw 1 (fun ci acc => do
              let lo ← offsetIntoCell k.lhs ri di
              let ro ← offsetIntoCell k.rhs ci di
              let l ← lhs.read (lhsCell + lo)
              let r ← rhs.read (rhsCell + ro)
              let i := (ri + rc * k.lhs.cw) + (ci + cc * k.rhs.cw) * k.kRows
              let old ← acc.read i
              let new ← op old l r
              acc.write i new) acc) acc) acc) acc) acc) accum

/-! ## The machine -/

/-- The buffers with their padding, the accumulators on entry, and the word of zero bits. -/
structure WMem (α : Type) where
  lhs : Buf α
  rhs : Buf α
  acc : Nat → α
  zero : α

/-- Registers by words: word `i` of `q n` or `v n` is `4 * n + i`, of `d n` (32 bit) `2 * n + i`.  The general
registers used for moving words (`r2`, `r3`, `x18`) are at 128 and 129.  The pointers count words.  `ok` says that
all loads were inside of the buffers. -/
structure WSt (α : Type) where
  x : Nat → α
  lp : Nat
  rp : Nat
  ok : Bool

/-- What an instruction puts into a word. -/
inductive WTerm
  | mov (q : Nat)
  | mac (a l r : Nat)
  | acc (k : Nat)
  | zero

inductive WIns
  /-- load the word at `off` (in words) from the pointer -/
  | ld (p : Ptr) (off d : Nat)
  | adv (p : Ptr) (n : Nat)
  /-- write words, computed from the registers before the instruction -/
  | op (outs : List (Nat × WTerm))

variable {α : Type}

def setW {β : Type} (x : Nat → β) (d : Nat) (v : β) : Nat → β := fun q => if q = d then v else x q

def evalW (mac : α → α → α → α) (m : WMem α) (x : Nat → α) : WTerm → α
  | .mov q => x q
  | .mac a l r => mac (x a) (x l) (x r)
  | .acc k => m.acc k
  | .zero => m.zero

def stepW (mac : α → α → α → α) (m : WMem α) (i : WIns) (s : WSt α) : WSt α :=
  match i with
  | .ld .lhs off d => { s with
      x := setW s.x d (m.lhs.get (s.lp + off)), ok := s.ok && decide (s.lp + off < m.lhs.size) }
  | .ld .rhs off d => { s with
      x := setW s.x d (m.rhs.get (s.rp + off)), ok := s.ok && decide (s.rp + off < m.rhs.size) }
  | .adv .lhs n => { s with lp := s.lp + n }
  | .adv .rhs n => { s with rp := s.rp + n }
  | .op outs => { s with x := outs.foldl (fun y o => setW y o.1 (evalW mac m s.x o.2)) s.x }

def execW (mac : α → α → α → α) (m : WMem α) : List WIns → WSt α → WSt α
  | [], s => s
  | i :: p, s => execW mac m p (stepW mac m i s)

/-- `n` passes through a loop. -/
def passesW (mac : α → α → α → α) (m : WMem α) (p : List WIns) : Nat → WSt α → WSt α
  | 0, s => s
  | n + 1, s => passesW mac m p n (execW mac m p s)

/-- A kernel: its format, the instructions before the loop, in it, after it, and the word of the registers that is
stored to accumulator `k`. -/
structure WKern where
  F : KernelFormat
  pre : List WIns
  body : List WIns
  last : List WIns
  out : List Nat

/-- `Run` up to its stores.  The depth register is reduced by the depth of the cells in every pass and the loop left
when it is 0, so `n` cells are `n` passes if `n ≥ 1`. -/
def WKern.run (K : WKern) (mac : α → α → α → α) (m : WMem α) (n : Nat) (s : WSt α) : WSt α :=
  execW mac m K.last (passesW mac m K.body n (execW mac m K.pre s))

/-- What is stored to accumulator `k`. -/
def WKern.word (K : WKern) (s : WSt α) (k : Nat) : α := s.x (K.out.getD k 0)

/-! ## The instructions -/

/-- One value for each word of a `q`/`v` register. -/
def quad (v : Nat) (t : Nat → WTerm) : List WIns := [.op ((List.range 4).map (fun i => (4 * v + i, t i)))]

/-- `vld1.32 {d, d}, [r0]!`, `ld1 {v}, [x0], #16`: load four accumulators. -/
def ldacc (v k : Nat) : List WIns := quad v (fun i => .acc (k + i))

/-- `vld1.32 {d, d}, [p]`, `ldr q, [p, #4 off]`. -/
def ldq (v : Nat) (p : Ptr) (off : Nat) : List WIns := (List.range 4).map (fun i => .ld p (off + i) (4 * v + i))

/-- `vld1.32 {d, d}, [p]!`, `ld1 {v}, [p], #16`. -/
def ldqa (v : Nat) (p : Ptr) : List WIns := ldq v p 0 ++ [.adv p 4]

/-- `vld1.32 {d[], d[]}, [p]!`: load a word into all words of the register. -/
def ldall (v : Nat) (p : Ptr) : List WIns := (List.range 4).map (fun i => .ld p 0 (4 * v + i)) ++ [.adv p 1]

/-- `vldr d, [p, #4 off]`, `ldr x18, [p, #4 off]`, with `w` the first of the two words. -/
def ldd (w : Nat) (p : Ptr) (off : Nat) : List WIns := [.ld p off w, .ld p (off + 1) (w + 1)]

/-- The 64-bit `ldr d, [p, #4 off]`, which also clears the other half of the register. -/
def ldv (v : Nat) (p : Ptr) (off : Nat) : List WIns :=
  [.ld p off (4 * v), .ld p (off + 1) (4 * v + 1), .op [(4 * v + 2, .zero), (4 * v + 3, .zero)]]

/-- `ldr r, [p, #4 off]`. -/
def ldw (w : Nat) (p : Ptr) (off : Nat) : List WIns := [.ld p off w]

/-- `vmov d, r2, r3`, `ins v.d[1], x18`. -/
def movd (w w0 w1 : Nat) : List WIns := [.op [(w, .mov w0), (w + 1, .mov w1)]]

def add (p : Ptr) (n : Nat) : List WIns := [.adv p n]

/-- `vmla.s32/f32`, `vfma.f32`, `mla`, `fmla` with a vector. -/
def macv (d l r : Nat) : List WIns := quad d (fun i => .mac (4 * d + i) (4 * l + i) (4 * r + i))

/-- The same with the word `w` for all. -/
def macw (d l w : Nat) : List WIns := quad d (fun i => .mac (4 * d + i) (4 * l + i) w)

/-- `dup v, v.s[i]`, `vdup.32 q, d[i]`. -/
def dupw (d w : Nat) : List WIns := quad d (fun _ => .mov w)

/-- `vext.32 q, q, q, #n`. -/
def vext (d l n : Nat) : List WIns := quad d (fun i => .mov (4 * l + (i + n) % 4))

/-- `vtrn.32 q, q`. -/
def vtrn (a b : Nat) : List WIns := [.op [(4 * a + 1, .mov (4 * b)), (4 * b, .mov (4 * a + 1)),
  (4 * a + 3, .mov (4 * b + 2)), (4 * b + 2, .mov (4 * a + 3))]]

/-- `vswp d, d`. -/
def vswp (a b : Nat) : List WIns := [.op [(2 * a, .mov (2 * b)), (2 * a + 1, .mov (2 * b + 1)),
  (2 * b, .mov (2 * a)), (2 * b + 1, .mov (2 * a + 1))]]

end Gemmlowp.BenchW
