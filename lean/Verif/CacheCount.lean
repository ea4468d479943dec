import Verif.Base
/-!
# standalone/cache_counters.cc: the workload and the evaluation of the counters

Not modelled: the counters of the processor (`PerfEvent`, lines 16-48; their values are arguments) and printing.
-/
namespace Gemmlowp.CacheCount

/-- Registers of the assembly in `Workload` (lines 160-190). `w0` is the state of the random generator. -/
structure Regs where
  w0 : BitVec 32
  dummy : BitVec 64
  accesses : BitVec 32
  deriving DecidableEq, Repr

/-- Lines 168-170, the three `eor` with a shifted operand. -/
def xorshift (x : BitVec 32) : BitVec 32 :=
  let a := x ^^^ (x <<< 13)
  let b := a ^^^ (a >>> 17)
  b ^^^ (b <<< 5)

/-- `ldr x1, [buf, off]`: eight bytes, little end first.  Outside of the buffer the result is undefined. -/
def load8 (buf : Array (BitVec 8)) (off : Nat) : M (BitVec 64) :=
  if h : off + 8 ≤ buf.size then
    .ok (buf[off + 7] ++ buf[off + 6] ++ buf[off + 5] ++ buf[off + 4] ++ buf[off + 3] ++ buf[off + 2] ++
      buf[off + 1] ++ buf[off])
  else .error .oob

/-- One access, as seen from outside: state of the generator, the other operand of the `eor`, place of the load. -/
structure Access where
  rng : BitVec 32
  mix : BitVec 32
  off : Nat
  deriving DecidableEq, Repr

/-- Lines 168-186, the body of the loop without the branch. -/
def body (size : BitVec 32) (buf : Array (BitVec 8)) (r : Regs) : M (Access × Regs) := do
  let w0 := xorshift r.w0
  let w1 := size - 1
  let w2 := w0 ^^^ r.dummy.setWidth 32
  let w1 := w2 &&& w1
  let w1 := w1 &&& (-64)
  let x1 ← load8 buf w1.toNat
  let dummy := r.dummy + (x1.setWidth 32).setWidth 64
  .ok (⟨w0, r.dummy.setWidth 32, w1.toNat⟩, ⟨w0, dummy, r.accesses - 1⟩)

/-- Lines 163-187, the loop: the branch is taken back unless the counter has become 0. -/
def loop (size : BitVec 32) (buf : Array (BitVec 8)) (r : Regs) : M (List Access) :=
  match body size buf r with
  | .error e => .error e
  | .ok (a, r') =>
    if r.accesses - 1 = 0 then .ok [a]
    else (loop size buf ⟨r'.w0, r'.dummy, r.accesses - 1⟩).map (a :: ·)
termination_by (r.accesses - 1).toNat
decreasing_by
  rename_i h
  have h0 : (r.accesses - 1).toNat ≠ 0 := fun h0 => h (BitVec.eq_of_toNat_eq (by simpa using h0))
  generalize r.accesses - 1 = x at *
  have h1 : (1 : BitVec 32).toNat = 1 := rfl
  have := x.isLt
  rw [BitVec.toNat_sub, h1]
  omega

/-- Lines 143-191 `Workload`, with the accesses that it makes.  `accesses` and `size` are `int`. -/
def workload (accesses size : Int) (buf : Array (BitVec 8)) : M (List Access) :=
  loop (BitVec.ofInt 32 size) buf ⟨1, 123456789, BitVec.ofInt 32 accesses⟩

/-- Lines 389-404 `main`: the sizes that are passed to `Study`.  The loop with `size *= 2`; the product is an `int`.
`fuel` bounds the number of passes; running out of it is a fault. -/
def sizes (size : Int) (fuel : Nat) : M (List Int) :=
  if size ≤ 16777216 then
    match fuel with
    | 0 => .error .diverge
    | fuel + 1 =>
      if InI32 (size * 2) then (sizes (size * 2) fuel).map (size :: ·) else .error .overflow
  else .ok []

/-- `CacheCounts`, lines 117-128, of which `Analyze` uses these. -/
structure Counts where
  llMiss : Int
  l1 : Int
  l1Refill : Int
  l2 : Int
  l2Refill : Int
  l3 : Int
  l3Refill : Int
  deriving DecidableEq, Repr

/-- `PieChart`, lines 241-251. -/
structure Pie where
  total : Int
  l1 : Int
  l2 : Int
  l3 : Int
  dram : Int
  deriving DecidableEq, Repr

/-- An `int` result; overflow is undefined. -/
def intM (x : Int) : M Int := if InI32 x then .ok x else .error .overflow

/-- Lines 269-279. -/
def hypothesis1 (c : Counts) : M Pie := do
  let total ← intM (c.l1 + c.l1Refill)
  let t ← intM (c.l1 - c.l2Refill)
  let l1 ← intM (t - c.l3Refill)
  .ok ⟨total, l1, c.l1Refill, c.l2Refill, c.l3Refill⟩

/-- Lines 281-290. -/
def hypothesis2 (c : Counts) : M Pie := do
  let l1 ← intM (c.l1 - c.l2)
  let l2 ← intM (c.l2 - c.l3)
  let l3 ← intM (c.l3 - c.l3Refill)
  .ok ⟨c.l1, l1, l2, l3, c.l3Refill⟩

/-- Lines 292-303. -/
def hypothesis3 (c : Counts) : M Pie := do
  let corrected2 := min c.l2 c.l1
  let corrected3 := min c.l3 corrected2
  let l1 ← intM (c.l1 - corrected2)
  let l2 ← intM (corrected2 - corrected3)
  let l3 ← intM (corrected3 - c.l3Refill)
  .ok ⟨c.l1, l1, l2, l3, c.l3Refill⟩

/-- Lines 305-316. -/
def hypothesis4 (c : Counts) : M Pie := do
  let l1 ← intM (c.l1 - c.l1Refill)
  let l2 ← intM (c.l1Refill - c.l2Refill)
  let l3 ← intM (c.l2Refill - c.l3Refill)
  .ok ⟨c.l1, l1, l2, l3, c.l3Refill⟩

/-- Lines 318-331. -/
def hypothesis5 (c : Counts) : M Pie := do
  let t1 ← intM (c.l1 - c.l1Refill)
  let l1 := max 0 t1
  let t2 ← intM (c.l1Refill - c.l2Refill)
  let l2 := max 0 t2
  let misses := max c.llMiss c.l3Refill
  let t3 ← intM (c.l2Refill - misses)
  let l3 := max 0 t3
  let s ← intM (l1 + l2)
  let s ← intM (s + l3)
  let s ← intM (s + misses)
  .ok ⟨s, l1, l2, l3, misses⟩

/-- Lines 253-259, the destructor of `PieChart`. -/
def check (p : Pie) : M Unit := do
  let s ← intM (p.l1 + p.l2)
  let s ← intM (s + p.l3)
  let s ← intM (s + p.dram)
  if p.total ≠ s then .error .abort else .ok ()

/-- The hypotheses in the order of `Study`, lines 359-362. -/
def hypotheses : List (Counts → M Pie) := [hypothesis5, hypothesis4, hypothesis3, hypothesis2, hypothesis1]

/-- `Study`, lines 356-387, after the measurement: every chart is filled in, printed and destroyed. -/
def study (c : Counts) : M (List Pie) :=
  hypotheses.mapM fun h => do
    let p ← h c
    check p
    .ok p

end Gemmlowp.CacheCount
