import Verif.BenchSym
/-!
# The kernels of the benchmark: loops, and a check that is sound

A kernel has a part before its loop, one or two loops, and a part after them (`Kern`).  `Kern.check` executes
each part once, symbolically, and compares: the loop keeps the form of the registers, moves on by whole
cells, and what will be stored grows by the products of these cells.
-/
namespace Gemmlowp.Bench

/-- A register with accumulators: bytes of a lane and the range of its lanes, if needed. -/
structure Acc where
  d : Nat
  n : Nat
  rng : Option (Int × Int)

/-- A kernel of the benchmark. -/
structure Kern where
  /-- `Format`; the scalar types say how bytes are read (`OperandType`) -/
  F : KernelFormat
  /-- range of the LHS -/
  lr : Int × Int
  /-- range of the RHS -/
  rr : Int × Int
  /-- the part up to the loop -/
  pre : List Ins
  /-- what is subtracted from the depth before the loop -/
  preStep : Nat
  /-- a first loop, taken while the depth is at least the number -/
  wide : Option (List Ins × Nat)
  /-- the loop -/
  body : List Ins
  /-- what the loop subtracts from the depth -/
  step : Nat
  /-- the loop is left when the depth is less than `step` (`bge`), not when it is 0 (`bne`) -/
  ge : Bool
  /-- the part after the loop -/
  last : List Ins
  /-- register and lane that are stored to each accumulator -/
  outs : List (Nat × Nat)
  /-- accumulators in registers, at the head of the loop (for the proof) -/
  accs : List Acc
  /-- registers with packed data at the head of the loop (for the proof) -/
  keep : List Nat
  /-- cells of depth finished before and after the loop (for the proof) -/
  c0 : Nat
  cl : Nat
  /-- bytes read after the end of the packed operands -/
  padL : Nat
  padR : Nat

def St.fault (s : St) : St := { s with ok := false }

/-- `loop: body; subs depth, depth, #k; bne loop`, where the test comes first (the body is not entered at
depth 0).  A depth that is no multiple of `k` makes the loop run off the buffers: a fault. -/
def loopNZ (m : Mem) (k : Nat) (body : List Ins) (depth : Nat) (s : St) : St :=
  if depth = 0 then s
  else if 0 < k ∧ k ≤ depth then loopNZ m k body (depth - k) (exec m body s)
  else s.fault
termination_by depth

/-- `cmp depth, #k; blt out; loop: body; subs depth, depth, #k; cmp depth, #k; bge loop; out:` -/
def loopGE (m : Mem) (k : Nat) (body : List Ins) (depth : Nat) (s : St) : Nat × St :=
  if 0 < k ∧ k ≤ depth then loopGE m k body (depth - k) (exec m body s) else (depth, s)
termination_by depth

/-- The first loop, if there is one, and the depth that is left. -/
def Kern.first (K : Kern) (m : Mem) (depth : Nat) (s : St) : Nat × St :=
  match K.wide with
  | some w => loopGE m w.2 w.1 depth s
  | none => (depth, s)

/-- The kernel up to its stores.  A depth less than `preStep` makes it run off the buffers, too. -/
def Kern.run (K : Kern) (m : Mem) (depth : Nat) (s : St) : St :=
  if depth < K.preStep then (exec m K.pre s).fault
  else
    let s := exec m K.pre s
    let r := K.first m (depth - K.preStep) s
    let s := if K.ge then (loopGE m K.step K.body r.1 r.2).2 else loopNZ m K.step K.body r.1 r.2
    exec m K.last s

/-- The word stored to accumulator `k`. -/
def Kern.word (K : Kern) (s : St) (k : Nat) : BitVec 32 :=
  let o := K.outs.getD k (0, 0)
  BitVec.ofNat 32 (lane 4 (s.x o.1) o.2)

/-! ## The check -/

def Mono.up (gl gr : Nat) : Mono → Mono
  | .l i => .l (i + gl)
  | .r i => .r (i + gr)
  | .p i j => .p (i + gl) (j + gr)
  | m => m

def Mono.down (gl gr : Nat) : Mono → Mono
  | .l i => .l (i - gl)
  | .r i => .r (i - gr)
  | .p i j => .p (i - gl) (j - gr)
  | m => m

def Mono.noV : Mono → Bool
  | .v _ _ => false
  | _ => true

def SV.mapMono (f : Mono → Mono) (s : SV) : SV := ⟨s.n, s.lanes.map (fun p => p.map f)⟩

/-- Offset of a coefficient from the start of the current cells. -/
def coeffOff (f : SideFormat) (w d : Nat) : Nat :=
  (d / f.cd * f.cells + w / f.cw) * f.cellSize + cellOff f (w % f.cw) (d % f.cd)

namespace Kern

def gl (K : Kern) : Nat := K.F.lhs.cells * K.F.lhs.cellSize
def gr (K : Kern) : Nat := K.F.rhs.cells * K.F.rhs.cellSize

def acc? (K : Kern) (d : Nat) : Option Acc := K.accs.find? (fun a => a.d == d)

def R (K : Kern) : Rng := ⟨K.lr.1, K.lr.2, K.rr.1, K.rr.2, fun d => (K.acc? d).bind (·.rng)⟩

def init : SSt := ⟨fun _ => none, 0, 0, 0, 0⟩

/-- After the first part. -/
def S0 (K : Kern) : SSt := sym K.R K.pre init

/-- At the head of the loop. -/
def T (K : Kern) : SSt :=
  { x := fun d => match K.acc? d with
      | some a => some ⟨a.n, (List.range (8 / a.n)).map (fun i => [.v d i])⟩
      | none => if K.keep.contains d then
          (K.S0.x d).map (SV.mapMono (Mono.down (K.c0 * K.gl) (K.c0 * K.gr))) else none
    lp := K.S0.lp - K.c0 * K.gl
    rp := K.S0.rp - K.c0 * K.gr
    hl := 0
    hr := 0 }

/-- The products of entry `(r, c)` in cells `i` to `j` of depth. -/
def prods (K : Kern) (r c i j : Nat) : Poly :=
  (List.range (K.F.kDepth * j - K.F.kDepth * i)).map (fun d =>
    .p (coeffOff K.F.lhs r (K.F.kDepth * i + d)) (coeffOff K.F.rhs c (K.F.kDepth * i + d)))

end Kern

def lanePoly (x : SRegs) (d n i : Nat) : Option Poly :=
  match x d with
  | none => none
  | some sv => if sv.n = 0 then some [] else if sv.n = n then sv.lanes[i]? else none

/-- Replace lanes at the head of the loop by what they have become. -/
def substV (K : Kern) (x : SRegs) : Poly → Option Poly
  | [] => some []
  | .v d i :: p => match K.acc? d, substV K x p with
    | some a, some q => if i < 8 / a.n then (lanePoly x d a.n i).map (· ++ q) else none
    | _, _ => none
  | _ :: _ => none

namespace Kern

/-- What will be stored to accumulator `k`, from the head of the loop on. -/
def fin (K : Kern) (k : Nat) : Option Poly :=
  let o := K.outs.getD k (0, 0)
  lanePoly (sym K.R K.last K.T).x o.1 4 o.2

/-- The accumulators in registers have their form and range. -/
def accOk (K : Kern) (S : SSt) (a : Acc) : Bool :=
  decide (a.n ≠ 0) && (List.range (8 / a.n)).all (fun i =>
    match lanePoly S.x a.d a.n i with
    | none => false
    | some p => match a.rng with
      | none => true
      | some r => within K.R p r.1 r.2)

/-- The state `S` is the one at the head of the loop, `c` cells later. -/
def moved (K : Kern) (S : SSt) (c : Nat) : Bool :=
  decide (S.lp = K.T.lp + c * K.gl) && decide (S.rp = K.T.rp + c * K.gr) &&
  K.keep.all (fun d => decide ((K.acc? d).isNone ∧
    S.x d = (K.T.x d).map (SV.mapMono (Mono.up (c * K.gl) (c * K.gr))))) &&
  K.accs.all (K.accOk S)

/-- What will be stored has become `before` and the products of cells `lo` to `c + cl`. -/
def grown (K : Kern) (S : SSt) (c lo k : Nat) (f before : Poly) : Bool :=
  match substV K S.x (f.filter (fun m => !m.noV)) with
  | none => false
  | some q => (q ++ (f.filter Mono.noV).map (Mono.up (c * K.gl) (c * K.gr))).isPerm
      (before ++ K.prods (k % K.F.kRows) (k / K.F.kRows) lo (K.cl + c))

def checkStep (K : Kern) (S : SSt) (c lo : Nat) (before : Nat → Poly → Poly) : Bool :=
  K.moved S c && decide (S.hl ≤ (c + K.cl) * K.gl + K.padL) && decide (S.hr ≤ (c + K.cl) * K.gr + K.padR) &&
  (List.range (K.F.kRows * K.F.kCols)).all (fun k =>
    match K.fin k with
    | none => false
    | some f => K.grown S c lo k f (before k f))

def checkInit (K : Kern) : Bool := K.checkStep K.S0 K.c0 0 (fun k _ => [.a k])

def checkBody (K : Kern) (b : List Ins) (step : Nat) : Bool :=
  decide (0 < step) && decide (step % K.F.kDepth = 0) &&
  K.checkStep (sym K.R b K.T) (step / K.F.kDepth) K.cl (fun _ f => f)

def checkLast (K : Kern) : Bool :=
  decide ((sym K.R K.last K.T).hl ≤ K.cl * K.gl + K.padL) && decide ((sym K.R K.last K.T).hr ≤ K.cl * K.gr + K.padR)

def check (K : Kern) : Bool :=
  decide (0 < K.F.kDepth) && decide (K.F.rhs.cd = K.F.lhs.cd) &&
  decide (K.preStep = (K.c0 + K.cl) * K.F.kDepth) &&
  decide (K.step = K.F.kDepth) && K.checkInit && K.checkBody K.body K.step && K.checkLast &&
  (match K.wide with
    | none => true
    | some w => K.checkBody w.1 w.2)

end Kern
end Gemmlowp.Bench
