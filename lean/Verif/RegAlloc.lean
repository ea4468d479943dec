/-!
# meta/generators/neon_emitter.py, neon_emitter_64.py: bookkeeping of registers

The generators of the meta kernels get their registers from here and name in the list of clobbers what they got.  Not
modelled: parameters (`MapParameter` and the like; `FreeRegister` does nothing for them) and names as strings.
-/
namespace Gemmlowp.RegAlloc

/-- Exceptions of Python. -/
inductive PyErr
  | assertion
  | allocation
  deriving DecidableEq, Repr

/-- A physical register: a general one, or a vector register (for 32 bits a double one, of which two are a quad one). -/
inductive Cell
  | gen (n : Nat)
  | vec (n : Nat)
  deriving DecidableEq, Repr

/-- `set.add`. -/
def add (x : Nat) (s : List Nat) : List Nat := if x ∈ s then s else x :: s

/-- `set.remove` of an element that is there. -/
def remove (x : Nat) (s : List Nat) : List Nat := s.filter (· ≠ x)

/-- The first `i` in `range(lo, hi)` with the property. -/
def first (lo hi : Nat) (p : Nat → Bool) : Option Nat := (List.range' lo (hi - lo)).find? p

/-- What is asked for. -/
inductive Kind
  | double (min : Nat)
  | quad (min : Nat)
  | general
  deriving DecidableEq, Repr

/-- The sets in both classes: in use now, and ever given out (neon_emitter.py:84-90, neon_emitter_64.py:333-339; `double` or
`vector`, and `general`). -/
structure Regs where
  vec : List Nat
  vecEver : List Nat
  gen : List Nat
  genEver : List Nat
  deriving DecidableEq, Repr

/-- `__init__`. -/
def init : Regs := ⟨[], [], [], []⟩

/-! ## 32 bits -/

/-- `'r%d'`, `'d%d'`, `'q%d'`. -/
inductive Reg32
  | r (n : Nat)
  | d (n : Nat)
  | q (n : Nat)
  deriving DecidableEq, Repr

/-- neon_emitter.py:110-116 `DoubleRegister`. -/
def double32 (min : Nat) (s : Regs) : Except PyErr (Reg32 × Regs) :=
  match first min 32 (fun i => i ∉ s.vec) with
  | some i => .ok (.d i, { s with vec := add i s.vec, vecEver := add i s.vecEver })
  | none => .error .allocation

/-- neon_emitter.py:118-126 `QuadRegister`. -/
def quad32 (min : Nat) (s : Regs) : Except PyErr (Reg32 × Regs) :=
  match first min 16 (fun i => i * 2 ∉ s.vec ∧ i * 2 + 1 ∉ s.vec) with
  | some i =>
    .ok (.q i, { s with
      vec := add (i * 2 + 1) (add (i * 2) s.vec)
      vecEver := add (i * 2 + 1) (add (i * 2) s.vecEver) })
  | none => .error .allocation

/-- neon_emitter.py:128-134 `GeneralRegister`. -/
def general32 (s : Regs) : Except PyErr (Reg32 × Regs) :=
  match first 0 16 (fun i => i ∉ s.gen) with
  | some i => .ok (.r i, { s with gen := add i s.gen, genEver := add i s.genEver })
  | none => .error .allocation

/-- The three of them. -/
def alloc32 : Kind → Regs → Except PyErr (Reg32 × Regs)
  | .double min, s => double32 min s
  | .quad min, s => quad32 min s
  | .general, s => general32 s

/-- neon_emitter.py:149-168 `FreeRegister`. -/
def free32 (reg : Reg32) (s : Regs) : Except PyErr Regs :=
  match reg with
  | .r n => if n ∈ s.gen then .ok { s with gen := remove n s.gen } else .error .assertion
  | .d n => if n ∈ s.vec then .ok { s with vec := remove n s.vec } else .error .assertion
  | .q n =>
    if n * 2 ∈ s.vec then
      if n * 2 + 1 ∈ s.vec then .ok { s with vec := remove (n * 2 + 1) (remove (n * 2) s.vec) } else .error .assertion
    else .error .assertion

/-- neon_emitter.py:142-147 `Clobbers` and `DoubleClobbers`.  The order of a set does not matter. -/
def clobbers32 (s : Regs) : List Cell := s.genEver.map .gen ++ (s.vecEver.mergeSort (· ≤ ·)).map .vec

/-! ## 64 bits -/

/-- `_GeneralRegister(64, n)` and `_VectorRegister(bits, n)`. -/
inductive Reg64
  | x (n : Nat)
  | v (bits n : Nat)
  deriving DecidableEq, Repr

/-- neon_emitter_64.py:359-365 `_VectorRegisterNum`. -/
def vectorNum64 (min : Nat) (s : Regs) : Except PyErr (Nat × Regs) :=
  match first min 32 (fun i => i ∉ s.vec) with
  | some i => .ok (i, { s with vec := add i s.vec, vecEver := add i s.vecEver })
  | none => .error .allocation

/-- neon_emitter_64.py:373-379 `GeneralRegister`. -/
def general64 (s : Regs) : Except PyErr (Reg64 × Regs) :=
  match first 0 30 (fun i => i ∉ s.gen) with
  | some i => .ok (.x i, { s with gen := add i s.gen, genEver := add i s.genEver })
  | none => .error .allocation

/-- neon_emitter_64.py:367-371 `DoubleRegister`, `QuadRegister`, and the one before. -/
def alloc64 : Kind → Regs → Except PyErr (Reg64 × Regs)
  | .double min, s => (vectorNum64 min s).map fun p => (.v 64 p.1, p.2)
  | .quad min, s => (vectorNum64 min s).map fun p => (.v 128 p.1, p.2)
  | .general, s => general64 s

/-- neon_emitter_64.py:392-404 `FreeRegister`. -/
def free64 (reg : Reg64) (s : Regs) : Except PyErr Regs :=
  match reg with
  | .v _ n => if n ∈ s.vec then .ok { s with vec := remove n s.vec } else .error .assertion
  | .x n => if n ∈ s.gen then .ok { s with gen := remove n s.gen } else .error .assertion

/-- neon_emitter_64.py:387-390 `Clobbers`. -/
def clobbers64 (s : Regs) : List Cell := s.genEver.map .gen ++ s.vecEver.map .vec

/-! ## A generator -/

/-- One of the two classes. -/
structure Alloc where
  Reg : Type
  alloc : Kind → Regs → Except PyErr (Reg × Regs)
  free : Reg → Regs → Except PyErr Regs
  clobbers : Regs → List Cell

@[inherit_doc Alloc] def arm32 : Alloc := ⟨Reg32, alloc32, free32, clobbers32⟩
@[inherit_doc Alloc] def arm64 : Alloc := ⟨Reg64, alloc64, free64, clobbers64⟩

/-- What a generator does: ask for a register, or give back the one at this place of those that it holds. -/
inductive Op
  | get (k : Kind)
  | put (i : Nat)
  deriving DecidableEq, Repr

/-- The bookkeeping, the registers that the generator holds, and all that it ever got. -/
structure World (A : Alloc) where
  regs : Regs
  held : List A.Reg
  given : List A.Reg

/-- One action. -/
def step (A : Alloc) (w : World A) : Op → Except PyErr (World A)
  | .get k => do
    let (r, s) ← A.alloc k w.regs
    .ok ⟨s, r :: w.held, r :: w.given⟩
  | .put i =>
    match w.held[i]? with
    | none => .ok w
    | some r => do
      let s ← A.free r w.regs
      .ok ⟨s, w.held.eraseIdx i, w.given⟩

/-- Actions one after the other. -/
def run (A : Alloc) (ops : List Op) : Except PyErr (World A) := ops.foldlM (step A) ⟨init, [], []⟩

end Gemmlowp.RegAlloc
