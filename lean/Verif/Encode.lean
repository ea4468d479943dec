import Verif.Base

/-!
# The udot/sdot encoder of standalone/encode.py

The regular expressions that recognise an instruction in a line of text (standalone/encode.py:33-35
and 53-55) are not modelled: a line comes with the instruction that its text shows and with the
`.word` directives in front of it.  Everything the script does after the match is modelled.
-/

namespace Gemmlowp

/-- An instruction one of the two regular expressions of standalone/encode.py has matched: the
vector form `[us]dot vA.4s, vN.16b, vM.16b` (lines 33-35) or the element form
`[us]dot vA.4s, vN.16b, vM.4b[k]` (lines 53-55).  `u` tells `udot` from `sdot`; the numbers are the
decimal numbers in the text, of any size. -/
inductive DotIns
  | vector (u : Bool) (accum lhs rhs : Nat)
  | element (u : Bool) (accum lhs rhs lanegroup : Nat)
  deriving DecidableEq, Repr

/-- standalone/encode.py:40, 60: `unsigned = 1 if m.group(1) == 'u' else 0`. -/
def unsignedBit (u : Bool) : Nat := if u then 1 else 0

/-- standalone/encode.py:32-49, after the match. -/
def encodeVector (u : Bool) (accum lhs rhs : Nat) : M Nat := do
  assertM (decide (accum ≤ 31))
  assertM (decide (lhs ≤ 31))
  assertM (decide (rhs ≤ 31))
  pure (0x4e809400 ||| (accum <<< 0) ||| (lhs <<< 5) ||| (rhs <<< 16) ||| (unsignedBit u <<< 29))

/-- standalone/encode.py:52-74, after the match. -/
def encodeElement (u : Bool) (accum lhs rhs lanegroup : Nat) : M Nat := do
  assertM (decide (accum ≤ 31))
  assertM (decide (lhs ≤ 31))
  assertM (decide (rhs ≤ 31))
  assertM (decide (lanegroup ≤ 3))
  let l := if lanegroup &&& 1 ≠ 0 then 1 else 0
  let h := if lanegroup &&& 2 ≠ 0 then 1 else 0
  pure (0x4f80e000 ||| (accum <<< 0) ||| (lhs <<< 5) ||| (rhs <<< 16) ||| (l <<< 21) |||
    (h <<< 11) ||| (unsignedBit u <<< 29))

/-- standalone/encode.py:77-82.  A text matches one of the two expressions only: behind the last
register stands `16b` or `4b`. -/
def encodeDot : DotIns → M Nat
  | .vector u accum lhs rhs => encodeVector u accum lhs rhs
  | .element u accum lhs rhs lanegroup => encodeElement u accum lhs rhs lanegroup

/-- A line of the input: the `.word 0x..  // ` directives in front of the instruction, in the order
of the text and written the way the script writes them, and the instruction that the line shows, if
it shows one.  The rest of the text is never changed. -/
structure EncLine where
  words : List Nat
  ins : Option DotIns
  deriving DecidableEq, Repr

/-- standalone/encode.py:85-89: the first `.word` of the line, or 0. -/
def readExisting (l : EncLine) : Nat := l.words.headD 0

/-- standalone/encode.py:113-114: `line.replace('.word OLD  // INS', '.word NEW  // INS')`.  Only the
directive that stands directly before the instruction can match. -/
def replaceWord (old new : Nat) (l : EncLine) : EncLine :=
  if l.words.getLast? = some old then { l with words := l.words.dropLast ++ [new] } else l

/-- What the script has noted so far: lines 101-103. -/
structure EncNotes where
  foundExisting : Bool
  foundError : Bool
  foundFixes : Bool
  deriving DecidableEq, Repr

/-- standalone/encode.py:104-123: one turn of the loop; the line written and the notes. -/
def encodeLine (fix : Bool) (s : EncNotes) (l : EncLine) : M (EncLine × EncNotes) :=
  match l.ins with
  | none => .ok (l, s)
  | some i =>
    encodeDot i >>= fun mcode =>
    if mcode = 0 then .ok (l, s)
    else if readExisting l ≠ 0 then
      if mcode ≠ readExisting l then
        if fix then
          .ok (replaceWord (readExisting l) mcode l,
            { s with foundExisting := true, foundFixes := true })
        else .ok (l, { s with foundExisting := true, foundError := true })
      else .ok (l, { s with foundExisting := true })
    else .ok ({ l with words := l.words ++ [mcode] }, s)

/-- The loop of standalone/encode.py:104-123. -/
def encodeLines (fix : Bool) : EncNotes → List EncLine → M (List EncLine × EncNotes)
  | s, [] => .ok ([], s)
  | s, l :: ls =>
    encodeLine fix s l >>= fun (l', s') =>
    encodeLines fix s' ls >>= fun (ls', s'') => .ok (l' :: ls', s'')

/-- standalone/encode.py:100-125: the lines written and the exit status. -/
def encodeMain (fix : Bool) (ls : List EncLine) : M (List EncLine × Nat) :=
  encodeLines fix ⟨false, false, false⟩ ls >>= fun (ls', s) =>
  .ok (ls', if s.foundError then 1 else 0)

/-! ## The encodings in the sources -/

/-- internal/kernel_neon.h:1781-1853: the 48 `.word` directives, each with the
instruction in its comment. -/
def kernelWords : List (DotIns × Nat) :=
  [(.element true 8 2 0 0, 0x6f80e048), (.element true 9 2 0 1, 0x6fa0e049),
   (.element true 10 2 0 2, 0x6f80e84a), (.element true 11 2 0 3, 0x6fa0e84b),
   (.element true 12 2 1 0, 0x6f81e04c), (.element true 13 2 1 1, 0x6fa1e04d),
   (.element true 14 2 1 2, 0x6f81e84e), (.element true 15 2 1 3, 0x6fa1e84f),
   (.element true 16 3 0 0, 0x6f80e070), (.element true 17 3 0 1, 0x6fa0e071),
   (.element true 18 3 0 2, 0x6f80e872), (.element true 19 3 0 3, 0x6fa0e873),
   (.element true 20 3 1 0, 0x6f81e074), (.element true 21 3 1 1, 0x6fa1e075),
   (.element true 22 3 1 2, 0x6f81e876), (.element true 23 3 1 3, 0x6fa1e877),
   (.element true 24 4 0 0, 0x6f80e098), (.element true 25 4 0 1, 0x6fa0e099),
   (.element true 26 4 0 2, 0x6f80e89a), (.element true 27 4 0 3, 0x6fa0e89b),
   (.element true 28 4 1 0, 0x6f81e09c), (.element true 29 4 1 1, 0x6fa1e09d),
   (.element true 30 4 1 2, 0x6f81e89e), (.element true 31 4 1 3, 0x6fa1e89f),
   (.element true 8 2 0 0, 0x6f80e048), (.element true 9 2 0 1, 0x6fa0e049),
   (.element true 10 2 0 2, 0x6f80e84a), (.element true 11 2 0 3, 0x6fa0e84b),
   (.element true 12 2 1 0, 0x6f81e04c), (.element true 13 2 1 1, 0x6fa1e04d),
   (.element true 14 2 1 2, 0x6f81e84e), (.element true 15 2 1 3, 0x6fa1e84f),
   (.element true 16 3 0 0, 0x6f80e070), (.element true 17 3 0 1, 0x6fa0e071),
   (.element true 18 3 0 2, 0x6f80e872), (.element true 19 3 0 3, 0x6fa0e873),
   (.element true 20 3 1 0, 0x6f81e074), (.element true 21 3 1 1, 0x6fa1e075),
   (.element true 22 3 1 2, 0x6f81e876), (.element true 23 3 1 3, 0x6fa1e877),
   (.element true 24 4 0 0, 0x6f80e098), (.element true 25 4 0 1, 0x6fa0e099),
   (.element true 26 4 0 2, 0x6f80e89a), (.element true 27 4 0 3, 0x6fa0e89b),
   (.element true 28 4 1 0, 0x6f81e09c), (.element true 29 4 1 1, 0x6fa1e09d),
   (.element true 30 4 1 2, 0x6f81e89e), (.element true 31 4 1 3, 0x6fa1e89f)]

/-- standalone/neon-gemm-kernel-benchmark.cc:2644-3628: the 112 `.word`
directives, each with the instruction in its comment. -/
def benchmarkWords : List (DotIns × Nat) :=
  [(.vector true 16 4 0, 0x6e809490), (.vector true 17 4 1, 0x6e819491),
   (.vector true 18 4 2, 0x6e829492), (.vector true 19 4 3, 0x6e839493),
   (.vector true 20 5 0, 0x6e8094b4), (.vector true 21 5 1, 0x6e8194b5),
   (.vector true 22 5 2, 0x6e8294b6), (.vector true 23 5 3, 0x6e8394b7),
   (.vector true 24 6 0, 0x6e8094d8), (.vector true 25 6 1, 0x6e8194d9),
   (.vector true 26 6 2, 0x6e8294da), (.vector true 27 6 3, 0x6e8394db),
   (.vector true 28 7 0, 0x6e8094fc), (.vector true 29 7 1, 0x6e8194fd),
   (.vector true 30 7 2, 0x6e8294fe), (.vector true 31 7 3, 0x6e8394ff),
   (.vector true 16 12 8, 0x6e889590), (.vector true 17 12 9, 0x6e899591),
   (.vector true 18 12 10, 0x6e8a9592), (.vector true 19 12 11, 0x6e8b9593),
   (.vector true 20 13 8, 0x6e8895b4), (.vector true 21 13 9, 0x6e8995b5),
   (.vector true 22 13 10, 0x6e8a95b6), (.vector true 23 13 11, 0x6e8b95b7),
   (.vector true 24 14 8, 0x6e8895d8), (.vector true 25 14 9, 0x6e8995d9),
   (.vector true 26 14 10, 0x6e8a95da), (.vector true 27 14 11, 0x6e8b95db),
   (.vector true 28 15 8, 0x6e8895fc), (.vector true 29 15 9, 0x6e8995fd),
   (.vector true 30 15 10, 0x6e8a95fe), (.vector true 31 15 11, 0x6e8b95ff),
   (.vector true 16 4 0, 0x6e809490), (.vector true 17 4 1, 0x6e819491),
   (.vector true 18 4 2, 0x6e829492), (.vector true 19 4 3, 0x6e839493),
   (.vector true 20 5 0, 0x6e8094b4), (.vector true 21 5 1, 0x6e8194b5),
   (.vector true 22 5 2, 0x6e8294b6), (.vector true 23 5 3, 0x6e8394b7),
   (.vector true 24 6 0, 0x6e8094d8), (.vector true 25 6 1, 0x6e8194d9),
   (.vector true 26 6 2, 0x6e8294da), (.vector true 27 6 3, 0x6e8394db),
   (.vector true 28 7 0, 0x6e8094fc), (.vector true 29 7 1, 0x6e8194fd),
   (.vector true 30 7 2, 0x6e8294fe), (.vector true 31 7 3, 0x6e8394ff),
   (.vector true 16 4 0, 0x6e809490), (.vector true 17 4 1, 0x6e819491),
   (.vector true 18 4 2, 0x6e829492), (.vector true 19 4 3, 0x6e839493),
   (.vector true 20 5 0, 0x6e8094b4), (.vector true 21 5 1, 0x6e8194b5),
   (.vector true 22 5 2, 0x6e8294b6), (.vector true 23 5 3, 0x6e8394b7),
   (.vector true 24 6 0, 0x6e8094d8), (.vector true 25 6 1, 0x6e8194d9),
   (.vector true 26 6 2, 0x6e8294da), (.vector true 27 6 3, 0x6e8394db),
   (.vector true 28 7 0, 0x6e8094fc), (.vector true 29 7 1, 0x6e8194fd),
   (.vector true 30 7 2, 0x6e8294fe), (.vector true 31 7 3, 0x6e8394ff),
   (.element true 8 2 0 0, 0x6f80e048), (.element true 9 2 0 1, 0x6fa0e049),
   (.element true 10 2 0 2, 0x6f80e84a), (.element true 11 2 0 3, 0x6fa0e84b),
   (.element true 12 2 1 0, 0x6f81e04c), (.element true 13 2 1 1, 0x6fa1e04d),
   (.element true 14 2 1 2, 0x6f81e84e), (.element true 15 2 1 3, 0x6fa1e84f),
   (.element true 16 3 0 0, 0x6f80e070), (.element true 17 3 0 1, 0x6fa0e071),
   (.element true 18 3 0 2, 0x6f80e872), (.element true 19 3 0 3, 0x6fa0e873),
   (.element true 20 3 1 0, 0x6f81e074), (.element true 21 3 1 1, 0x6fa1e075),
   (.element true 22 3 1 2, 0x6f81e876), (.element true 23 3 1 3, 0x6fa1e877),
   (.element true 24 4 0 0, 0x6f80e098), (.element true 25 4 0 1, 0x6fa0e099),
   (.element true 26 4 0 2, 0x6f80e89a), (.element true 27 4 0 3, 0x6fa0e89b),
   (.element true 28 4 1 0, 0x6f81e09c), (.element true 29 4 1 1, 0x6fa1e09d),
   (.element true 30 4 1 2, 0x6f81e89e), (.element true 31 4 1 3, 0x6fa1e89f),
   (.element true 8 2 0 0, 0x6f80e048), (.element true 9 2 0 1, 0x6fa0e049),
   (.element true 16 3 0 0, 0x6f80e070), (.element true 17 3 0 1, 0x6fa0e071),
   (.element true 10 2 0 2, 0x6f80e84a), (.element true 11 2 0 3, 0x6fa0e84b),
   (.element true 12 2 1 0, 0x6f81e04c), (.element true 13 2 1 1, 0x6fa1e04d),
   (.element true 14 2 1 2, 0x6f81e84e), (.element true 15 2 1 3, 0x6fa1e84f),
   (.element true 18 3 0 2, 0x6f80e872), (.element true 19 3 0 3, 0x6fa0e873),
   (.element true 20 3 1 0, 0x6f81e074), (.element true 21 3 1 1, 0x6fa1e075),
   (.element true 22 3 1 2, 0x6f81e876), (.element true 23 3 1 3, 0x6fa1e877),
   (.element true 24 4 0 0, 0x6f80e098), (.element true 25 4 0 1, 0x6fa0e099),
   (.element true 26 4 0 2, 0x6f80e89a), (.element true 27 4 0 3, 0x6fa0e89b),
   (.element true 28 4 1 0, 0x6f81e09c), (.element true 29 4 1 1, 0x6fa1e09d),
   (.element true 30 4 1 2, 0x6f81e89e), (.element true 31 4 1 3, 0x6fa1e89f)]

end Gemmlowp
