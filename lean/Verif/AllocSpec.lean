import Verif.Alloc
/-!
# What a client of the allocator may rely on, in terms of the calls made so far

All definitions here look only at the history of calls (most recent first).
-/
namespace Gemmlowp

/-- A reservation: which call of `Reserve` it was, the element type and the number of elements. -/
structure ABlock where
  serial : Nat
  type : TypeId
  n : Nat
  deriving DecidableEq, Repr

/-- Bytes the client asked for. -/
def ABlock.bytes (b : ABlock) : Nat := b.n * b.type.size

/-- The last `Commit` has not been followed by a `Decommit`. -/
def committedIn : List AOp → Bool
  | [] => false
  | .commit _ :: _ => true
  | .decommit :: _ => false
  | _ :: h => committedIn h

/-- Number of calls of `Reserve`. -/
def reserveCount : List AOp → Nat
  | [] => 0
  | .reserve _ _ :: h => reserveCount h + 1
  | _ :: h => reserveCount h

/-- Number of calls of `Decommit`. -/
def decommitCount : List AOp → Nat
  | [] => 0
  | .decommit :: h => decommitCount h + 1
  | _ :: h => decommitCount h

/-- The reservations made since the last `Decommit`, most recent first. -/
def liveBlocks : List AOp → List ABlock
  | [] => []
  | .decommit :: _ => []
  | .reserve t n :: h => ⟨reserveCount h, t, n⟩ :: liveBlocks h
  | _ :: h => liveBlocks h

/-- Whether the protocol described at internal/allocator.h:29-38 allows a call. -/
def allowed (h : List AOp) : AOp → Prop
  | .reserve _ _ => committedIn h = false ∧ (liveBlocks h).length < 5
  | .commit _ => committedIn h = false
  | .decommit => committedIn h = true
  | .get t k => committedIn h = true ∧ ∃ n, (⟨k, t, n⟩ : ABlock) ∈ liveBlocks h

/-- Bytes needed by the blocks when each is rounded up to whole cache lines. -/
def needBytes : List ABlock → Nat
  | [] => 0
  | b :: bs => needBytes bs + (b.bytes + 63) / 64 * 64

end Gemmlowp
