import Verif.Base
import Verif.KernelSelect
/-!
# test/test.h: the random matrices of the tests
-/
namespace Gemmlowp.TestRandom

/-- The offset of an element of a `Matrix` of the tests, whose stride is its number of rows or columns
(test.h:80; public/map.h:60-65). -/
def offset (colMajor : Bool) (rows cols r c : Nat) : Nat := if colMajor then r + c * rows else r * cols + c

/-- The body of the loops, test.h:113 and test.h:126: the element gets the value `f k` of draw `k`.  Outside of the
storage the store is undefined. -/
def step (f : Nat → Int) (colMajor : Bool) (rows cols c : Nat) (s : List Int × Nat) (r : Nat) : M (List Int × Nat) :=
  let i := offset colMajor rows cols r c
  if i < s.1.length then .ok (s.1.set i (f s.2), s.2 + 1) else .error .oob

/-- The loops, test.h:111-115 and test.h:124-128: the storage, and the number of draws. -/
def fill (f : Nat → Int) (colMajor : Bool) (rows cols : Nat) (storage : List Int) : M (List Int × Nat) :=
  (List.range cols).foldlM (fun s c => (List.range rows).foldlM (step f colMajor rows cols c) s) (storage, 0)

/-- The conversion of an `int` to `std::int8_t` or `std::uint8_t`. -/
def toScalar (signed : Bool) (x : Int) : Int := if signed then x.bmod 256 else x % 256

/-- test.h:107-116 `MakeRandom` with MSVC; `random k` is the result of call `k` of `Random` (test.h:100-103).
`%` of `int` rounds to zero. -/
def makeRandomMsvc (range : OperandRange) (signed : Bool) (random : Nat → Int) (colMajor : Bool) (rows cols : Nat)
    (storage : List Int) : M (List Int × Nat) :=
  fill (fun k => toScalar signed ((random k).tmod range.hi)) colMajor rows cols storage

/-- test.h:118-129 `MakeRandom` with other compilers; `dist k` is result `k` of the distribution, which is of the type
of the scalars.  (The standard does not define `std::uniform_int_distribution` for 8 bits; the libraries that accept it
give values of the range.) -/
def makeRandom (dist : Nat → Int) (colMajor : Bool) (rows cols : Nat) (storage : List Int) : M (List Int × Nat) :=
  fill dist colMajor rows cols storage

end Gemmlowp.TestRandom
