/-!
# test/benchmark_all_sizes.cc: the table of results
-/
namespace Gemmlowp.BenchAll

/-- Lines 206-210. -/
structure Shape where
  rows : Int
  depth : Int
  cols : Int
  deriving DecidableEq, Repr

/-- Lines 216-221 `operator<`. -/
def less (a b : Shape) : Bool :=
  decide (a.depth < b.depth) ||
    (decide (a.depth = b.depth) &&
      (decide (a.rows < b.rows) || (decide (a.rows = b.rows) && decide (a.cols < b.cols))))

/-- `std::map<Shape, float>`: the entries in the order of iteration.  Latencies are rational numbers, as no latency is
a NaN or an infinity. -/
abbrev Map := List (Shape × Rat)

/-- `count` and `operator[]` for a key that is there: keys are the same if neither is less. -/
def find (m : Map) (k : Shape) : Option Rat := (m.find? fun p => !less p.1 k && !less k p.1).map (·.2)

/-- `(*results)[k] = v`. -/
def set : Map → Shape → Rat → Map
  | [], k, v => [(k, v)]
  | p :: m, k, v =>
    if less p.1 k then p :: set m k v
    else if less k p.1 then (k, v) :: p :: m
    else (p.1, v) :: m

/-- Lines 341-345, after one measurement. -/
def record (m : Map) (x : Shape × Rat) : Map :=
  match find m x.1 with
  | some old => set m x.1 (if old < x.2 then old else x.2)
  | none => set m x.1 x.2

/-- Lines 320-348 `run_benchmarks`, given the measurements in the order in which they are made. -/
def results (ms : List (Shape × Rat)) : Map := ms.foldl record []

end Gemmlowp.BenchAll
