import Verif.DispatchProof
import Verif.PropsOutput
/-!
# Properties C01 - C06, C08, C09, C11: the matrix product

All statements are about the public entry points.  The result of a call is a `Plan`; its possible
sequences of stores, one for each schedule of the worker threads, are its `Outcome`s; `applyStores`
gives the memory of the result afterwards.
-/
namespace Gemmlowp

/-- The accumulator of entry `(r, j)`: the exact sum modulo 2^32. -/
def Call.acc (c : Call) (t : InputScalar) (L R : Nat → Nat → UInt8) (LO RO : Nat → BitVec 32) (r j : Nat) : BitVec 32 :=
  BitVec.ofInt 32 (productEntry t c.lhs.cols L R (fun i => (LO i).toInt) (fun j => (RO j).toInt) r j)

/-- A well-formed call of depth at least 1: the arguments describe the product of `L` and `R`, and
the output pipeline is defined on every accumulator (with value `val r j`) and computed alike in scalars and in the
registers of the build. -/
structure WellFormed (e : Env) (t : InputScalar) (c : Call) (L R : Nat → Nat → UInt8) (LO RO : Nat → BitVec 32)
    (val : Nat → Nat → Int) : Prop where
  describes : c.Describes L R LO RO
  inRange : c.InRange t e.mode LO RO
  env : e.Ok t c L R
  depth : 0 < c.lhs.cols
  stride : c.result.StrideOk
  pipe : ∀ r j, r < c.result.rows → j < c.result.cols →
    c.pipe.scalar e.mode r j (c.acc t L R LO RO r j) = .ok (val r j)
  out : e.out.Agrees e.mode c.pipe c.result.rows c.result.cols (c.acc t L R LO RO)

section
variable {e : Env} {ty : InputScalar} {c : Call} {L R : Nat → Nat → UInt8} {LO RO : Nat → BitVec 32}
  {val : Nat → Nat → Int}

theorem WellFormed.ok (h : WellFormed e ty c L R LO RO val) :
    ∃ pl, dispatch e c = .ok pl ∧ (∃ t, Outcome pl t) ∧ ∀ t, Outcome pl t → t.Perm (c.stores val) :=
  dispatch_ok h.describes h.inRange h.env h.depth h.pipe h.out

/-- The absolute value of a sum of `n` terms between `-65025` and `65025`. -/
theorem sum_bound (f : Nat → Int) : ∀ n : Nat, (∀ d, d < n → -65025 ≤ f d ∧ f d ≤ 65025) →
    -(65025 * (n : Int)) ≤ ∑ d ∈ Finset.range n, f d ∧ ∑ d ∈ Finset.range n, f d ≤ 65025 * n := by
  intro n
  induction n with
  | zero => intro _; simp
  | succ n ih =>
    intro h
    rw [Finset.sum_range_succ]
    have h1 := ih (fun d hd => h d (by omega))
    have h2 := h n (by omega)
    push_cast
    omega

theorem mul_bound255 {a b : Int} (ha : -255 ≤ a ∧ a ≤ 255) (hb : -255 ≤ b ∧ b ≤ 255) :
    -65025 ≤ a * b ∧ a * b ≤ 65025 := by
  have h1 : (255 - a) * (255 - b) ≥ 0 := Int.mul_nonneg (by omega) (by omega)
  have h2 : (255 + a) * (255 + b) ≥ 0 := Int.mul_nonneg (by omega) (by omega)
  have h3 : (255 - a) * (255 + b) ≥ 0 := Int.mul_nonneg (by omega) (by omega)
  have h4 : (255 + a) * (255 - b) ≥ 0 := Int.mul_nonneg (by omega) (by omega)
  constructor <;> nlinarith

/-- **C04**: the exact sum itself fits in an int32. -/
theorem product_fits (hI : c.InRange ty .trap LO RO) {r j : Nat} (hr : r < c.result.rows)
    (hj : j < c.result.cols) :
    InI32 (productEntry ty c.lhs.cols L R (fun i => (LO i).toInt) (fun j => (RO j).toInt) r j) := by
  obtain ⟨h1, h2, h3⟩ := hI rfl
  have := sum_bound (fun d => (ty.val (L r d) + (LO r).toInt) * (ty.val (R d j) + (RO j).toInt))
    c.lhs.cols (by
      intro d _
      have a1 := ty.val_bound (L r d)
      have a2 := ty.val_bound (R d j)
      have a5 := ty.width
      have a3 := h2 r hr
      have a4 := h3 j hj
      exact mul_bound255 (by omega) (by omega))
  unfold productEntry InI32
  constructor
  · exact Int.le_trans (by omega) this.1
  · exact Int.le_trans this.2 (by omega)

/-! ## C01 -/

/-- **C01.**  After a call returns, entry `(r, j)` of the result is the pipeline applied at `(r, j)`
to the accumulator: for all shapes, orders, strides, contents, offsets, kernels, tunings, scratch
contents, thread counts and schedules.  With `mode = wrap` the offsets are arbitrary and the
accumulator is the sum modulo 2^32; with `mode = trap` (the C++ rule) see `Call.InRange`. -/
theorem C01_gemm_with_output_pipeline (h : WellFormed e ty c L R LO RO val) :
    ∃ pl, gemmWithOutputPipelinePC e c = .ok pl ∧ (∃ t, Outcome pl t) ∧
      ∀ t, Outcome pl t → ∀ mem r j, r < c.result.rows → j < c.result.cols →
        applyStores mem t (c.result.addr r j) = val r j := by
  obtain ⟨pl, h1, h2, h3⟩ := h.ok
  refine ⟨pl, h1, h2, fun t ht mem => ?_⟩
  exact (stores_memory h.stride (h3 t ht) mem).1

/-- **C01**, with the documented meaning of the stages: if the pipeline is documented to turn the
exact sum into `val r j`, then that is what is stored. -/
theorem C01_documented_pipeline (hD : c.Describes L R LO RO) (hI : c.InRange ty e.mode LO RO)
    (he : e.Ok ty c L R) (hd0 : 0 < c.lhs.cols) (hs : c.result.StrideOk)
    (ho : e.out.Agrees e.mode c.pipe c.result.rows c.result.cols (c.acc ty L R LO RO))
    (hfit : e.mode = .wrap → ∀ r j, r < c.result.rows → j < c.result.cols → InI32
      (productEntry ty c.lhs.cols L R (fun i => (LO i).toInt) (fun j => (RO j).toInt) r j))
    (hv : ∀ r j, r < c.result.rows → j < c.result.cols → c.pipe.Maps r j
      (productEntry ty c.lhs.cols L R (fun i => (LO i).toInt) (fun j => (RO j).toInt) r j) (val r j)) :
    ∃ pl, gemmWithOutputPipelinePC e c = .ok pl ∧ (∃ t, Outcome pl t) ∧
      ∀ t, Outcome pl t → ∀ mem r j, r < c.result.rows → j < c.result.cols →
        applyStores mem t (c.result.addr r j) = val r j := by
  apply C01_gemm_with_output_pipeline ⟨hD, hI, he, hd0, hs, ?_, ho⟩
  intro r j hr hj
  apply pipeline_maps
  unfold Call.acc
  rw [toInt_ofInt32]
  · exact hv r j hr hj
  · cases hm : e.mode with
    | trap => rw [hm] at hI; exact product_fits hI hr hj
    | wrap => exact hfit hm r j hr hj

theorem standard_plain (off mult sh : BitVec 32) : (standardPipeline off mult sh).Plain :=
  ⟨fun s hs => by
    rw [List.mem_singleton.1 hs]
    trivial, Or.inr (Or.inl rfl)⟩

theorem empty_plain : Pipeline.Plain { stages := [], cast := .none } :=
  ⟨fun _ hs => absurd hs List.not_mem_nil, Or.inl rfl⟩

/-- The arguments that `Gemm` passes on (public/gemmlowp.h:76-90). -/
abbrev gemmCall (lhsMem : Mem) (lhs : MatrixMap) (rhsMem : Mem) (rhs result : MatrixMap)
    (lo ro off mult sh : BitVec 32) : Call :=
  { lhsMem, lhs, rhsMem, rhs, result, pipe := standardPipeline off mult sh
    lhsOffset := .dup .col lo lhs.rows, rhsOffset := .dup .row ro rhs.cols }

/-- **C01** for `Gemm` (public/gemmlowp.h): one offset per matrix, quantize-down, cast to uint8. -/
theorem C01_gemm {lhsMem rhsMem : Mem} {lhs rhs result : MatrixMap} {lo ro off mult sh : BitVec 32}
    (h1 : ∀ i d, i < result.rows → d < lhs.cols → lhsMem (lhs.addr i d) = some (L i d))
    (h2 : ∀ d j, d < lhs.cols → j < result.cols → rhsMem (rhs.addr d j) = some (R d j))
    (h3 : lhs.rows = result.rows) (h4 : rhs.cols = result.cols) (h5 : lhs.cols = rhs.rows)
    (hd0 : 0 < lhs.cols) (hd1 : lhs.cols ≤ 33024) (hlo : -ty.hi ≤ lo.toInt ∧ lo.toInt ≤ -ty.lo)
    (hro : -ty.hi ≤ ro.toInt ∧ ro.toInt ≤ -ty.lo) (hs : result.StrideOk)
    (he : e.Ok ty (gemmCall lhsMem lhs rhsMem rhs result lo ro off mult sh) L R) {q : Nat → Nat → Int}
    (hq : ∀ r j, r < result.rows → j < result.cols → Spec.QuantizeDown off.toInt mult.toInt sh.toInt
      (∑ d ∈ Finset.range lhs.cols,
        (ty.val (L r d) + lo.toInt) * (ty.val (R d j) + ro.toInt)) (q r j)) :
    ∃ pl, gemm e lhsMem lhs rhsMem rhs result lo ro off mult sh = .ok pl ∧ (∃ t, Outcome pl t) ∧
      ∀ t, Outcome pl t → ∀ mem r j, r < result.rows → j < result.cols →
        applyStores mem t (result.addr r j) = Spec.clampTo 0 255 (q r j) := by
  have hI : ∀ m : OvMode, (Call.mk lhsMem lhs rhsMem rhs result (.dup .col lo lhs.rows)
      (.dup .row ro rhs.cols) (standardPipeline off mult sh)).InRange ty m (fun _ => lo) (fun _ => ro) :=
    fun m _ => ⟨hd1, fun _ _ => hlo, fun _ _ => hro⟩
  exact C01_documented_pipeline (e := e) (L := L) (R := R) (LO := fun _ => lo) (RO := fun _ => ro)
    (c := { lhsMem, lhs, rhsMem, rhs, result, pipe := standardPipeline off mult sh
            lhsOffset := .dup .col lo lhs.rows, rhsOffset := .dup .row ro rhs.cols })
    { lhs := h1, rhs := h2, rows := h3, cols := h4, depth := h5
      lhsOffset := ⟨trivial, h3, fun _ _ => rfl⟩, rhsOffset := ⟨trivial, h4, fun _ _ => rfl⟩ }
    (hI e.mode) he hd0 hs ((standard_plain off mult sh).agrees ..) (fun _ r j hr hj => product_fits (hI .trap) hr hj)
    (fun r j hr hj => ⟨q r j, ⟨q r j, hq r j hr hj, rfl⟩, rfl⟩)

/-! ## C02 -/

/-- **C02.**  Every outcome stores exactly once to each of the `rows * cols` addresses of the result
and to no other address; so all other memory is unchanged. -/
theorem C02_stores_exactly_the_result (h : WellFormed e ty c L R LO RO val) :
    ∃ pl, gemmWithOutputPipelinePC e c = .ok pl ∧ ∀ t, Outcome pl t →
      (t.map Prod.fst).Nodup ∧
      (∀ a, a ∈ t.map Prod.fst ↔ ∃ r j, r < c.result.rows ∧ j < c.result.cols ∧ a = c.result.addr r j) ∧
      t.length = c.result.rows * c.result.cols ∧
      ∀ mem a, (∀ r j, r < c.result.rows → j < c.result.cols → a ≠ c.result.addr r j) →
        applyStores mem t a = mem a := by
  obtain ⟨pl, h1, -, h3⟩ := h.ok
  refine ⟨pl, h1, fun t ht => ?_⟩
  have hp := h3 t ht
  refine ⟨?_, ?_, ?_, fun mem => (stores_memory h.stride hp mem).2⟩
  · exact (hp.map Prod.fst).nodup_iff.2 (stores_nodup h.stride)
  · intro a
    rw [(hp.map Prod.fst).mem_iff, List.mem_map]
    constructor
    · rintro ⟨s, hs, rfl⟩
      obtain ⟨r, j, a1, a2, rfl⟩ := mem_stores.1 hs
      exact ⟨r, j, a1, a2, rfl⟩
    · rintro ⟨r, j, a1, a2, rfl⟩
      exact ⟨_, mem_stores.2 ⟨r, j, a1, a2, rfl⟩, rfl⟩
  · rw [hp.length_eq]
    unfold Call.stores rect
    simp

/-! ## C03, C04 -/

/-- **C03.**  No call ends in a fault: no read or write outside of a buffer, no failed assertion, no
division by zero or other undefined operation.  (Memory outside of the entries of the two matrices
may be unreadable.) -/
theorem C03_no_fault (h : WellFormed e ty c L R LO RO val) (f : Fault) :
    gemmWithOutputPipelinePC e c ≠ .error f := by
  obtain ⟨pl, h1, -⟩ := h.ok
  intro h2
  rw [gemmWithOutputPipelinePC, h1] at h2
  injection h2

/-- **C04.**  With the C++ rule that signed overflow is a fault, offsets that are negated zero points
of the type of the inputs (`[-255, 0]` for uint8, `[-127, 128]` for int8) and depth at
most 33024, there is no overflow, and what the pipeline receives is the exact sum. -/
theorem C04_no_overflow (hD : c.Describes L R LO RO) (hm : e.mode = .trap)
    (hdepth : c.lhs.cols ≤ 33024)
    (hlo : ∀ i, i < c.result.rows → -ty.hi ≤ (LO i).toInt ∧ (LO i).toInt ≤ -ty.lo)
    (hro : ∀ j, j < c.result.cols → -ty.hi ≤ (RO j).toInt ∧ (RO j).toInt ≤ -ty.lo)
    (he : e.Ok ty c L R) (hd0 : 0 < c.lhs.cols) (hs : c.result.StrideOk)
    (hp : c.pipe = { stages := [], cast := .none }) :
    ∃ pl, gemmWithOutputPipelinePC e c = .ok pl ∧ (∃ t, Outcome pl t) ∧
      ∀ t, Outcome pl t → ∀ mem r j, r < c.result.rows → j < c.result.cols →
        applyStores mem t (c.result.addr r j) =
          productEntry ty c.lhs.cols L R (fun i => (LO i).toInt) (fun j => (RO j).toInt) r j := by
  apply C01_documented_pipeline hD (fun _ => ⟨hdepth, hlo, hro⟩) he hd0 hs (by rw [hp]; exact empty_plain.agrees ..)
  · intro hm'; rw [hm] at hm'; simp at hm'
  · intro r j _ _
    rw [hp]
    exact ⟨_, rfl, rfl⟩

/-! ## C05, C06 -/

/-- **C05.**  Two calls with the same arguments, in any two environments (kernel, register size,
tuning, scratch contents, number of threads), leave the same memory. -/
theorem C05_tuning_independent {e' : Env} (h : WellFormed e ty c L R LO RO val)
    (hmode : e'.mode = e.mode) (he' : e'.Ok ty c L R)
    (ho' : e'.out.Agrees e.mode c.pipe c.result.rows c.result.cols (c.acc ty L R LO RO)) :
    ∃ pl pl', gemmWithOutputPipelinePC e c = .ok pl ∧ gemmWithOutputPipelinePC e' c = .ok pl' ∧
      ∀ t t', Outcome pl t → Outcome pl' t' → ∀ mem, applyStores mem t = applyStores mem t' := by
  have h' : WellFormed e' ty c L R LO RO val :=
    ⟨h.describes, by rw [hmode]; exact h.inRange, he', h.depth, h.stride,
      by rw [hmode]; exact h.pipe, by rw [hmode]; exact ho'⟩
  obtain ⟨pl, a1, -, a3⟩ := h.ok
  obtain ⟨pl', b1, -, b3⟩ := h'.ok
  refine ⟨pl, pl', a1, b1, fun t t' ht ht' mem => ?_⟩
  funext a
  have m1 := stores_memory h.stride (a3 t ht) mem
  have m2 := stores_memory h.stride (b3 t' ht') mem
  by_cases ha : ∃ r j, r < c.result.rows ∧ j < c.result.cols ∧ a = c.result.addr r j
  · obtain ⟨r, j, hr, hj, rfl⟩ := ha
    rw [m1.1 r j hr hj, m2.1 r j hr hj]
  · have ha' : ∀ r j, r < c.result.rows → j < c.result.cols → a ≠ c.result.addr r j :=
      fun r j hr hj hh => ha ⟨r, j, hr, hj, hh⟩
    rw [m1.2 a ha', m2.2 a ha']

/-- **C06.**  Whatever the number of threads and the schedule, the memory afterwards is the one that
a single-threaded call (`max_num_threads = 1`) leaves. -/
theorem C06_multi_thread_equals_single_thread (h : WellFormed e ty c L R LO RO val)
    (h1 : ((max c.result.rows c.result.cols : Nat) : Int) ≤ 2147483647) :
    ∃ pl t1, gemmWithOutputPipelinePC e c = .ok pl ∧
      gemmWithOutputPipelinePC { e with maxThreads := 1 } c = .ok (.single t1) ∧
      ∀ t, Outcome pl t → ∀ mem, applyStores mem t = applyStores mem t1 := by
  have he1 : ({ e with maxThreads := 1 } : Env).Ok ty c L R :=
    ⟨h.env.wf, h.env.run, h.env.inputLhs, h.env.inputRhs, h.env.packLhs, h.env.packRhs, h.env.regDvd, show (0 : Int) < 1 by decide, by
      show _ * (1 : Int) ≤ _
      omega, h.env.fits2⟩
  obtain ⟨pl, pl', a1, a2, a3⟩ := C05_tuning_independent (e' := { e with maxThreads := 1 }) h rfl he1 h.out
  have hs : ∃ t1, pl' = .single t1 := by
    have key : ∀ (c : Call) pl', dispatch { e with maxThreads := 1 } c = .ok pl' →
        c.result.cols ≤ c.result.rows → ∃ t1, pl' = .single t1 := by
      intro c pl' hd hrc
      unfold dispatch at hd
      dsimp only at hd
      cases hb : decide (c.lhs.cols = c.rhs.rows) with
      | false => rw [hb] at hd; simp [assertM, error_bind] at hd
      | true =>
        rw [hb] at hd
        simp only [assertM_true, ok_bind] at hd
        by_cases hz : c.result.rows = 0 ∨ c.result.cols = 0 ∨ c.lhs.cols = 0
        · rw [if_pos hz] at hd
          injection hd with hd
          exact ⟨_, hd.symm⟩
        · rw [if_neg hz, dif_neg (by omega)] at hd
          unfold multiThreadGemm at hd
          dsimp only at hd
          have hh : ∀ k hw r c d, howManyThreads k hw 1 r c d = .ok 1 := by
            intro k hw r c d; unfold howManyThreads; rw [if_pos rfl]; rfl
          simp only [hh, ok_bind, if_true] at hd
          simp only [Bind.bind, Except.bind] at hd
          split at hd <;> try (simp at hd; done)
          split at hd <;> try (simp at hd; done)
          split at hd <;> try (simp at hd; done)
          split at hd <;> try (simp at hd; done)
          split at hd <;> try (simp at hd; done)
          split at hd <;> try (simp at hd; done)
          injection hd with hd
          exact ⟨_, hd.symm⟩
    by_cases hrc : c.result.cols ≤ c.result.rows
    · exact key c pl' a2 hrc
    · have hd := a2
      unfold gemmWithOutputPipelinePC dispatch at hd
      rw [decide_eq_true h.describes.depth] at hd
      simp only [assertM_true, ok_bind] at hd
      have hdp := h.depth
      by_cases hz : c.result.rows = 0 ∨ c.result.cols = 0 ∨ c.lhs.cols = 0
      · rw [if_pos hz] at hd
        injection hd with hd
        exact ⟨_, hd.symm⟩
      · rw [if_neg hz, dif_pos (by omega)] at hd
        refine key c.transpose pl' hd ?_
        show c.result.rows ≤ c.result.cols
        omega
  obtain ⟨t1, rfl⟩ := hs
  exact ⟨pl, t1, a1, a2, fun t ht mem => a3 t t1 ht (.single t1) mem⟩

/-! ## C08 -/

/-- **C08.**  A call and the call with both factors, the result, the offsets and the pipeline
transposed leave the same memory; whichever of the two is executed directly. -/
theorem C08_transposition_invisible (h : WellFormed e ty c L R LO RO val) :
    ∃ pl pl', gemmWithOutputPipelinePC e c = .ok pl ∧
      gemmWithOutputPipelinePC e c.transpose = .ok pl' ∧
      ∀ t t', Outcome pl t → Outcome pl' t' → ∀ mem, applyStores mem t = applyStores mem t' := by
  have hdt : c.transpose.lhs.cols = c.lhs.cols := h.describes.depth.symm
  have h' : WellFormed e ty c.transpose (fun i d => R d i) (fun d j => L j d) RO LO (fun r j => val j r) :=
    { describes := h.describes.transpose
      inRange := by
        intro hm
        obtain ⟨i1, i2, i3⟩ := h.inRange hm
        exact ⟨by rw [hdt]; exact i1, i3, i2⟩
      env := h.env.transpose h.describes.depth
      depth := by rw [hdt]; exact h.depth
      stride := by
        have := h.stride
        unfold MatrixMap.StrideOk at this ⊢
        show match c.result.transpose.order with | .colMajor => _ | .rowMajor => _
        unfold MatrixMap.transpose
        cases ho : c.result.order <;> simp only [ho] at this ⊢ <;> exact this
      pipe := by
        intro r j hr hj
        show c.pipe.transpose.scalar _ _ _ _ = _
        rw [pipeline_transpose]
        unfold Call.acc
        rw [hdt, productEntry_swap]
        exact h.pipe j r hj hr
      out := h.out.transpose.congr fun r j _ _ => by
        unfold Call.acc
        rw [hdt, productEntry_swap] }
  obtain ⟨pl, a1, -, a3⟩ := h.ok
  obtain ⟨pl', b1, -, b3⟩ := h'.ok
  refine ⟨pl, pl', a1, b1, fun t t' ht ht' mem => ?_⟩
  funext a
  have m1 := stores_memory h.stride (a3 t ht) mem
  have m2 := stores_memory h'.stride (b3 t' ht') mem
  by_cases ha : ∃ r j, r < c.result.rows ∧ j < c.result.cols ∧ a = c.result.addr r j
  · obtain ⟨r, j, hr, hj, rfl⟩ := ha
    rw [m1.1 r j hr hj]
    have := m2.1 j r hj hr
    rw [show c.transpose.result.addr j r = c.result.addr r j from MatrixMap.transpose_addr _ _ _] at this
    rw [this]
  · rw [m1.2 a (fun r j hr hj hh => ha ⟨r, j, hr, hj, hh⟩)]
    rw [m2.2 a]
    intro r j hr hj hh
    rw [show c.transpose.result.addr r j = c.result.addr j r from MatrixMap.transpose_addr _ _ _] at hh
    exact ha ⟨j, r, hj, hr, hh⟩

/-! ## C09 -/

/-- **C09** (partial: zero depth behaves differently from the property, see
`C09_zero_depth_fails`).  Whatever the arguments, if the result has no rows or no columns nothing is
read or stored. -/
theorem C09_empty_result_partial (e : Env) (c : Call) (hd : c.lhs.cols = c.rhs.rows)
    (h : c.result.rows = 0 ∨ c.result.cols = 0) :
    gemmWithOutputPipelinePC e c = .ok (.single []) := by
  unfold gemmWithOutputPipelinePC dispatch
  rw [decide_eq_true hd]
  simp only [assertM_true, ok_bind]
  rw [if_pos (by omega)]; rfl

/-- A product of depth 0 stores nothing, whatever the sizes of the result: the entries keep the
values they had, instead of becoming the image of the empty sum. -/
theorem C09_zero_depth_stores_nothing (e : Env) (c : Call) (hd : c.lhs.cols = c.rhs.rows)
    (h : c.lhs.cols = 0) : gemmWithOutputPipelinePC e c = .ok (.single []) := by
  unfold gemmWithOutputPipelinePC dispatch
  rw [decide_eq_true hd]
  simp only [assertM_true, ok_bind]
  rw [if_pos (by omega)]; rfl

/-- **C09** fails for depth 0: a 1 × 1 result with the empty pipeline keeps its old value 77, while
the empty sum is 0. -/
theorem C09_zero_depth_fails (e : Env) : ∃ (c : Call) (ty : InputScalar) (L R : Nat → Nat → UInt8) (LO RO : Nat → BitVec 32)
    (pl : Plan Int) (t : Trace Int),
    c.Describes L R LO RO ∧ c.result.rows = 1 ∧ c.result.cols = 1 ∧
    c.pipe.Maps 0 0 (productEntry ty c.lhs.cols L R (fun i => (LO i).toInt) (fun j => (RO j).toInt) 0 0) 0 ∧
    gemmWithOutputPipelinePC e c = .ok pl ∧ Outcome pl t ∧
    applyStores (fun _ => 77) t (c.result.addr 0 0) = 77 := by
  let c : Call :=
    { lhsMem := fun _ => none, lhs := MatrixMap.mk3 .rowMajor 0 1 0
      rhsMem := fun _ => none, rhs := MatrixMap.mk3 .rowMajor 0 0 1
      result := MatrixMap.mk3 .rowMajor 0 1 1
      lhsOffset := .dup .col 0 1, rhsOffset := .dup .row 0 1
      pipe := { stages := [], cast := .none } }
  refine ⟨c, .uint8, fun _ _ => 0, fun _ _ => 0, fun _ => 0, fun _ => 0, .single [], [], ?_, rfl, rfl, ?_, ?_,
    .single [], rfl⟩
  · exact { lhs := fun i d _ hd => absurd hd (Nat.not_lt_zero d)
            rhs := fun d j hd _ => absurd hd (Nat.not_lt_zero d)
            rows := rfl, cols := rfl, depth := rfl
            lhsOffset := ⟨trivial, rfl, fun _ _ => rfl⟩
            rhsOffset := ⟨trivial, rfl, fun _ _ => rfl⟩ }
  · exact ⟨0, rfl, rfl⟩
  · exact C09_zero_depth_stores_nothing e c rfl rfl

/-! ## C11 -/

/-- **C11.**  The memory afterwards depends on the entries of the two matrices only: if the input
memory is changed anywhere else (or becomes unreadable there), the result is the same. -/
theorem C11_only_entries_matter {lhsMem' rhsMem' : Mem} (h : WellFormed e ty c L R LO RO val)
    (hl : ∀ i d, i < c.result.rows → d < c.lhs.cols →
      lhsMem' (c.lhs.addr i d) = c.lhsMem (c.lhs.addr i d))
    (hr : ∀ d j, d < c.lhs.cols → j < c.result.cols →
      rhsMem' (c.rhs.addr d j) = c.rhsMem (c.rhs.addr d j)) :
    ∃ pl pl', gemmWithOutputPipelinePC e c = .ok pl ∧
      gemmWithOutputPipelinePC e { c with lhsMem := lhsMem', rhsMem := rhsMem' } = .ok pl' ∧
      ∀ t t', Outcome pl t → Outcome pl' t' → ∀ mem, applyStores mem t = applyStores mem t' := by
  have h' : WellFormed e ty { c with lhsMem := lhsMem', rhsMem := rhsMem' } L R LO RO val :=
    ⟨{ h.describes with
        lhs := fun i d hi hd => by
          show lhsMem' (c.lhs.addr i d) = _
          rw [hl i d hi hd]; exact h.describes.lhs i d hi hd
        rhs := fun d j hd hj => by
          show rhsMem' (c.rhs.addr d j) = _
          rw [hr d j hd hj]; exact h.describes.rhs d j hd hj },
      h.inRange, ⟨h.env.wf, h.env.run.imp fun P hP => ⟨hP.1, hP.2.pad, hP.2.int, hP.2.tall, hP.2.wide⟩,
        h.env.inputLhs, h.env.inputRhs, h.env.packLhs, h.env.packRhs, h.env.regDvd, h.env.threads, h.env.fits1, h.env.fits2⟩, h.depth, h.stride, h.pipe, h.out⟩
  obtain ⟨pl, a1, -, a3⟩ := h.ok
  obtain ⟨pl', b1, -, b3⟩ := h'.ok
  refine ⟨pl, pl', a1, b1, fun t t' ht ht' mem => ?_⟩
  funext a
  have m1 := stores_memory h.stride (a3 t ht) mem
  have m2 := stores_memory (c := { c with lhsMem := lhsMem', rhsMem := rhsMem' }) h.stride (b3 t' ht') mem
  by_cases ha : ∃ r j, r < c.result.rows ∧ j < c.result.cols ∧ a = c.result.addr r j
  · obtain ⟨r, j, hr, hj, rfl⟩ := ha
    rw [m1.1 r j hr hj]
    exact (m2.1 r j hr hj).symm
  · have ha' : ∀ r j, r < c.result.rows → j < c.result.cols → a ≠ c.result.addr r j :=
      fun r j hr hj hh => ha ⟨r, j, hr, hj, hh⟩
    rw [m1.2 a ha', m2.2 a ha']

end

/-! ## A concrete call

A 2 × 3 row-major matrix with stride 4 times a 3 × 3 column-major one, so that the dispatch
transposes; the result is row-major with stride 5; a bias for each column, a clamp and a cast; two
threads are allowed; the kernel is the default reference kernel. -/

/-- internal/kernel_default.h:101-106 `DefaultReferenceKernel`. -/
def sampleFormat : KernelFormat :=
  { lhs := { cw := 4, cd := 16, order := .widthMajor, cells := 1, scalar := .uint8 }
    rhs := { cw := 4, cd := 16, order := .widthMajor, cells := 1, scalar := .uint8 } }

def sampleEnv : Env :=
  { mode := .trap, k := sampleFormat, reg := 16, run := referenceKernel .trap sampleFormat
    tun := { l1Bytes := 16384, l2Bytes := 393216, rhsTerm := fun q => 3 * q / 4, factorIsOne := false }
    hw := 4, maxThreads := 2
    scratch := { lhsData := fun _ => 9, lhsSums := fun _ => 9, rhsData := fun _ => 9
                 rhsSums := fun _ => 9, res := fun _ => 9 }
    mtScratch := { rhsData := fun _ => 8, rhsSums := fun _ => 8
                   task := fun _ _ => { lhsData := fun _ => 7, lhsSums := fun _ => 7, res := fun _ => 7 } } }

def sampleCall : Call :=
  { lhsMem := fun a => if a = 3 ∨ 7 ≤ a then none else some (UInt8.ofNat (a * 37 + 5))
    lhs := { base := 0, rows := 2, cols := 3, stride := 4, order := .rowMajor }
    rhsMem := fun a => if a < 9 then some (UInt8.ofNat (a * 91)) else none
    rhs := { base := 0, rows := 3, cols := 3, stride := 3, order := .colMajor }
    result := { base := 0, rows := 2, cols := 3, stride := 5, order := .rowMajor }
    lhsOffset := .dup .col (-7) 2
    rhsOffset := .map .row (fun i => [-1, -2, -3][i]?) 0 3
    pipe := { stages := [.bias (.map .row (fun i => [100, 200, 300][i]?) 0 3), .clamp 0 30000]
              cast := .satInt16 } }

theorem sampleFormat_wf : sampleFormat.WF 16 :=
  ⟨⟨by decide, by decide, by decide, by decide, by decide, by decide⟩,
   ⟨by decide, by decide, by decide, by decide, by decide, by decide⟩, by decide⟩

theorem sampleEnv_ok (L R : Nat → Nat → UInt8) : sampleEnv.Ok .uint8 sampleCall L R :=
  ⟨sampleFormat_wf, ⟨_, referenceKernel_meets sampleFormat_wf, sampleCall.within_true _ _ L R⟩, rfl, rfl,
    fun o _ => packBlock_meets _ sampleFormat_wf.lhs rfl o, fun o _ => packBlock_meets _ sampleFormat_wf.rhs rfl o, by decide, by decide,
    by decide, by decide⟩

def sampleL (i d : Nat) : UInt8 := UInt8.ofNat ((i * 4 + d) * 37 + 5)
def sampleR (d j : Nat) : UInt8 := UInt8.ofNat ((j * 3 + d) * 91)
def sampleRO (j : Nat) : BitVec 32 := [(-1 : BitVec 32), -2, -3].getD j 0
def sampleVal (r j : Nat) : Int :=
  okVal (sampleCall.pipe.scalar .trap r j (sampleCall.acc .uint8 sampleL sampleR (fun _ => -7) sampleRO r j))

theorem sample_plain : sampleCall.pipe.Plain :=
  ⟨fun s hs => by
    rcases List.mem_cons.1 hs with rfl | hs
    · trivial
    · rw [List.mem_singleton.1 hs]; trivial, Or.inr (Or.inr rfl)⟩

theorem forall_lt_lt {n m : Nat} {P : Nat → Nat → Prop} (h : ∀ i, i < n → ∀ j, j < m → P i j) :
    ∀ i j, i < n → j < m → P i j := fun i j hi hj => h i hi j hj

/-- The hypotheses of the theorems above are met by this call; the entries of its result differ. -/
theorem sample_wellFormed :
    WellFormed sampleEnv .uint8 sampleCall sampleL sampleR (fun _ => -7) sampleRO sampleVal ∧
    sampleVal 1 2 ≠ sampleVal 0 1 := by
  refine ⟨⟨⟨forall_lt_lt (by decide), forall_lt_lt (by decide), rfl, rfl, rfl, ⟨trivial, rfl, fun _ _ => rfl⟩,
      ⟨rfl, rfl, by decide⟩⟩, ?_, sampleEnv_ok _ _, by decide, by decide,
      forall_lt_lt (by decide), sample_plain.agrees ..⟩, by decide⟩
  exact fun _ => ⟨by decide, by decide, by decide⟩

end Gemmlowp
