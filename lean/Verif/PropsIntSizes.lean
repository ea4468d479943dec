import Verif.IntSizesGemm
import Verif.PropsX86
import Verif.PropsNeon
/-!
# C72: the `int` arithmetic of sizes and addresses

The other theorems about products are about a model in which sizes, loop counters and addresses are natural
numbers.  Here the code's `int` arithmetic is followed instead (`Verif.IntSizes`), and the two are compared.
-/
namespace Gemmlowp
namespace IntSizes
open Asm (sse64Format)
open Vec (neon64Format)

/-- A matrix all of whose entries can be addressed with `int` products, and whose sizes leave room for the
sums of two sizes that the loops compute. -/
structure Addressable (m : MatrixMap) : Prop where
  rows_pos : 0 < m.rows
  cols_pos : 0 < m.cols
  rows_le : m.rows ≤ 1073741823
  cols_le : m.cols ≤ 1073741823
  last_row : (m.rows - 1) * m.rowsStride ≤ 2147483647
  last_col : (m.cols - 1) * m.colsStride ≤ 2147483647

theorem Addressable.mapOk {m : MatrixMap} (h : Addressable m) : MapOk (Map.of m) :=
  mapOf_ok h.rows_le h.cols_le h.last_row h.last_col h.rows_pos h.cols_pos

theorem strideA_of (m : MatrixMap) : (Map.of m).strideA = m.rowsStride := by
  unfold Map.strideA Map.of MatrixMap.rowsStride; cases m.order <;> rfl

theorem strideB_of (m : MatrixMap) : (Map.of m).strideB = m.colsStride := by
  unfold Map.strideB Map.of MatrixMap.colsStride; cases m.order <;> rfl

/-- The block parameters that the code computes with `int` are those of the model. -/
theorem C72_block_params {k : KernelFormat} {reg rows cols depth nt : Nat} {t : Tuning}
    (h : InitOk k reg rows cols depth nt t) :
    ∃ b, BlockParams.init k reg rows cols depth nt t = .ok b ∧
      initI k reg rows cols depth nt t =
        .ok ⟨b.l1_rows, b.l1_cols, b.l1_depth, b.l2_rows, b.l2_cols, b.l2_depth⟩ := by
  obtain ⟨b, hb, _⟩ := init_good h.wf h.rows_pos h.cols_pos h.depth_pos h.threads t
  exact ⟨b, hb, initI_eq h hb⟩

/-- The addresses of the entries of a matrix are those of the model. -/
theorem C72_addresses {m : MatrixMap} (h : Addressable m) {r c : Nat} (hr : r < m.rows) (hc : c < m.cols) :
    (Map.of m).data r c = .ok (m.addr r c : Nat) := by
  rw [data_ok h.mapOk (by omega) (by show (r : Int) < m.rows; omega) (by omega)
    (by show (c : Int) < m.cols; omega), strideA_of, strideB_of]
  rfl

theorem cint_over {x : Int} (h : 2147483647 < x) : cint x = .error .overflow := by
  unfold cint
  rw [if_neg (by unfold InI32; omega)]

/-- A loop without state that ends well has done every step well. -/
theorem forI_each {lo hi : Int} {f : Int → Unit → M Unit} (h : forI lo hi 1 f () = .ok ()) {i : Int}
    (h0 : lo ≤ i) (h1 : i < hi) : f i () = .ok () := by
  have key : ∀ n : Nat, ∀ lo : Int, (hi - lo).toNat = n → lo ≤ i → forI lo hi 1 f () = .ok () →
      f i () = .ok () := by
    intro n
    induction n with
    | zero => intro lo hn hl _; omega
    | succ n ih =>
      intro lo hn hl h
      rw [forI, if_pos (by omega)] at h
      cases hf : f lo () with
      | error e => rw [hf] at h; cases h
      | ok u =>
        rw [hf] at h
        change (if (0 : Int) < 1 then if lo + 1 ≤ 2147483647 then forI (lo + 1) hi 1 f u
          else .error .overflow else .error .diverge) = .ok () at h
        rw [if_pos (by omega)] at h
        by_cases he : lo = i
        · rw [← he]; exact hf
        · split at h
          · exact ih (lo + 1) (by omega) (by omega) h
          · cases h
  exact key _ lo rfl h0 h

/-- Unpacking a block computes the address of every entry it stores, at the place of the entry in the
whole result: where this does not fit, unpacking overflows. -/
theorem C72_unpack_addresses {R C : Nat} {src dst : Map} {r c sr sc : Int}
    (h : unpackBlock R C src dst r c sr sc = .ok ()) {i j : Nat} (hi : i < R) (hj : j < C) :
    (∃ a, src.data (r + i) (c + j) = .ok a) ∧ ∃ a, dst.data (r + sr + i) (c + sc + j) = .ok a := by
  have block : ∀ {m : Map} {x y : Int}, loadBlock R C m x y = .ok () → ∃ a, m.data (x + i) (y + j) = .ok a := by
    intro m x y h
    have h1 := forI_each (forI_each h (i := (i : Int)) (by omega) (by omega)) (i := (j : Int)) (by omega) (by omega)
    unfold cint at h1; beta_reduce at h1
    by_cases a : InI32 (x + i)
    · by_cases b : InI32 (y + j)
      · rw [if_pos a, if_pos b] at h1
        cases hd : m.data (x + i) (y + j) with
        | ok v => exact ⟨v, rfl⟩
        | error e =>
          simp only [ok_bind] at h1
          rw [hd] at h1; cases h1
      · rw [if_pos a, if_neg b] at h1; cases h1
    · rw [if_neg a] at h1; cases h1
  unfold unpackBlock cint storeBlock at h
  by_cases a : InI32 (r + sr)
  · by_cases b : InI32 (c + sc)
    · rw [if_pos a, if_pos b] at h
      simp only [ok_bind] at h
      cases hl : loadBlock R C src r c with
      | error e => rw [hl] at h; cases h
      | ok u => rw [hl] at h; exact ⟨block hl, block h⟩
    · rw [if_pos a, if_neg b] at h; cases h
  · rw [if_neg a] at h; cases h

/-- The bounds on the products are needed: a matrix whose last row, or last column, starts 2^31 entries
after the first has entries whose address overflows. -/
theorem C72_addresses_needed {m : MatrixMap} (hr : 0 < m.rows) (hc : 0 < m.cols)
    (h : 2147483647 < (m.rows - 1) * m.rowsStride ∨ 2147483647 < (m.cols - 1) * m.colsStride) :
    ∃ r c, r < m.rows ∧ c < m.cols ∧ (Map.of m).data (r : Nat) (c : Nat) = .error .overflow := by
  refine ⟨m.rows - 1, m.cols - 1, by omega, by omega, ?_⟩
  unfold Map.data
  rw [strideA_of, strideB_of]
  generalize hx : (m.rows - 1) * m.rowsStride = x at h
  generalize hy : (m.cols - 1) * m.colsStride = y at h
  rw [← Int.natCast_mul, ← Int.natCast_mul, hx, hy]
  by_cases h1 : x ≤ 2147483647
  · rw [cint_nat h1, ok_bind, cint_over (by omega)]
    rfl
  · rw [cint_over (by omega)]
    rfl

/-- The positions in the packed buffers are those of the model. -/
theorem C72_seek {k : KernelFormat} {reg rows cols depth nt : Nat} {t : Tuning}
    (h : SizesOk k reg rows cols depth nt t) {b : BlockParams}
    (hb : BlockParams.init k reg rows cols depth nt t = .ok b) (s : Side) (ps : PackedSide) {w d : Nat}
    (hw : w ≤ (b.side s).l2_width) (hd : d ≤ (b.side s).l2_depth) :
    seekRun ((Params.of b).side s) w d = .ok ((PackedSide.seekRun (b.side s) ps w d).pos : Nat) := by
  obtain ⟨b', hb', g⟩ := init_good h.wf h.rows_pos h.cols_pos h.depth_pos h.threads t
  rw [hb] at hb'
  injection hb' with hb'
  subst hb'
  have hp := parOk h g
  have e1 : ((Params.of b).side s).l2_width = ((b.side s).l2_width : Int) := by cases s <;> rfl
  have e2 : ((Params.of b).side s).l2_depth = ((b.side s).l2_depth : Int) := by cases s <;> rfl
  have e3 : ((Params.of b).side s).l1_depth = ((b.side s).l1_depth : Int) := by cases s <;> rfl
  have key : seekRun ((Params.of b).side s) w d = .ok (((Params.of b).side s).l2_width * d +
      w * min ((Params.of b).side s).l1_depth (((Params.of b).side s).l2_depth - d)) := by
    cases s
    · exact (seekRun_ok hp.lhs (by omega) (by rw [e1]; omega) (by omega) (by rw [e2]; omega)).1
    · exact (seekRun_ok hp.rhs (by omega) (by rw [e1]; omega) (by omega) (by rw [e2]; omega)).1
  rw [key, e1, e2, e3]
  congr 1
  unfold PackedSide.seekRun
  dsimp only
  have e4 : min ((b.side s).l1_depth : Int) (((b.side s).l2_depth : Int) - d) =
      ((min (b.side s).l1_depth ((b.side s).l2_depth - d) : Nat) : Int) := by omega
  rw [e4]
  push_cast
  rfl

/-- No `int` operation of `SingleThreadGemm` overflows if the matrices are addressable and the three rounded
products fit: the bytes of the packed LHS, those of the packed RHS, the entries of the packed result. -/
theorem C72_single {k : KernelFormat} {reg : Nat} {t : Tuning} {lhs rhs result : MatrixMap}
    (h : SizesOk k reg result.rows result.cols lhs.cols 1 t)
    (hl : Addressable lhs) (hr : Addressable rhs) (ho : Addressable result)
    (e1 : lhs.rows = result.rows) (e2 : rhs.rows = lhs.cols) (e3 : rhs.cols = result.cols) :
    single k reg t (Map.of lhs) (Map.of rhs) (Map.of result) = .ok () :=
  single_ok h hl.mapOk hr.mapOk ho.mapOk (by show (lhs.rows : Int) = _; rw [e1]) rfl
    (by show (rhs.rows : Int) = _; rw [e2]) (by show (rhs.cols : Int) = _; rw [e3]) rfl rfl

/-- The same for `MultiThreadGemm`.  The rows are split by multiplying their number with the index of the
task, and the block of an empty last task starts just after the last row of the LHS. -/
theorem C72_multi {k : KernelFormat} {reg tasks : Nat} {t : Tuning} {lhs rhs result : MatrixMap}
    (h : SizesOk k reg result.rows result.cols lhs.cols tasks t)
    (hs : result.rows * tasks ≤ 2147483647) (he : lhs.rows * lhs.rowsStride ≤ 2147483647)
    (hl : Addressable lhs) (hr : Addressable rhs) (ho : Addressable result)
    (e1 : lhs.rows = result.rows) (e2 : rhs.rows = lhs.cols) (e3 : rhs.cols = result.cols) :
    multi k reg t tasks (Map.of lhs) (Map.of rhs) (Map.of result) = .ok () :=
  multi_ok h hs hl.mapOk (by
    rw [strideA_of]
    show (lhs.rows : Int) * _ ≤ _
    rw [← Int.natCast_mul]
    omega) hr.mapOk ho.mapOk (by show (lhs.rows : Int) = _; rw [e1]) rfl
    (by show (rhs.rows : Int) = _; rw [e2]) (by show (rhs.cols : Int) = _; rw [e3]) rfl rfl

/-! ## The bound on the packed LHS is exact on x86 -/

theorem l2_rows_one {k : KernelFormat} {reg rows cols depth : Nat} {t : Tuning} (hf : t.factorIsOne = true)
    (hk : 0 < k.kRows) (hr : 0 < rows) {b : BlockParams}
    (hb : BlockParams.init k reg rows cols depth 1 t = .ok b) : b.l2_rows = roundUp k.kRows rows := by
  have hp : 0 < roundUp k.kRows rows := roundUp_pos hk hr
  have q1 : cdiv ((roundUp k.kRows rows : Nat) : Int) ((1 : Nat) : Int) =
      .ok ((roundUp k.kRows rows : Nat) : Int) := by
    unfold cdiv
    rw [if_neg (by decide)]
    exact congrArg _ (Int.tdiv_one _)
  have m1 : max1 ((roundUp k.kRows rows : Nat) : Int) = roundUp k.kRows rows := by unfold max1; omega
  have rr : roundUp k.kRows (roundUp k.kRows rows) = roundUp k.kRows rows := by
    obtain ⟨n, hn⟩ := roundUp_dvd k.kRows rows
    have l1 := le_roundUp hk (roundUp k.kRows rows)
    have l2 := roundUp_lt hk (roundUp k.kRows rows)
    obtain ⟨m, hm⟩ := roundUp_dvd k.kRows (roundUp k.kRows rows)
    rw [hm] at l1 l2 ⊢
    rw [hn] at l1 l2 ⊢
    have a1 : n ≤ m := Nat.le_of_mul_le_mul_left l1 hk
    have a2 : m < n + 1 := Nat.lt_of_mul_lt_mul_left (a := k.kRows) (by rw [Nat.mul_add, Nat.mul_one]; exact l2)
    rw [show m = n by omega]
  unfold BlockParams.init findL2BlockSizes at hb
  rw [q1] at hb
  simp only [ok_bind, hf, if_true, m1, rr, pure_ok] at hb
  cases hq : cdiv t.l2Bytes ((roundUp reg depth : Nat) : Int) with
  | error e => rw [hq] at hb; cases hb
  | ok q =>
    rw [hq] at hb
    simp only [ok_bind] at hb
    generalize findL1BlockSizes k reg _ _ _ t = z at hb
    cases z with
    | error e => cases hb
    | ok y => injection hb with hb; rw [← hb]

/-- Where the whole L2 cache goes to the RHS, as on x86 (internal/common.h:94-97), `SingleThreadGemm` runs
without overflow exactly if the packed LHS has less than 2^31 bytes. -/
theorem C72_limit {k : KernelFormat} {reg : Nat} {t : Tuning} {lhs rhs result : MatrixMap}
    (hf : t.factorIsOne = true) (h : InitOk k reg result.rows result.cols lhs.cols 1 t)
    (hl : Addressable lhs) (hr : Addressable rhs) (ho : Addressable result)
    (e1 : lhs.rows = result.rows) (e2 : rhs.rows = lhs.cols) (e3 : rhs.cols = result.cols) :
    single k reg t (Map.of lhs) (Map.of rhs) (Map.of result) =
      if roundUp k.kRows lhs.rows * roundUp reg lhs.cols ≤ 2147483647 then .ok ()
      else .error .overflow := by
  by_cases hs : roundUp k.kRows lhs.rows * roundUp reg lhs.cols ≤ 2147483647
  · rw [if_pos hs]
    exact C72_single ⟨h, by rw [← e1]; exact hs⟩ hl hr ho e1 e2 e3
  · rw [if_neg hs]
    obtain ⟨b, hb, g⟩ := init_good h.wf h.rows_pos h.cols_pos h.depth_pos h.threads t
    have hI := initI_eq h hb
    have h1 := l2_rows_one hf h.wf.lhs.kw_pos h.rows_pos hb
    have h2 := g.l2_depth_eq
    have r0 := h.rows_pos
    have c0 := h.cols_pos
    have d0 := h.depth_pos
    have cr := h.cols_le
    have hp : packedSize ((Params.of b).side .lhs) = .error .overflow := by
      show cint ((b.l2_rows : Int) * (b.l2_depth : Int)) = _
      rw [h1, h2, ← Int.natCast_mul, ← e1]
      exact cint_over (by omega)
    unfold single
    have a1 : (Map.of lhs).b = (lhs.cols : Int) := rfl
    have a2 : (Map.of rhs).a = (lhs.cols : Int) := by show (rhs.rows : Int) = _; rw [e2]
    have a3 : (Map.of result).a = (result.rows : Int) := rfl
    have a4 : (Map.of result).b = (result.cols : Int) := rfl
    dsimp only
    rw [a1, a2, a3, a4]
    have hI' : initI k reg (result.rows : Int) (result.cols : Int) (lhs.cols : Int) 1 t = .ok (Params.of b) := hI
    rw [decide_eq_true rfl, assertM_true, ok_bind, decide_eq_true (by omega), assertM_true, ok_bind,
      decide_eq_true (by omega), assertM_true, ok_bind, decide_eq_true (by omega), assertM_true, ok_bind,
      decide_eq_true (by omega), assertM_true, ok_bind, hI', ok_bind, hp]
    rfl

/-! ## Concrete cases -/

/-- The tuning of x86-64: internal/common.h:68-73 and 94-97 (the factor is one, so that the cast gives the quotient
itself). -/
def x86Tuning : Tuning := { l1Bytes := 32768, l2Bytes := 4194304, rhsTerm := id, factorIsOne := true }

/-- A tuning with the factor 0.75 of the other targets: internal/common.h:86-87 and 99. -/
def otherTuning : Tuning :=
  { l1Bytes := 16384, l2Bytes := 262144, rhsTerm := fun q => 3 * q / 4, factorIsOne := false }

theorem x86Tuning_ok : TuningOk x86Tuning :=
  ⟨by decide, by decide, by decide, by decide, fun q h0 h1 => by
    show -2147483648 ≤ q; omega, fun q h0 h1 => by
    have h1 : q ≤ 4194304 := h1
    show q ≤ 536870912; omega⟩

theorem otherTuning_ok : TuningOk otherTuning :=
  ⟨by decide, by decide, by decide, by decide, fun q h0 h1 => by
    show -2147483648 ≤ 3 * q / 4; omega, fun q h0 h1 => by
    have h1 : q ≤ 262144 := h1
    show 3 * q / 4 ≤ 536870912; omega⟩

/-- The hypotheses of the theorems hold for a product of 20000x3000 by 3000x5000 matrices. -/
example : SizesOk sse64Format 16 20000 5000 3000 1 x86Tuning :=
  ⟨⟨sse64Format_wf, by decide, by decide, by decide, x86Tuning_ok, by decide, by decide, by decide, by decide,
    by decide, by decide, by decide, by decide, by decide, by decide, by decide⟩, by decide⟩

example : SizesOk neon64Format 16 20000 5000 3000 4 otherTuning :=
  ⟨⟨neon64Format_wf, by decide, by decide, by decide, otherTuning_ok, by decide, by decide, by decide, by decide,
    by decide, by decide, by decide, by decide, by decide, by decide, by decide⟩, by decide⟩

example : Addressable ⟨0, 20000, 3000, 3008, .rowMajor⟩ :=
  ⟨by decide, by decide, by decide, by decide, by decide, by decide⟩

/-- **Finding F45.**  A LHS of 65536x32768 entries, stored without gaps, is addressable; so are a column as RHS and
the column of results.  The size of the packed LHS is computed in `int` and overflows. -/
theorem C72_refuted_packed_size :
    Addressable ⟨0, 65536, 32768, 32768, .rowMajor⟩ ∧ Addressable ⟨0, 32768, 1, 32768, .colMajor⟩ ∧
    Addressable ⟨0, 65536, 1, 65536, .colMajor⟩ ∧
    single sse64Format 16 x86Tuning (Map.of ⟨0, 65536, 32768, 32768, .rowMajor⟩)
      (Map.of ⟨0, 32768, 1, 32768, .colMajor⟩) (Map.of ⟨0, 65536, 1, 65536, .colMajor⟩) =
      .error .overflow := by
  have a1 : Addressable ⟨0, 65536, 32768, 32768, .rowMajor⟩ :=
    ⟨by decide, by decide, by decide, by decide, by decide, by decide⟩
  have a2 : Addressable ⟨0, 32768, 1, 32768, .colMajor⟩ :=
    ⟨by decide, by decide, by decide, by decide, by decide, by decide⟩
  have a3 : Addressable ⟨0, 65536, 1, 65536, .colMajor⟩ :=
    ⟨by decide, by decide, by decide, by decide, by decide, by decide⟩
  refine ⟨a1, a2, a3, ?_⟩
  rw [C72_limit rfl ⟨sse64Format_wf, by decide, by decide, by decide, x86Tuning_ok, by decide, by decide, by decide,
    by decide, by decide, by decide, by decide, by decide, by decide, by decide, by decide⟩ a1 a2 a3 rfl rfl rfl]
  rw [if_neg (by decide)]

/-- A scalar product (one row, one column) of vectors of 178956961 entries already overflows, because the one row
is packed as twelve. -/
theorem C72_refuted_scalar_product :
    Addressable ⟨0, 1, 178956961, 178956961, .rowMajor⟩ ∧ Addressable ⟨0, 178956961, 1, 178956961, .colMajor⟩ ∧
    single sse64Format 16 x86Tuning (Map.of ⟨0, 1, 178956961, 178956961, .rowMajor⟩)
      (Map.of ⟨0, 178956961, 1, 178956961, .colMajor⟩) (Map.of ⟨0, 1, 1, 1, .colMajor⟩) = .error .overflow := by
  have a1 : Addressable ⟨0, 1, 178956961, 178956961, .rowMajor⟩ :=
    ⟨by decide, by decide, by decide, by decide, by decide, by decide⟩
  have a2 : Addressable ⟨0, 178956961, 1, 178956961, .colMajor⟩ :=
    ⟨by decide, by decide, by decide, by decide, by decide, by decide⟩
  have a3 : Addressable ⟨0, 1, 1, 1, .colMajor⟩ :=
    ⟨by decide, by decide, by decide, by decide, by decide, by decide⟩
  refine ⟨a1, a2, ?_⟩
  rw [C72_limit rfl ⟨sse64Format_wf, by decide, by decide, by decide, x86Tuning_ok, by decide, by decide, by decide,
    by decide, by decide, by decide, by decide, by decide, by decide, by decide, by decide⟩ a1 a2 a3 rfl rfl rfl]
  rw [if_neg (by decide)]

/-- Elsewhere the block sizes themselves overflow: a scalar product of 2^28 entries with a kernel of eight columns,
`l2_depth * l2_cols` (internal/block_params.h:89-91). -/
theorem C72_refuted_block_params :
    initI neon64Format 16 1 1 268435456 1 otherTuning = .error .overflow := by
  decide +kernel

end IntSizes
end Gemmlowp
