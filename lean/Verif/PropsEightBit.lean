import Verif.EightBit
import Verif.PropsKernelSelect
/-!
# Properties C40, C41, C55: EightBitIntGemm

C40: transposition flags and leading dimensions; C41: global state; C55: the layouts for which the fast
path is taken.
-/
namespace Gemmlowp

/-! ## What the flags mean -/

/-- Entry `(i, j)` of a matrix with leading dimension `ld` at `base`: consecutive columns if the flag is
off, consecutive rows if it is on. -/
def entryAt (base ld : Nat) (t : Bool) (i j : Nat) : Nat :=
  if t then base + i * ld + j else base + j * ld + i

/-- A leading dimension that separates the columns (rows) of the result. -/
def LdOk (t : Bool) (rows cols ld : Nat) : Prop := if t then cols ≤ ld else rows ≤ ld

/-- A machine for which the library was compiled, and a number of threads for which products of the given
size can be split in `int`. -/
structure Machine (e : Env) (p : BitDepthParams) (rows cols depth : Nat) : Prop where
  chosen : ∃ a n, selectKernel a p = .kernel n ∧ KernelIs e.mode n e.reg e.k e.run ∧ e.pack = packerOf a
  threads : 0 < getHardwareConcurrency e.hw e.maxThreads
  fits1 : ((max rows cols : Nat) : Int) * getHardwareConcurrency e.hw e.maxThreads ≤ 2147483647
  fits2 : ((max rows cols : Nat) : Int) + 24 ≤ 2147483647
  depthInt : depth + 16 ≤ 2147483648

theorem kernelIs_depth {mode : OvMode} : ∀ {n reg k run}, KernelIs mode n reg k run →
    0 < k.kDepth ∧ k.kDepth ≤ 16 := by
  intro n reg k run h; cases h <;> decide

theorem Machine.envOk {e : Env} {c : Call} (h : Machine e defaultL8R8 c.result.rows c.result.cols c.lhs.cols)
    (L R : Nat → Nat → UInt8) : e.Ok .uint8 c L R := by
  obtain ⟨⟨a, n, hs, hk, hpk⟩, h1, h2, h3, h4⟩ := h
  obtain ⟨hwf, hrows, hreg, z1, z2, N, hN, hN0, hNp⟩ := kernelIs_meets hk
  obtain ⟨n', hs', q1, q2⟩ := C42_default_kernels a
  have : n = n' := Choice.kernel.inj (hs.symm.trans hs')
  subst this
  have hall : ∀ x y, N.pair x y := fun x y =>
    hNp x y ⟨fun h => absurd (q1.symm.trans h) (by decide), fun h => absurd h q2⟩
  obtain ⟨d1, d2⟩ := kernelIs_depth hk
  have hn : n.int8Inputs = false := by
    by_contra h
    have : (0 : Int) < 0 := (select_int8 hs).1 (by revert h; cases n.int8Inputs <;> decide)
    omega
  have hi : n.input = .uint8 := by unfold KName.input; rw [hn]; rfl
  exact
    { wf := hwf
      run := ⟨N, hN, hN0, fun _ => by
        have := roundUp_lt (m := e.k.kDepth) d1 c.lhs.cols
        omega, fun _ _ _ _ _ _ _ => hall _ _, fun _ _ _ _ _ _ _ => hall _ _⟩
      inputLhs := (kernelIs_input hk).1.trans hi
      inputRhs := (kernelIs_input hk).2.trans hi
      packLhs := fun o _ => by rw [hpk]; exact (chosen_meets hs hk hwf hn).1 o
      packRhs := fun o _ => by rw [hpk]; exact (chosen_meets hs hk hwf hn).2 o
      regDvd := hreg
      threads := h1
      fits1 := h2
      fits2 := by omega }

theorem addr_entryAt (base rows cols ld : Nat) (t : Bool) (i j : Nat) :
    MatrixMap.addr { base := base, rows := rows, cols := cols, stride := ld, order := orderOf t } i j =
      entryAt base ld t i j := by
  cases t
  · show base + i * 1 + j * ld = base + j * ld + i; omega
  · show base + i * ld + j * 1 = base + i * ld + j; omega

theorem strideOk_of {base rows cols ld : Nat} {t : Bool} (h : LdOk t rows cols ld) :
    MatrixMap.StrideOk { base := base, rows := rows, cols := cols, stride := ld, order := orderOf t } := by
  cases t <;> exact h

theorem handleCases_all {α : Type} (impl : Bool → Bool → Bool → M α) (ta tb tc : Bool) :
    handleCases impl ta tb tc handledCases = (impl ta tb tc >>= fun r => pure [r]) := by
  have key : ∀ x : M α, (x >>= fun r => (pure [] : M (List α)) >>= fun rs => pure (r :: rs)) =
      (x >>= fun r => pure [r]) := by
    intro x; cases x <;> rfl
  cases ta <;> cases tb <;> cases tc <;> exact key _

theorem outcomes_single {p : Plan Int} {t : Trace Int} : Outcomes [p] t ↔ Outcome p t := by
  constructor
  · intro h
    cases h with
    | cons h1 h2 => cases h2 with | nil => rw [List.append_nil]; exact h1
  · intro h
    have := Outcomes.cons h .nil
    rwa [List.append_nil] at this

section
variable {env : BitDepthParams → Env} {x : EbArgs} {ta tb tc : Bool} {bd : BitDepthSetting}
  {A B : Nat → Nat → UInt8} {maxThreads : Int}

/-- What a call asks of its arguments: the entries of `a` and `b` can be read where flags and leading
dimensions say; the leading dimension of `c` separates its entries; the offsets are negated `uint8`
values, and the depth is positive and bounded. -/
structure EbCall (ta tb tc : Bool) (x : EbArgs) (A B : Nat → Nat → UInt8) : Prop where
  a : ∀ i d, i < x.m → d < x.k → x.aMem (entryAt x.a x.lda ta i d) = some (A i d)
  b : ∀ d j, d < x.k → j < x.n → x.bMem (entryAt x.b x.ldb tb d j) = some (B d j)
  ld : LdOk tc x.m x.n x.ldc
  depth : 0 < x.k ∧ x.k ≤ 33024
  aOffset : -255 ≤ x.aOffset.toInt ∧ x.aOffset.toInt ≤ 0
  bOffset : -255 ≤ x.bOffset.toInt ∧ x.bOffset.toInt ≤ 0

theorem EbCall.describes (h : EbCall ta tb tc x A B) (result : MatrixMap) (pipe : Pipeline)
    (hr : result.rows = x.m) (hc : result.cols = x.n) :
    Call.Describes
      { lhsMem := x.aMem
        lhs := { base := x.a, rows := x.m, cols := x.k, stride := x.lda, order := orderOf ta }
        rhsMem := x.bMem
        rhs := { base := x.b, rows := x.k, cols := x.n, stride := x.ldb, order := orderOf tb }
        result := result, pipe := pipe
        lhsOffset := .dup .col x.aOffset x.m, rhsOffset := .dup .row x.bOffset x.n }
      A B (fun _ => x.aOffset) (fun _ => x.bOffset) where
  lhs := by
    intro i d hi hd
    rw [addr_entryAt]; exact h.a i d (hr ▸ hi) hd
  rhs := by
    intro d j hd hj
    rw [addr_entryAt]; exact h.b d j hd (hc ▸ hj)
  rows := hr.symm
  cols := hc.symm
  depth := rfl
  lhsOffset := ⟨trivial, hr.symm, fun _ _ => rfl⟩
  rhsOffset := ⟨trivial, hc.symm, fun _ _ => rfl⟩

/-- The sum that entry `(r, j)` of the result is made from. -/
def EbArgs.sum (x : EbArgs) (A B : Nat → Nat → UInt8) (r j : Nat) : Int :=
  ∑ d ∈ Finset.range x.k,
    (((A r d).toNat : Int) + x.aOffset.toInt) * (((B d j).toNat : Int) + x.bOffset.toInt)

/-- **C40.**  For all flags, sizes, leading dimensions, contents and schedules: after the call every entry
of `c`, found by its flag and leading dimension, is the quantized sum, and the rest of the memory is
unchanged. -/
theorem C40_eight_bit_int_gemm (h : EbCall ta tb tc x A B)
    (hm : Machine { env defaultL8R8 with maxThreads := maxThreads } defaultL8R8 x.m x.n x.k)
    {cOffset cMult cShift : BitVec 32} {q : Nat → Nat → Int}
    (hq : ∀ r j, r < x.m → j < x.n →
      Spec.QuantizeDown cOffset.toInt cMult.toInt cShift.toInt (x.sum A B r j) (q r j)) :
    ∃ ps, eightBitIntGemm env maxThreads ta tb tc x cOffset cMult cShift bd = .ok ps ∧
      (∃ t, Outcomes ps t) ∧ ∀ t, Outcomes ps t → ∀ mem : Nat → Int,
        (∀ r j, r < x.m → j < x.n →
          applyStores mem t (entryAt x.c x.ldc tc r j) = Spec.clampTo 0 255 (q r j)) ∧
        (∀ p, (∀ r j, r < x.m → j < x.n → p ≠ entryAt x.c x.ldc tc r j) →
          applyStores mem t p = mem p) := by
  have hI : ∀ m : OvMode, Call.InRange (gemmCall x.aMem
      { base := x.a, rows := x.m, cols := x.k, stride := x.lda, order := orderOf ta } x.bMem
      { base := x.b, rows := x.k, cols := x.n, stride := x.ldb, order := orderOf tb }
      { base := x.c, rows := x.m, cols := x.n, stride := x.ldc, order := orderOf tc }
      x.aOffset x.bOffset cOffset cMult cShift) .uint8 m (fun _ => x.aOffset) (fun _ => x.bOffset) :=
    fun m _ => ⟨h.depth.2, fun _ _ => h.aOffset, fun _ _ => h.bOffset⟩
  have wf : WellFormed { env defaultL8R8 with maxThreads := maxThreads } .uint8 (gemmCall x.aMem
      { base := x.a, rows := x.m, cols := x.k, stride := x.lda, order := orderOf ta } x.bMem
      { base := x.b, rows := x.k, cols := x.n, stride := x.ldb, order := orderOf tb }
      { base := x.c, rows := x.m, cols := x.n, stride := x.ldc, order := orderOf tc }
      x.aOffset x.bOffset cOffset cMult cShift) A B (fun _ => x.aOffset) (fun _ => x.bOffset)
      (fun r j => Spec.clampTo 0 255 (q r j)) := by
    refine ⟨h.describes _ _ rfl rfl, hI _, Machine.envOk hm A B, h.depth.1, strideOk_of h.ld, ?_,
      (standard_plain ..).agrees ..⟩
    intro r j hr hj
    apply pipeline_maps
    unfold Call.acc
    rw [toInt_ofInt32 (product_fits (hI .trap) hr hj)]
    exact ⟨q r j, ⟨q r j, hq r j hr hj, rfl⟩, rfl⟩
  obtain ⟨pl, h1, ⟨t0, h2⟩, h3⟩ := wf.ok
  refine ⟨[pl], ?_, ⟨t0, outcomes_single.2 h2⟩, ?_⟩
  · unfold eightBitIntGemm
    rw [handleCases_all]
    have : eightBitIntGemmImpl (fun p => { env p with maxThreads := maxThreads }) ta tb tc x cOffset
        cMult cShift bd = .ok pl := by cases bd <;> exact h1
    rw [this]; rfl
  · intro t ht mem
    have := stores_memory wf.stride (h3 t (outcomes_single.1 ht)) mem
    constructor
    · intro r j hr hj
      have e := this.1 r j hr hj
      rwa [addr_entryAt] at e
    · intro p hp
      apply this.2 p
      intro r j hr hj
      rw [addr_entryAt]
      exact hp r j hr hj

/-! ## The function with a float result -/

theorem convertRow {F : Type} (conv : Int → F) {base ldc i cols : Nat} {temp : Buf Int} (mem : Nat → F)
    (hsz : ∀ j, j < cols → i * ldc + j < temp.size) :
    ∃ mem', forLoop 0 cols 1 (fun j mem => do
        let v ← temp.read (i * ldc + j)
        pure (fun a => if a = base + i * ldc + j then conv v else mem a)) mem = .ok mem' ∧
      ∀ p, mem' p = if base + i * ldc ≤ p ∧ p < base + i * ldc + cols then
        conv (temp.get (p - base)) else mem p := by
  refine forLoop_post (fun n mem' => ∀ p, mem' p = if base + i * ldc ≤ p ∧ p < base + i * ldc + n then
        conv (temp.get (p - base)) else mem p) ?_ (fun _ h => h) ?_
  · intro p; rw [if_neg (by omega)]
  · intro j s hj hI
    refine ⟨_, by rw [Buf.read_ok (hsz j hj), ok_bind]; rfl, ?_⟩
    intro p
    by_cases hp : p = base + i * ldc + j
    · rw [if_pos hp, if_pos (by omega)]
      congr 2
      omega
    · rw [if_neg hp, hI p]
      by_cases h2 : base + i * ldc ≤ p ∧ p < base + i * ldc + j
      · rw [if_pos h2, if_pos (by omega)]
      · rw [if_neg h2, if_neg (by omega)]

theorem convertRows {F : Type} (conv : Int → F) {base ldc rows cols : Nat} {temp : Buf Int}
    (mem : Nat → F) (hld : cols ≤ ldc) (hsz : rows * ldc ≤ temp.size) :
    ∃ mem', forLoop 0 rows 1 (fun i mem => forLoop 0 cols 1 (fun j mem => do
        let v ← temp.read (i * ldc + j)
        pure (fun a => if a = base + i * ldc + j then conv v else mem a)) mem) mem = .ok mem' ∧
      (∀ i j, i < rows → j < cols → mem' (base + i * ldc + j) = conv (temp.get (i * ldc + j))) ∧
      ∀ p, (∀ i j, i < rows → j < cols → p ≠ base + i * ldc + j) → mem' p = mem p := by
  refine forLoop_post (fun n mem' =>
    (∀ i j, i < n → j < cols → mem' (base + i * ldc + j) = conv (temp.get (i * ldc + j))) ∧
      ∀ p, (∀ i j, i < n → j < cols → p ≠ base + i * ldc + j) → mem' p = mem p) ?_ (fun _ h => h) ?_
  · exact ⟨fun _ _ h => absurd h (by omega), fun _ _ => rfl⟩
  · intro i s hi ⟨h1, h2⟩
    have hle : (i + 1) * ldc ≤ rows * ldc := Nat.mul_le_mul_right _ hi
    rw [Nat.add_mul, Nat.one_mul] at hle
    obtain ⟨mem', e1, e2⟩ := convertRow conv (base := base) (ldc := ldc) (i := i) (cols := cols)
      (temp := temp) s (by intro j hj; omega)
    refine ⟨mem', e1, ?_, ?_⟩
    · intro i' j hi' hj
      rw [e2]
      by_cases he : i' = i
      · subst he
        rw [if_pos (by omega)]
        congr 2
        omega
      · have hle' : (i' + 1) * ldc ≤ i * ldc := Nat.mul_le_mul_right _ (by omega)
        rw [Nat.add_mul, Nat.one_mul] at hle'
        rw [if_neg (by omega)]
        exact h1 i' j (by omega) hj
    · intro p hp
      rw [e2, if_neg]
      · exact h2 p (fun i' j hi' hj => hp i' j (by omega) hj)
      · rintro ⟨p1, p2⟩
        exact hp i (p - (base + i * ldc)) (by omega) (by omega) (by omega)

/-- The scratch memory has room for `size` bytes and starts at a multiple of 32. -/
def EbScratch.Ok (s : EbScratch) : Prop := 0 ≤ s.size ∧ s.size ≤ s.room ∧ s.buf % 32 = 0

theorem EbScratch.assureSize_ok {s : EbScratch} (hs : s.Ok) {req : Int} (hr : req + 32 ≤ 2147483647)
    (p : Nat) : ∃ s', s.assureSize req p = .ok s' ∧ s'.Ok ∧ req ≤ s'.size ∧ s.size ≤ s'.size ∧
      (s.size ≥ req → s' = s) := by
  unfold EbScratch.assureSize
  by_cases h : s.size ≥ req
  · rw [if_pos h]; exact ⟨s, rfl, hs, h, Int.le_refl _, fun _ => rfl⟩
  · rw [if_neg h, cint_ok (by unfold InI32; obtain ⟨h1, -⟩ := hs; omega), ok_bind]
    dsimp only
    rw [decide_eq_true (by omega), assertM_true, ok_bind]
    refine ⟨_, rfl, ?_, Int.le_refl _, by show s.size ≤ req; omega, fun h' => absurd h' h⟩
    obtain ⟨h1, -⟩ := hs
    refine ⟨by show 0 ≤ req; omega, ?_, show (p + (32 - p % 32) % 32) % 32 = 0 by omega⟩
    show req ≤ (((req + 32).toNat - (32 - p % 32) % 32 : Nat) : Int)
    omega

/-- **C40**, the function with a `float` result: for all flags, sizes, leading dimensions, contents,
schedules and earlier contents of the scratch memory, the product is stored within the scratch memory,
and every entry of `c` becomes the conversion of the exact sum; the rest of the memory is unchanged.
The scratch memory, `4 * m * ldc` or `4 * n * ldc` bytes, must fit `int`. -/
theorem C40_float {F : Type} (conv : Int → F) (h : EbCall ta tb tc x A B)
    (hm : Machine { env defaultL8R8 with maxThreads := maxThreads } defaultL8R8 x.m x.n x.k)
    {s : EbScratch} (hs : s.Ok) (p : Nat)
    (hsz : 4 * ((if tc then x.m else x.n) * x.ldc) + 32 ≤ 2147483647) :
    ∃ ps s', eightBitIntGemmFloat env maxThreads ta tb tc x bd s p = .ok (ps, s') ∧ s'.Ok ∧
      (∃ t, Outcomes ps t) ∧ ∀ t, Outcomes ps t →
        (∀ st ∈ t, 4 * st.1 + 4 ≤ s'.room) ∧
        ∀ (temp : Nat → Int) (mem : Nat → F), ∃ mem',
          convertResult conv tc x.m x.n x.c x.ldc
            { size := s'.room / 4, get := applyStores temp t } mem = .ok mem' ∧
          (∀ r j, r < x.m → j < x.n → mem' (entryAt x.c x.ldc tc r j) = conv (x.sum A B r j)) ∧
          (∀ a, (∀ r j, r < x.m → j < x.n → a ≠ entryAt x.c x.ldc tc r j) → mem' a = mem a) := by
  have hI : ∀ m : OvMode, Call.InRange
      { lhsMem := x.aMem
        lhs := { base := x.a, rows := x.m, cols := x.k, stride := x.lda, order := orderOf ta }
        rhsMem := x.bMem
        rhs := { base := x.b, rows := x.k, cols := x.n, stride := x.ldb, order := orderOf tb }
        result := { base := 0, rows := x.m, cols := x.n, stride := x.ldc, order := orderOf tc }
        pipe := { stages := [], cast := .none }
        lhsOffset := .dup .col x.aOffset x.m, rhsOffset := .dup .row x.bOffset x.n }
      .uint8 m (fun _ => x.aOffset) (fun _ => x.bOffset) :=
    fun m _ => ⟨h.depth.2, fun _ _ => h.aOffset, fun _ _ => h.bOffset⟩
  have wf : WellFormed { env defaultL8R8 with maxThreads := maxThreads } .uint8
      { lhsMem := x.aMem
        lhs := { base := x.a, rows := x.m, cols := x.k, stride := x.lda, order := orderOf ta }
        rhsMem := x.bMem
        rhs := { base := x.b, rows := x.k, cols := x.n, stride := x.ldb, order := orderOf tb }
        result := { base := 0, rows := x.m, cols := x.n, stride := x.ldc, order := orderOf tc }
        pipe := { stages := [], cast := .none }
        lhsOffset := .dup .col x.aOffset x.m, rhsOffset := .dup .row x.bOffset x.n }
      A B (fun _ => x.aOffset) (fun _ => x.bOffset) (fun r j => x.sum A B r j) := by
    refine ⟨h.describes _ _ rfl rfl, hI _, Machine.envOk hm A B, h.depth.1, strideOk_of h.ld, ?_,
      empty_plain.agrees ..⟩
    intro r j hr hj
    apply pipeline_maps
    unfold Call.acc
    rw [toInt_ofInt32 (product_fits (hI .trap) hr hj)]
    exact ⟨_, rfl, rfl⟩
  obtain ⟨pl, h1, ⟨t0, h2⟩, h3⟩ := wf.ok
  have hreq : floatScratchSize tc x.m x.n x.ldc =
      .ok ((4 * ((if tc then x.m else x.n) * x.ldc) : Nat) : Int) := by
    unfold floatScratchSize
    have e : (if tc then (x.m : Int) * x.ldc else (x.n : Int) * x.ldc) =
        (((if tc then x.m else x.n) * x.ldc : Nat) : Int) := by
      cases tc <;> simp
    rw [e, cint_ok (by unfold InI32; omega), ok_bind, pure_ok]
    congr 1
    rw [toInt_ofInt32 (by unfold InI32; omega)]
    push_cast; omega
  obtain ⟨s', a1, a2, a3, -, -⟩ := EbScratch.assureSize_ok hs
    (req := ((4 * ((if tc then x.m else x.n) * x.ldc) : Nat) : Int)) (by omega) p
  have hroom : 4 * ((if tc then x.m else x.n) * x.ldc) ≤ s'.room := by
    have := a2.2; omega
  refine ⟨[pl], s', ?_, a2, ⟨t0, outcomes_single.2 h2⟩, ?_⟩
  · unfold eightBitIntGemmFloat
    rw [hreq, ok_bind, a1, ok_bind, handleCases_all]
    have : eightBitIntGemmInt32Impl (fun p => { env p with maxThreads := maxThreads }) ta tb tc x bd =
        .ok pl := by cases bd <;> exact h1
    rw [this]; rfl
  · intro t ht
    have hp := h3 t (outcomes_single.1 ht)
    have hld := h.ld
    have bound : ∀ r j, r < x.m → j < x.n → entryAt 0 x.ldc tc r j <
        (if tc then x.m else x.n) * x.ldc := by
      intro r j hr hj
      unfold LdOk at hld
      unfold entryAt
      cases tc
      · rw [if_neg (by decide)] at hld ⊢
        have : (j + 1) * x.ldc ≤ x.n * x.ldc := Nat.mul_le_mul_right _ hj
        rw [Nat.add_mul, Nat.one_mul] at this
        show 0 + j * x.ldc + r < x.n * x.ldc
        omega
      · rw [if_pos rfl] at hld ⊢
        have : (r + 1) * x.ldc ≤ x.m * x.ldc := Nat.mul_le_mul_right _ hr
        rw [Nat.add_mul, Nat.one_mul] at this
        show 0 + r * x.ldc + j < x.m * x.ldc
        omega
    constructor
    · intro st hst
      obtain ⟨r, j, hr, hj, rfl⟩ := mem_stores.1 (hp.mem_iff.1 hst)
      have := bound r j hr hj
      dsimp only
      rw [addr_entryAt]
      omega
    · intro temp mem
      have hv := (stores_memory wf.stride hp temp).1
      have hv' : ∀ r j, r < x.m → j < x.n →
          applyStores temp t (entryAt 0 x.ldc tc r j) = x.sum A B r j := by
        intro r j hr hj
        have := hv r j hr hj
        rwa [addr_entryAt] at this
      unfold convertResult
      unfold LdOk at hld
      cases tc
      · rw [if_neg (by decide)] at hld ⊢
        rw [if_neg (by decide)] at hroom
        obtain ⟨mem', c1, c2, c3⟩ := convertRows conv (base := x.c) (ldc := x.ldc) (rows := x.n)
          (cols := x.m) (temp := { size := s'.room / 4, get := applyStores temp t }) mem hld
          (by show x.n * x.ldc ≤ s'.room / 4; omega)
        refine ⟨mem', c1, ?_, ?_⟩
        · intro r j hr hj
          refine (c2 j r hj hr).trans ?_
          have := hv' r j hr hj
          rw [show entryAt 0 x.ldc false r j = j * x.ldc + r by
            show 0 + j * x.ldc + r = _; omega] at this
          exact congrArg conv this
        · intro a ha
          exact c3 a (fun i j hi hj => ha j i hj hi)
      · rw [if_pos rfl] at hld hroom ⊢
        obtain ⟨mem', c1, c2, c3⟩ := convertRows conv (base := x.c) (ldc := x.ldc) (rows := x.m)
          (cols := x.n) (temp := { size := s'.room / 4, get := applyStores temp t }) mem hld
          (by show x.m * x.ldc ≤ s'.room / 4; omega)
        refine ⟨mem', c1, ?_, ?_⟩
        · intro r j hr hj
          refine (c2 r j hr hj).trans ?_
          have := hv' r j hr hj
          rw [show entryAt 0 x.ldc true r j = r * x.ldc + j by
            show 0 + r * x.ldc + j = _; omega] at this
          exact congrArg conv this
        · intro a ha
          exact c3 a ha

/-- **C40**, finding F12: if the scratch memory needs 2^31 bytes, its size wraps to a negative number and
none is allocated: the product is stored through a null pointer. -/
theorem C40_float_scratch_fails (p : Nat) :
    floatScratchSize true 16384 1 32768 = .ok (-2147483648) ∧
    EbScratch.init.assureSize (-2147483648) p = .ok { size := 0, room := 0, buf := 0 } := by
  exact ⟨by decide, rfl⟩

end

/-! ## C41: histories of calls -/

/-- The call sets the maximum number of threads, or frees the resources. -/
def EbOp.SetsOrFrees : EbOp → Prop
  | .setMaxNumThreads _ => True
  | .freePersistentResources => True
  | _ => False

/-- The maximum number of threads with which a product after `ops` is computed. -/
def limitAfter (s : EbState) : Int := s.getContext.1

theorem ebStep_limit {s s' : EbState} {op : EbOp} {r : Option Int} (h : ebStep s op = .ok (s', r)) :
    limitAfter s' = match op with
      | .setMaxNumThreads n => n
      | .freePersistentResources => 1
      | _ => limitAfter s := by
  have ctx : ∀ (c : Option Int) (sc sc' : Option EbScratch),
      limitAfter { (EbState.getContext { context := c, scratch := sc }).2 with scratch := sc' } =
        limitAfter { context := c, scratch := sc } := by
    intro c sc sc'; cases c <;> rfl
  obtain ⟨c, sc⟩ := s
  cases op with
  | gemm =>
    cases c <;> (cases h; rfl)
  | gemmFloat tc m n ldc p =>
    unfold ebStep at h
    dsimp only at h
    cases h1 : floatScratchSize tc m n ldc with
    | error f => rw [h1] at h; cases h
    | ok size =>
      rw [h1, ok_bind] at h
      cases h2 : EbScratch.assureSize
          (EbState.getContext { context := c, scratch := sc }).2.getScratch size p with
      | error f => rw [h2] at h; cases h
      | ok sc' =>
        rw [h2, ok_bind] at h
        cases h
        exact ctx c sc _
  | setMaxNumThreads n => cases h; rfl
  | freePersistentResources => cases h; rfl

theorem ebRun_keep : ∀ {ops : List EbOp} {s s' : EbState}, ebRun s ops = .ok s' →
    (∀ op ∈ ops, ¬ op.SetsOrFrees) → limitAfter s' = limitAfter s := by
  intro ops
  induction ops with
  | nil => intro s s' h _; cases h; rfl
  | cons op ops ih =>
    intro s s' h hops
    unfold ebRun at h
    cases h1 : ebStep s op with
    | error f => rw [h1] at h; cases h
    | ok r =>
      obtain ⟨s1, r⟩ := r
      rw [h1, ok_bind] at h
      rw [ih h (fun o ho => hops o (List.mem_cons_of_mem _ ho)), ebStep_limit h1]
      have := hops op List.mem_cons_self
      cases op with
      | gemm => rfl
      | gemmFloat => rfl
      | setMaxNumThreads n => exact absurd trivial this
      | freePersistentResources => exact absurd trivial this

theorem ebRun_append : ∀ (ops1 ops2 : List EbOp) (s : EbState),
    ebRun s (ops1 ++ ops2) = ebRun s ops1 >>= fun s => ebRun s ops2 := by
  intro ops1
  induction ops1 with
  | nil => intro ops2 s; rfl
  | cons op ops ih =>
    intro ops2 s
    show (ebStep s op >>= fun r => ebRun r.1 (ops ++ ops2)) =
      (ebStep s op >>= fun r => ebRun r.1 ops) >>= fun s => ebRun s ops2
    cases ebStep s op with
    | error f => rfl
    | ok r => exact ih ops2 r.1

/-- **C41.**  A maximum set with `SetMaxNumThreads` is in force for all products until it is set again or
`FreePersistentResources` is called, whatever else is called in between. -/
theorem C41_set_stays_partial {before after : List EbOp} {n : Int} {s : EbState}
    (h : ebRun .init (before ++ .setMaxNumThreads n :: after) = .ok s)
    (ha : ∀ op ∈ after, ¬ op.SetsOrFrees) : limitAfter s = n := by
  rw [ebRun_append] at h
  cases h1 : ebRun .init before with
  | error f => rw [h1] at h; cases h
  | ok s1 =>
    rw [h1, ok_bind] at h
    unfold ebRun at h
    cases h2 : ebStep s1 (.setMaxNumThreads n) with
    | error f => cases h2
    | ok r =>
      obtain ⟨s2, r⟩ := r
      rw [h2, ok_bind] at h
      rw [ebRun_keep h ha, ebStep_limit h2]

/-- **C41**, finding F7: `FreePersistentResources` does not only release memory: it resets the maximum to
1, whatever was set before. -/
theorem C41_free_resets {before after : List EbOp} {s : EbState}
    (h : ebRun .init (before ++ .freePersistentResources :: after) = .ok s)
    (ha : ∀ op ∈ after, ¬ op.SetsOrFrees) : limitAfter s = 1 := by
  rw [ebRun_append] at h
  cases h1 : ebRun .init before with
  | error f => rw [h1] at h; cases h
  | ok s1 =>
    rw [h1, ok_bind] at h
    unfold ebRun at h
    cases h2 : ebStep s1 .freePersistentResources with
    | error f => cases h2
    | ok r =>
      obtain ⟨s2, r⟩ := r
      rw [h2, ok_bind] at h
      rw [ebRun_keep h ha, ebStep_limit h2]

/-- **C41**, finding F7, a history in which a maximum of 4 does not stay in force. -/
theorem C41_set_stays_fails : ∃ s, ebRun .init [.setMaxNumThreads 4, .gemm, .freePersistentResources,
    .gemm] = .ok s ∧ limitAfter s = 1 := ⟨_, rfl, rfl⟩

/-- **C41**, finding F22: eight_bit_int_gemm.h:78-80 documents the default value 0 (as many threads as the
machine has); it is 1. -/
theorem C41_default_is_one {ops : List EbOp} {s : EbState} (h : ebRun .init ops = .ok s)
    (ha : ∀ op ∈ ops, ¬ op.SetsOrFrees) : limitAfter s = 1 := ebRun_keep h ha

theorem ebStep_context {s s' : EbState} {op : EbOp} {r : Option Int} (h : ebStep s op = .ok (s', r)) :
    s'.context.isSome = true ↔ op ≠ .freePersistentResources := by
  have ctx : ∀ s : EbState, s.getContext.2.context.isSome = true := by
    intro s; obtain ⟨c, sc⟩ := s; cases c <;> rfl
  cases op with
  | gemm =>
    cases h
    exact ⟨fun _ h => EbOp.noConfusion h, fun _ => ctx s⟩
  | gemmFloat tc m n ldc p =>
    unfold ebStep at h
    dsimp only at h
    cases h1 : floatScratchSize tc m n ldc with
    | error f => rw [h1] at h; cases h
    | ok size =>
      rw [h1, ok_bind] at h
      cases h2 : EbScratch.assureSize s.getContext.2.getScratch size p with
      | error f => rw [h2] at h; cases h
      | ok sc' =>
        rw [h2, ok_bind] at h
        cases h
        simp [ctx]
  | setMaxNumThreads n => cases h; simp
  | freePersistentResources => cases h; simp

/-- **C41.**  The resources are persistent: after any history there is a context (with its threads) exactly
if the last call was not `FreePersistentResources`, so that each product uses the context of the one
before. -/
theorem C41_persistent {before : List EbOp} {op : EbOp} {s : EbState}
    (h : ebRun .init (before ++ [op]) = .ok s) :
    s.context.isSome = true ↔ op ≠ .freePersistentResources := by
  rw [ebRun_append] at h
  cases h1 : ebRun .init before with
  | error f => rw [h1] at h; cases h
  | ok s1 =>
    rw [h1, ok_bind] at h
    unfold ebRun at h
    cases h2 : ebStep s1 op with
    | error f => rw [h2] at h; cases h
    | ok r =>
      obtain ⟨s2, r⟩ := r
      rw [h2, ok_bind] at h
      cases h
      exact ebStep_context h2

/-- The scratch memory of a state is in order. -/
def EbState.Ok (s : EbState) : Prop := s.getScratch.Ok

theorem ebStep_ok {s s' : EbState} {op : EbOp} {r : Option Int} (hs : s.Ok)
    (h : ebStep s op = .ok (s', r)) : s'.Ok := by
  have init : EbScratch.init.Ok := ⟨by decide, by decide, by decide⟩
  obtain ⟨c, sc⟩ := s
  cases op with
  | gemm => cases c <;> (cases h; exact hs)
  | gemmFloat tc m n ldc p =>
    unfold ebStep at h
    dsimp only at h
    cases h1 : floatScratchSize tc m n ldc with
    | error f => rw [h1] at h; cases h
    | ok size =>
      rw [h1, ok_bind] at h
      have e : (EbState.getContext { context := c, scratch := sc }).2.getScratch = sc.getD .init := by
        cases c <;> rfl
      rw [e] at h
      have hs' : (sc.getD EbScratch.init).Ok := hs
      cases h2 : EbScratch.assureSize (sc.getD .init) size p with
      | error f => rw [h2] at h; cases h
      | ok sc' =>
        rw [h2, ok_bind] at h
        cases h
        show sc'.Ok
        by_cases hz : size + 32 ≤ 2147483647
        · obtain ⟨s2, b1, b2, -⟩ := EbScratch.assureSize_ok hs' hz p
          rw [b1] at h2; cases h2; exact b2
        · unfold EbScratch.assureSize at h2
          by_cases hge : (sc.getD EbScratch.init).size ≥ size
          · rw [if_pos hge] at h2; cases h2; exact hs'
          · rw [if_neg hge] at h2
            have : cint (size + 32) = .error .overflow := by
              unfold cint; rw [if_neg]; unfold InI32; omega
            rw [this] at h2; cases h2
  | setMaxNumThreads n => cases c <;> (cases h; exact hs)
  | freePersistentResources => cases h; exact init

theorem ebRun_ok : ∀ {ops : List EbOp} {s s' : EbState}, s.Ok → ebRun s ops = .ok s' → s'.Ok := by
  intro ops
  induction ops with
  | nil => intro s s' hs h; cases h; exact hs
  | cons op ops ih =>
    intro s s' hs h
    unfold ebRun at h
    cases h1 : ebStep s op with
    | error f => rw [h1] at h; cases h
    | ok r =>
      obtain ⟨s1, r⟩ := r
      rw [h1, ok_bind] at h
      exact ih (ebStep_ok hs h1) h

/-- **C41.**  After every history the scratch memory has at least the recorded size and starts at a multiple of 32,
so that products with a `float` result can rely on it. -/
theorem C41_scratch {ops : List EbOp} {s : EbState} (h : ebRun .init ops = .ok s) :
    s.getScratch.Ok := ebRun_ok (s := .init) ⟨by decide, by decide, by decide⟩ h

/-- **C41.**  No history changes what a product stores, as long as products of this size can be split for
the maximum in force: after any two histories the same call leaves the same memory.  So
`FreePersistentResources`, too, can only be noticed by the number of threads. -/
theorem C41_history_invisible {env : BitDepthParams → Env} {x : EbArgs} {ta tb tc : Bool}
    {bd : BitDepthSetting} {A B : Nat → Nat → UInt8} (h : EbCall ta tb tc x A B)
    {ops ops' : List EbOp} {s s' : EbState} (_ : ebRun .init ops = .ok s)
    (_ : ebRun .init ops' = .ok s')
    (hm : Machine { env defaultL8R8 with maxThreads := limitAfter s } defaultL8R8 x.m x.n x.k)
    (hm' : Machine { env defaultL8R8 with maxThreads := limitAfter s' } defaultL8R8 x.m x.n x.k)
    {cOffset cMult cShift : BitVec 32} {q : Nat → Nat → Int}
    (hq : ∀ r j, r < x.m → j < x.n →
      Spec.QuantizeDown cOffset.toInt cMult.toInt cShift.toInt (x.sum A B r j) (q r j)) :
    ∃ ps ps', eightBitIntGemm env (limitAfter s) ta tb tc x cOffset cMult cShift bd = .ok ps ∧
      eightBitIntGemm env (limitAfter s') ta tb tc x cOffset cMult cShift bd = .ok ps' ∧
      ∀ t t', Outcomes ps t → Outcomes ps' t' → ∀ mem, applyStores mem t = applyStores mem t' := by
  obtain ⟨ps, a1, -, a3⟩ := C40_eight_bit_int_gemm (bd := bd) h hm hq
  obtain ⟨ps', b1, -, b3⟩ := C40_eight_bit_int_gemm (bd := bd) h hm' hq
  refine ⟨ps, ps', a1, b1, fun t t' ht ht' mem => ?_⟩
  obtain ⟨u1, u2⟩ := a3 t ht mem
  obtain ⟨v1, v2⟩ := b3 t' ht' mem
  funext p
  by_cases hp : ∃ r j, r < x.m ∧ j < x.n ∧ p = entryAt x.c x.ldc tc r j
  · obtain ⟨r, j, hr, hj, rfl⟩ := hp
    rw [u1 r j hr hj, v1 r j hr hj]
  · rw [u2 p (fun r j hr hj he => hp ⟨r, j, hr, hj, he⟩), v2 p (fun r j hr hj he => hp ⟨r, j, hr, hj, he⟩)]

/-! ## C55: the fast path -/

/-- **C55.**  When the fast path is taken, it reads and writes the entries where the flags and leading
dimensions say - if a single row (or column) that the flag declares to consist of columns (rows) has
leading dimension 1. -/
theorem C55_fast_path_partial {ta tb tc : Bool} {m n k lda ldb ldc : Nat} {bd : BitDepthSetting}
    (h : canHandleMetaFastpath ta tb tc m n k lda ldb ldc bd = true)
    (ha : m = 1 → ta = false → lda = 1) (hb : n = 1 → tb = true → ldb = 1)
    (hc : m = 1 → tc = false → ldc = 1) (hc' : n = 1 → tc = true → ldc = 1) :
    (∀ a i d, i < m → d < k → fastLhs a k i d = entryAt a lda ta i d) ∧
    (∀ b d j, d < k → j < n → fastRhs b k d j = entryAt b ldb tb d j) ∧
    (∀ c i j, i < m → j < n → fastResult tc ldc m n c i j = entryAt c ldc tc i j) := by
  unfold canHandleMetaFastpath at h
  split at h; · cases h
  split at h; · cases h
  split at h; · cases h
  rename_i h1 h2 h3
  have r : ∀ {t : Bool} {ld rows cols : Nat}, isRowMajorOrVector t ld rows cols = true →
      (t = true ∧ ld = cols) ∨ rows = 1 := by
    intro t ld rows cols h
    unfold isRowMajorOrVector at h
    by_cases h1 : (t && ld == cols) = true
    · exact .inl (by simpa using h1)
    · rw [if_neg h1] at h
      by_cases h2 : (rows == 1) = true
      · exact .inr (by simpa using h2)
      · rw [if_neg h2] at h; cases h
  have c : ∀ {t : Bool} {ld rows cols : Nat}, isColumnMajorOrVector t ld rows cols = true →
      (t = false ∧ ld = rows) ∨ cols = 1 := by
    intro t ld rows cols h
    unfold isColumnMajorOrVector at h
    by_cases h1 : (!t && ld == rows) = true
    · exact .inl (by simpa using h1)
    · rw [if_neg h1] at h
      by_cases h2 : (cols == 1) = true
      · exact .inr (by simpa using h2)
      · rw [if_neg h2] at h; cases h
  have h2 : isRowMajorOrVector ta lda m k = true := by simpa using h2
  have h3 : isColumnMajorOrVector tb ldb k n = true := by simpa using h3
  refine ⟨?_, ?_, ?_⟩
  · intro a i d hi hd
    unfold fastLhs entryAt
    rcases r h2 with ⟨e1, e2⟩ | e
    · rw [e1, if_pos rfl, e2]
    · obtain rfl : i = 0 := by omega
      cases hta : ta
      · rw [if_neg (by decide), ha e hta]; omega
      · rw [if_pos rfl]; omega
  · intro b d j hd hj
    unfold fastRhs entryAt
    rcases c h3 with ⟨e1, e2⟩ | e
    · rw [e1, if_neg (by decide), e2]
    · obtain rfl : j = 0 := by omega
      cases htb : tb
      · rw [if_neg (by decide)]; omega
      · rw [if_pos rfl, hb e htb]; omega
  · intro cc i j hi hj
    unfold fastResult entryAt
    cases h4 : isRowMajorOrVector tc ldc m n
    · rw [h4, if_neg (by decide)] at h
      rw [if_neg (by decide)]
      have h5 : isColumnMajorOrVector tc ldc m n = true := by
        cases h6 : isColumnMajorOrVector tc ldc m n
        · rw [h6] at h; cases h
        · rfl
      rcases c h5 with ⟨e1, e2⟩ | e
      · rw [e1, if_neg (by decide), e2]
      · obtain rfl : j = 0 := by omega
        cases htc : tc
        · rw [if_neg (by decide)]; omega
        · rw [if_pos rfl, hc' e htc]; omega
    · rw [if_pos rfl]
      rcases r h4 with ⟨e1, e2⟩ | e
      · rw [e1, if_pos rfl, e2]
      · obtain rfl : i = 0 := by omega
        cases htc : tc
        · rw [if_neg (by decide), hc e htc]; omega
        · rw [if_pos rfl]; omega

/-- **C55.**  The fast path is taken for eight-bit operands only, and for the depths for which the kernels
of meta/ are made (C58): from 8, so that a first complete step exists, up to 2048, so that their 16-bit sums
of up to 257 steps of 8 bytes cannot overflow. -/
theorem C55_depths {ta tb tc : Bool} {m n k lda ldb ldc : Nat} {bd : BitDepthSetting}
    (h : canHandleMetaFastpath ta tb tc m n k lda ldb ldc bd = true) :
    bd = .a8b8 ∧ 8 ≤ k ∧ k ≤ 2048 ∧ k / 8 * 255 < 65536 := by
  unfold canHandleMetaFastpath at h
  split at h; · cases h
  rename_i h1
  simp only [not_or, not_not, Nat.not_lt] at h1
  exact ⟨h1.1, h1.2.1, h1.2.2, by omega⟩

/-- **C55.**  Conversely it is taken for these depths if `a` consists of rows, `b` of columns without gaps
and the result of rows or of columns without gaps. -/
theorem C55_taken {m n k ldc : Nat} {tc : Bool} (h1 : 8 ≤ k) (h2 : k ≤ 2048)
    (hc : ldc = if tc then n else m) :
    canHandleMetaFastpath true false tc m n k k k ldc .a8b8 = true := by
  unfold canHandleMetaFastpath isRowMajorOrVector isColumnMajorOrVector
  rw [if_neg (by simp; omega)]
  cases tc <;> simp_all

/-- **C55**, finding F23: the fast path is taken for a left-hand side of one row in column-major order
with leading dimension 2, and then reads bytes that are not entries of it;
likewise for a right-hand side of one column, and it writes outside of a result of one row or one
column. -/
theorem C55_fast_path_fails :
    (canHandleMetaFastpath false false false 1 3 8 2 8 1 .a8b8 = true ∧
      fastLhs 0 8 0 1 ≠ entryAt 0 2 false 0 1) ∧
    (canHandleMetaFastpath true true true 3 1 8 8 2 1 .a8b8 = true ∧
      fastRhs 0 8 1 0 ≠ entryAt 0 2 true 1 0) ∧
    (canHandleMetaFastpath true false false 1 3 8 8 8 2 .a8b8 = true ∧
      ∀ i j, i < 1 → j < 3 → fastResult false 2 1 3 0 0 1 ≠ entryAt 0 2 false i j) ∧
    (canHandleMetaFastpath true false true 3 1 8 8 8 2 .a8b8 = true ∧
      ∀ i j, i < 3 → j < 1 → fastResult true 2 3 1 0 1 0 ≠ entryAt 0 2 true i j) := by
  refine ⟨by decide, by decide, ⟨by decide, ?_⟩, ⟨by decide, ?_⟩⟩
  · intro i j hi hj
    show 1 ≠ 0 + j * 2 + i
    omega
  · intro i j hi hj
    show 1 ≠ 0 + i * 2 + j
    omega

/-! ## Cases that meet the hypotheses -/

/-- A 2 x 3 matrix with rows of 4 bytes times a 3 x 2 matrix with columns of 3 bytes. -/
def ebSample : EbArgs :=
  { m := 2, n := 2, k := 3, aMem := fun p => some (UInt8.ofNat (p + 1)), a := 5, aOffset := -1, lda := 4
    bMem := fun p => some (UInt8.ofNat (2 * p)), b := 7, bOffset := 0, ldb := 3, c := 9, ldc := 6 }

example : EbCall true false true ebSample (fun i d => UInt8.ofNat (6 + i * 4 + d))
    (fun d j => UInt8.ofNat (2 * (7 + j * 3 + d))) where
  a := by
    intro i d _ _
    show some (UInt8.ofNat (5 + i * 4 + d + 1)) = _
    congr 2; omega
  b := fun _ _ _ _ => rfl
  ld := by show 2 ≤ 6; decide
  depth := by decide
  aOffset := by decide
  bOffset := by decide

example : Machine (neonSampleEnv Vec.dotprodFormat (Vec.dotprodKernel fun _ _ => 0#8) false) defaultL8R8 2 2 3 :=
  ⟨⟨.neon64Dotprod, _, rfl, .dotprod _, rfl⟩, by decide, by decide, by decide, by decide⟩

example : ∃ s, ebRun .init [.gemm, .setMaxNumThreads 3, .gemmFloat true 2 2 6 1000, .gemm] = .ok s ∧
    limitAfter s = 3 ∧ s.getScratch = { size := 48, room := 56, buf := 1024 } := ⟨_, rfl, rfl, rfl⟩

example : canHandleMetaFastpath true false true 5 3 8 8 8 3 .a8b8 = true := by decide

end Gemmlowp
