import Verif.KernelSelect
import Verif.PropsNeon
/-!
# Property C42: the kernel chosen for declared ranges of operands is safe for them

internal/kernel_default.h:46-55 picks kernels that add products in 16 bits when the declared ranges seem
to allow it.  The sums of two products can overflow exactly if both ranges are unsigned and contain zero
(finding F8); apart from that, and from declarations for which nothing compiles (finding F21), the chosen
kernel is safe, and the entry points with it compute the documented product.
-/
namespace Gemmlowp

open Vec

/-! ## What the property says -/

/-- `v` is a value of the declared range. -/
def OperandRange.Has (r : OperandRange) (v : Int) : Prop := r.lo ≤ v ∧ v ≤ r.hi

/-- The values of the declared ranges are values of the type of the inputs of the kernel. -/
def BitDepthParams.Fits (p : BitDepthParams) (n : KName) : Prop :=
  if n.int8Inputs then -128 ≤ p.lhs.lo ∧ p.lhs.hi ≤ 127 ∧ -128 ≤ p.rhs.lo ∧ p.rhs.hi ≤ 127
  else 0 ≤ p.lhs.lo ∧ p.lhs.hi ≤ 255 ∧ 0 ≤ p.rhs.lo ∧ p.rhs.hi ≤ 255

/-- No sum of two products of operands in the declared ranges overflows 16 bits in kernel `n`. -/
def PairSumsFit (p : BitDepthParams) (n : KName) : Prop :=
  ∀ x x' y y', p.lhs.Has x → p.lhs.Has x' → p.rhs.Has y → p.rhs.Has y' →
    -32768 ≤ (x - n.zeroPoint) * (y - n.zeroPoint) + (x' - n.zeroPoint) * (y' - n.zeroPoint) ∧
    (x - n.zeroPoint) * (y - n.zeroPoint) + (x' - n.zeroPoint) * (y' - n.zeroPoint) ≤ 32767

/-! ## The choice -/

theorem resolve_addsTwo : ∀ (a : Arch) (m u l : Bool) (n : KName), resolve a 3 m u l = .kernel n →
    n.addsTwo = true → l = true ∧ m = false ∧ n.int8Inputs = !u := by
  intro a m u l n
  cases a <;> cases m <;> cases u <;> cases l <;>
    (intro h; first | (have h := Choice.kernel.inj h; subst h; decide) | cases h)

theorem resolve_unsigned : ∀ (a : Arch) (m u l : Bool) (n : KName), resolve a 3 m u l = .kernel n →
    n.int8Inputs = !u := by
  intro a m u l n
  cases a <;> cases m <;> cases u <;> cases l <;>
    (intro h; first | (have h := Choice.kernel.inj h; subst h; decide) | cases h)

theorem resolve_twelve : ∀ (a : Arch) (m u l : Bool),
    resolve a 3 m u l = .kernel .neon32Kernel12x4Depth2Assuming12BitProducts →
    m = true ∧ u = true ∧ l = false := by
  intro a m u l
  cases a <;> cases m <;> cases u <;> cases l <;> decide

variable {a : Arch} {p : BitDepthParams} {n : KName}

theorem select_addsTwo (h : selectKernel a p = .kernel n) (ha : n.addsTwo = true) :
    (0 < p.lhs.lo ∨ (p.lhs.hi ≤ 127 ∧ -128 < p.lhs.lo)) ∧ (n.int8Inputs = false ↔ 0 ≤ p.lhs.lo) := by
  obtain ⟨h1, -, h3⟩ := resolve_addsTwo _ _ _ _ _ h ha
  constructor
  · simpa using h1
  · rw [h3]; simp

theorem select_unsigned (h : selectKernel a p = .kernel n) :
    n.int8Inputs = false ↔ 0 ≤ p.lhs.lo := by
  rw [resolve_unsigned _ _ _ _ _ h]; simp

theorem select_twelve
    (h : selectKernel a p = .kernel .neon32Kernel12x4Depth2Assuming12BitProducts) :
    p.lhs.hi * p.rhs.hi < 4096 ∧ p.lhs.lo = 0 ∧ 127 < p.lhs.hi := by
  obtain ⟨h1, h2, h3⟩ := resolve_twelve _ _ _ _ h
  have h1 := of_decide_eq_true h1
  have h2 := of_decide_eq_true h2
  rw [Bool.or_eq_false_iff, Bool.and_eq_false_iff] at h3
  obtain ⟨h4, h5⟩ := h3
  have h4 := of_decide_eq_false h4
  refine ⟨h1, by omega, ?_⟩
  rcases h5 with h5 | h5
  · have := of_decide_eq_false h5; omega
  · have := of_decide_eq_false h5; omega

theorem mul_within {x y A B : Int} (hx : -A ≤ x) (hx' : x ≤ A) (hy : -B ≤ y) (hy' : y ≤ B) :
    -(A * B) ≤ x * y ∧ x * y ≤ A * B := by
  have hA : (A.natAbs : Int) = A := by omega
  have hB : (B.natAbs : Int) = B := by omega
  have h : (x * y).natAbs ≤ A.natAbs * B.natAbs := by
    rw [Int.natAbs_mul]; exact Nat.mul_le_mul (by omega) (by omega)
  have h' : ((x * y).natAbs : Int) ≤ A * B := by
    have : ((A.natAbs * B.natAbs : Nat) : Int) = A * B := by rw [Int.natCast_mul, hA, hB]
    rw [← this]; exact Int.ofNat_le.2 h
  omega

/-- **C42.**  When the library picks a kernel that adds two products in 16 bits, no sum overflows for
operands in the declared ranges - unless both ranges start at zero. -/
theorem C42_two_products_partial (hs : selectKernel a p = .kernel n) (ha : n.addsTwo = true)
    (hf : p.Fits n) (h0 : ¬ (p.lhs.lo = 0 ∧ p.rhs.lo = 0)) : PairSumsFit p n := by
  obtain ⟨h1, h2⟩ := select_addsTwo hs ha
  intro x x' y y' ⟨a1, a2⟩ ⟨a3, a4⟩ ⟨b1, b2⟩ ⟨b3, b4⟩
  unfold BitDepthParams.Fits at hf
  unfold KName.zeroPoint
  rw [ha]
  cases hn : n.int8Inputs
  · rw [hn] at hf h2
    rw [if_pos (show (true && !false) = true from rfl)]
    rw [if_neg (by decide)] at hf
    have h2 := h2.1 rfl
    by_cases hl : p.lhs.lo = 0
    · have e1 := mul_within (x := x - 128) (y := y - 128) (A := 128) (B := 127)
        (by omega) (by omega) (by omega) (by omega)
      have e2 := mul_within (x := x' - 128) (y := y' - 128) (A := 128) (B := 127)
        (by omega) (by omega) (by omega) (by omega)
      omega
    · have e1 := mul_within (x := x - 128) (y := y - 128) (A := 127) (B := 128)
        (by omega) (by omega) (by omega) (by omega)
      have e2 := mul_within (x := x' - 128) (y := y' - 128) (A := 127) (B := 128)
        (by omega) (by omega) (by omega) (by omega)
      omega
  · rw [hn] at hf h2
    rw [if_neg (show ¬ (true && !true) = true by decide)]
    rw [if_pos rfl] at hf
    have h2 : ¬ 0 ≤ p.lhs.lo := fun h => by cases h2.2 h
    have e1 := mul_within (x := x - 0) (y := y - 0) (A := 127) (B := 128)
      (by omega) (by omega) (by omega) (by omega)
    have e2 := mul_within (x := x' - 0) (y := y' - 0) (A := 127) (B := 128)
      (by omega) (by omega) (by omega) (by omega)
    omega

/-- **C42**, finding F8: if both ranges start at zero, a sum overflows: the property fails for exactly
these declarations. -/
theorem C42_two_products_fail (hs : selectKernel a p = .kernel n) (ha : n.addsTwo = true)
    (hv : p.Valid) (h0 : p.lhs.lo = 0 ∧ p.rhs.lo = 0) : ¬ PairSumsFit p n := by
  intro h
  obtain ⟨h1, h2⟩ := select_addsTwo hs ha
  have hn := h2.2 (by omega)
  obtain ⟨v1, v2⟩ := hv
  have := h 0 0 0 0 ⟨by omega, by omega⟩ ⟨by omega, by omega⟩ ⟨by omega, by omega⟩
    ⟨by omega, by omega⟩
  unfold KName.zeroPoint at this
  rw [ha, hn] at this
  revert this
  decide

/-- **C42**, finding F8: such declarations exist, and the library picks such a kernel for them, on every
architecture that has one. -/
theorem C42_two_products_fail_witness :
    selectKernel .neon32 ⟨⟨0, 127⟩, ⟨0, 255⟩⟩ = .kernel .neon32LhsNonzero ∧
    selectKernel .neon64 ⟨⟨0, 127⟩, ⟨0, 255⟩⟩ = .kernel .neon64LhsNonzero ∧
    selectKernel .msa ⟨⟨0, 127⟩, ⟨0, 255⟩⟩ = .kernel .msaLhsNonzero := by decide

/-- **C42.**  When the library picks the kernel that adds sixteen products in 16 bits, no product of
operands in the declared ranges exceeds 4095, so that no sum of sixteen exceeds 65520. -/
theorem C42_sixteen_products
    (hs : selectKernel a p = .kernel .neon32Kernel12x4Depth2Assuming12BitProducts)
    (hr : 0 ≤ p.rhs.lo) {x y : Nat → Int} (hx : ∀ i, p.lhs.Has (x i)) (hy : ∀ i, p.rhs.Has (y i)) :
    0 ≤ sumTo 16 (fun i => x i * y i) ∧ sumTo 16 (fun i => x i * y i) ≤ 65520 := by
  obtain ⟨h1, h2, h3⟩ := select_twelve hs
  have key : ∀ i, 0 ≤ x i * y i ∧ x i * y i ≤ 4095 := by
    intro i
    obtain ⟨a1, a2⟩ := hx i
    obtain ⟨b1, b2⟩ := hy i
    have e1 : x i * y i ≤ p.lhs.hi * p.rhs.hi := Int.mul_le_mul a2 b2 (by omega) (by omega)
    have e2 : 0 ≤ x i * y i := Int.mul_nonneg (by omega) (by omega)
    omega
  simp only [sumTo]
  have := key 0; have := key 1; have := key 2; have := key 3; have := key 4; have := key 5
  have := key 6; have := key 7; have := key 8; have := key 9; have := key 10; have := key 11
  have := key 12; have := key 13; have := key 14; have := key 15
  omega

/-- **C42**, finding F21: for these ranges, and for no others, the choice is ambiguous and nothing
compiles: both partial specialisations match, on all architectures. -/
theorem C42_ambiguous_iff : selectKernel a p = .ambiguous ↔
    p.lhs.hi * p.rhs.hi < 4096 ∧ 0 ≤ p.lhs.lo ∧ (0 < p.lhs.lo ∨ p.lhs.hi ≤ 127) := by
  have key : ∀ (a : Arch) (m u l : Bool), resolve a 3 m u l = .ambiguous ↔ m && u && l := by
    intro a; cases a <;> decide
  unfold selectKernel
  rw [key]
  simp only [Bool.and_eq_true, Bool.or_eq_true, decide_eq_true_eq]
  constructor
  · rintro ⟨⟨h1, h2⟩, h3 | h3⟩
    · exact ⟨h1, h2, .inl h3⟩
    · exact ⟨h1, h2, .inr h3.1⟩
  · rintro ⟨h1, h2, h3 | h3⟩
    · exact ⟨⟨h1, h2⟩, .inl h3⟩
    · exact ⟨⟨h1, h2⟩, .inr ⟨h3, by omega⟩⟩

/-- **C42**, finding F21: a declaration of 4-bit operands, the purpose of `MaxProductIsLessThan4096`,
does not compile on the architecture that has a kernel for it. -/
theorem C42_ambiguous_witness (a : Arch) : selectKernel a ⟨⟨0, 15⟩, ⟨0, 15⟩⟩ = .ambiguous :=
  C42_ambiguous_iff.2 (by decide)

/-- **C42.**  Apart from the ambiguous ones, unsigned ranges get a kernel for unsigned inputs on every
architecture; so do signed ranges, without −128 on the left and with products that reach 4096, on NEON,
and only there. -/
theorem C42_kernel_exists (hu : 0 ≤ p.lhs.lo) (ha : selectKernel a p ≠ .ambiguous) :
    ∃ n, selectKernel a p = .kernel n ∧ n.int8Inputs = false := by
  have key : ∀ (a : Arch) (m l : Bool), resolve a 3 m true l ≠ .ambiguous →
      ∃ n, resolve a 3 m true l = .kernel n ∧ n.int8Inputs = false := by
    intro a m l
    cases a <;> cases m <;> cases l <;>
      (intro h; first | exact ⟨_, rfl, rfl⟩ | exact absurd rfl h)
  unfold selectKernel at ha ⊢
  rw [decide_eq_true hu] at ha ⊢
  exact key _ _ _ ha

theorem C42_signed_kernel_iff (hu : p.lhs.lo < 0) :
    (∃ n, selectKernel a p = .kernel n) ↔
      (a = .neon32 ∨ a = .neon64 ∨ a = .neon64Dotprod) ∧ 4096 ≤ p.lhs.hi * p.rhs.hi ∧
        p.lhs.hi ≤ 127 ∧ -128 < p.lhs.lo := by
  have key : ∀ (a : Arch) (m l : Bool), (∃ n, resolve a 3 m false l = .kernel n) ↔
      (a = .neon32 ∨ a = .neon64 ∨ a = .neon64Dotprod) ∧ m = false ∧ l = true := by
    intro a m l
    cases a <;> cases m <;> cases l <;>
      first
      | exact ⟨fun _ => by decide, fun _ => ⟨_, rfl⟩⟩
      | exact ⟨fun h => (by obtain ⟨n, hn⟩ := h; cases hn), fun h => absurd h (by decide)⟩
  unfold selectKernel
  rw [decide_eq_false (by omega : ¬ 0 ≤ p.lhs.lo), key, decide_eq_false (by omega : ¬ 0 < p.lhs.lo)]
  simp

/-- **C42.**  What the declarations of public/bit_depth.h get. -/
theorem C42_default_kernels (a : Arch) : ∃ n, selectKernel a defaultL8R8 = .kernel n ∧
    n.addsTwo = false ∧ n ≠ .neon32Kernel12x4Depth2Assuming12BitProducts := by
  cases a <;> exact ⟨_, rfl, rfl, by decide⟩

theorem C42_lhs_nonzero_kernels (a : Arch) : ∃ n, selectKernel a l8r8WithLhsNonzero = .kernel n ∧
    (n.addsTwo = true ↔ a = .neon32 ∨ a = .neon64 ∨ a = .msa) := by
  cases a <;> exact ⟨_, rfl, by decide⟩

/-! ## The entry points with the chosen kernel -/

/-- What the kernels need of a pair of operands. -/
def KName.Pair (n : KName) (x y : Int) : Prop :=
  (n.addsTwo = true → ¬ (x = -128 ∧ y = -128)) ∧
  (n = .neon32Kernel12x4Depth2Assuming12BitProducts → x * y < 4096)

theorem defaultReferenceFormat_wf : defaultReferenceFormat.WF 16 :=
  ⟨⟨by decide, by decide, by decide, by decide, by decide, by decide⟩,
   ⟨by decide, by decide, by decide, by decide, by decide, by decide⟩, by decide⟩

theorem kernelIs_input {mode : OvMode} : ∀ {n reg k run}, KernelIs mode n reg k run →
    k.lhs.input = n.input ∧ k.rhs.input = n.input := by
  intro n reg k run h; cases h <;> exact ⟨rfl, rfl⟩

/-- Declared ranges of unsigned numbers never lead to a kernel for int8 inputs, and the other way round. -/
theorem select_int8 (hs : selectKernel a p = .kernel n) : n.int8Inputs = true ↔ p.lhs.lo < 0 := by
  have := select_unsigned hs
  rw [← Bool.not_eq_false, this]
  omega

theorem kernelIs_meets {mode : OvMode} : ∀ {n reg k run}, KernelIs mode n reg k run →
    k.WF reg ∧ k.kRows ≤ 24 ∧ reg ∣ 33024 ∧ k.lhs.zp = n.zeroPoint ∧ k.rhs.zp = n.zeroPoint ∧
    ∃ N, KernelMeets mode k reg N run ∧ N.pair 0 0 ∧ ∀ x y, n.Pair x y → N.pair x y := by
  have w : ∀ {k reg N run}, KernelOk .wrap k reg N run → KernelMeets mode k reg N run :=
    fun h => ⟨.wrap, h, fun h => by cases h⟩
  intro n reg k run h
  cases h with
  | neon32 x0 => exact ⟨neon32Format_wf, by decide, by decide, rfl, rfl, _, w (neon32Kernel_ok x0),
      trivial, fun _ _ _ => trivial⟩
  | twelve x0 => exact ⟨twelveFormat_wf, by decide, by decide, rfl, rfl, _, w (twelveKernel_ok x0),
      show (0 : Int) * 0 < 4096 by decide, fun _ _ h => h.2 rfl⟩
  | lnz32 x0 => exact ⟨lnz32Format_wf, by decide, by decide, rfl, rfl, _, w (lnz32Kernel_ok x0),
      by show ¬ _; omega, fun _ _ h => h.1 rfl⟩
  | lnz32Int8 x0 => exact ⟨lnz32Int8Format_wf, by decide, by decide, rfl, rfl, _, w (C54_neon32_int8_inputs_kernel x0),
      by show ¬ _; omega, fun _ _ h => h.1 rfl⟩
  | lnz64Int8 x0 => exact ⟨lnz64Int8Format_wf, by decide, by decide, rfl, rfl, _, w (C54_neon64_int8_inputs_kernel x0),
      by show ¬ _; omega, fun _ _ h => h.1 rfl⟩
  | neon64 x0 => exact ⟨neon64Format_wf, by decide, by decide, rfl, rfl, _, w (neon64Kernel_ok x0),
      trivial, fun _ _ _ => trivial⟩
  | dotprod x0 => exact ⟨dotprodFormat_wf, by decide, by decide, rfl, rfl, _, w (dotprodKernel_ok x0),
      trivial, fun _ _ _ => trivial⟩
  | lnz64 x0 => exact ⟨lnz64Format_wf, by decide, by decide, rfl, rfl, _, w (lnz64Kernel_ok x0),
      by show ¬ _; omega, fun _ _ h => h.1 rfl⟩
  | msa x0 => exact ⟨msaFormat_wf, by decide, by decide, rfl, rfl, _, w (msaKernel_ok x0),
      trivial, fun _ _ _ => trivial⟩
  | msaLnz x0 => exact ⟨msaLnzFormat_wf, by decide, by decide, rfl, rfl, _, w (msaLnzKernel_ok x0),
      by show ¬ _; omega, fun _ _ h => h.1 rfl⟩
  | sse32 x0 => exact ⟨sse32Format_wf, by decide, by decide, rfl, rfl, _, w (Asm.sse32Kernel_ok x0 0),
      trivial, fun _ _ _ => trivial⟩
  | sse64 x0 => exact ⟨sse64Format_wf, by decide, by decide, rfl, rfl, _, w (Asm.sse64Kernel_ok x0 0),
      trivial, fun _ _ _ => trivial⟩
  | avx2 x0 slack hs => exact ⟨avx2Format_wf, by decide, by decide, rfl, rfl, _,
      w (Asm.avx2Kernel_ok x0 hs), trivial, fun _ _ _ => trivial⟩
  | reference => exact ⟨defaultReferenceFormat_wf, by decide, by decide, rfl, rfl, _,
      referenceKernel_meets defaultReferenceFormat_wf, trivial, fun _ _ _ => trivial⟩

/-- The register size of an architecture and the formats that can be packed in a build for it. -/
def Packable (a : Arch) (reg : Nat) (f : SideFormat) : Prop :=
  (a = .avx2 → reg = 32) ∧ (a ≠ .avx2 → reg = 16) ∧ PackSimd.Int8Widths f

instance (a : Arch) (reg : Nat) (f : SideFormat) : Decidable (Packable a reg f) := by
  unfold Packable; infer_instance

theorem packerOf_meets {a : Arch} {mode : OvMode} {reg : Nat} {f : SideFormat} (hf : f.WF reg)
    (hin : f.input = .uint8) (h : Packable a reg f) : PackerMeets (packerOf a) mode f reg := by
  obtain ⟨h1, h2, h3⟩ := h
  cases a
  case avx2 => cases h1 rfl; exact PackSimd.avxPacker_meets mode hf hin
  all_goals cases h2 (by decide)
  case neon32 => exact PackSimd.neonPacker_meets true mode hf hin h3
  case neon64 => exact PackSimd.neonPacker_meets false mode hf hin h3
  case neon64Dotprod => exact PackSimd.neonPacker_meets false mode hf hin h3
  case msa => exact PackSimd.msaPacker_meets mode hf hin h3
  case sse32 => exact PackSimd.ssePacker_meets mode hf hin
  case sse64 => exact PackSimd.ssePacker_meets mode hf hin
  case reference => exact packBlock_meets mode hf hin

/-- The formats and orders of a source that can be packed in a build: uint8 inputs in both orders, int8 inputs
in NEON builds, in width-major order, for one cell of depth 16 and width 2 or 4 (internal/pack_neon.h:320-332; the
generic packing does not compile for them). -/
def PackableFor (a : Arch) (reg : Nat) (f : SideFormat) (o : SideMapOrder) : Prop :=
  Packable a reg f ∧ (f.input = .uint8 ∨
    f.scalar = .int8Inputs ∧ (a = .neon32 ∨ a = .neon64 ∨ a = .neon64Dotprod) ∧ o = .widthMajor ∧
      f.cd = 16 ∧ f.order = .widthMajor ∧ f.cells = 1 ∧ (f.cw = 2 ∨ f.cw = 4))

instance (a : Arch) (reg : Nat) (f : SideFormat) (o : SideMapOrder) : Decidable (PackableFor a reg f o) := by
  unfold PackableFor; infer_instance

theorem packerOf_meets_for {a : Arch} {mode : OvMode} {reg : Nat} {f : SideFormat} {o : SideMapOrder} (hf : f.WF reg)
    (h : PackableFor a reg f o) : PackerMeetsFor (packerOf a) mode f reg o := by
  obtain ⟨h1, h2 | ⟨h3, h4, rfl, h5, h6, h7, h8⟩⟩ := h
  · exact packerOf_meets hf h2 h1 o
  · obtain ⟨-, h2, -⟩ := h1
    rcases h4 with rfl | rfl | rfl
    · cases h2 (by decide)
      exact PackSimd.neonPacker_meets_int8 true mode h8 h5 h6 h7 h3
    · cases h2 (by decide)
      exact PackSimd.neonPacker_meets_int8 false mode h8 h5 h6 h7 h3
    · cases h2 (by decide)
      exact PackSimd.neonPacker_meets_int8 false mode h8 h5 h6 h7 h3

/-- The kernel chosen for an architecture and the packing of the same build fit together. -/
theorem chosen_packable {a : Arch} {p : BitDepthParams} {n : KName} {mode : OvMode} {reg : Nat}
    {k : KernelFormat} {run : KernelRun} (hs : selectKernel a p = .kernel n)
    (hk : KernelIs mode n reg k run) : Packable a reg k.lhs ∧ Packable a reg k.rhs := by
  have key : ∀ (a : Arch) (m u l : Bool) (n : KName), resolve a 3 m u l = .kernel n →
      ∀ reg k run, KernelIs mode n reg k run → Packable a reg k.lhs ∧ Packable a reg k.rhs := by
    intro a m u l n
    cases a <;> cases m <;> cases u <;> cases l <;>
      (intro h; first
        | (have h := Choice.kernel.inj h; subst h; intro reg k run hk; cases hk <;> decide)
        | cases h)
  exact key _ _ _ _ _ hs _ _ _ hk

theorem chosen_meets {a : Arch} {p : BitDepthParams} {n : KName} {mode : OvMode} {reg : Nat}
    {k : KernelFormat} {run : KernelRun} (hs : selectKernel a p = .kernel n)
    (hk : KernelIs mode n reg k run) (hwf : k.WF reg) (hn : n.int8Inputs = false) :
    PackerMeets (packerOf a) mode k.lhs reg ∧ PackerMeets (packerOf a) mode k.rhs reg := by
  have hi : n.input = .uint8 := by unfold KName.input; rw [hn]; rfl
  obtain ⟨i1, i2⟩ := kernelIs_input hk
  exact ⟨packerOf_meets hwf.lhs (i1.trans hi) (chosen_packable hs hk).1,
    packerOf_meets hwf.rhs (i2.trans hi) (chosen_packable hs hk).2⟩

/-- The same for int8 inputs, which can be packed if they are in width-major order. -/
theorem chosen_packable_for {a : Arch} {p : BitDepthParams} {n : KName} {mode : OvMode} {reg : Nat}
    {k : KernelFormat} {run : KernelRun} {o : SideMapOrder} (hs : selectKernel a p = .kernel n)
    (hk : KernelIs mode n reg k run) (ho : n.int8Inputs = true → o = .widthMajor) :
    PackableFor a reg k.lhs o ∧ PackableFor a reg k.rhs o := by
  have key : ∀ (a : Arch) (m u l : Bool) (n : KName), resolve a 3 m u l = .kernel n → n.int8Inputs = true →
      a = .neon32 ∨ a = .neon64 ∨ a = .neon64Dotprod := by
    intro a m u l n
    cases a <;> cases m <;> cases u <;> cases l <;>
      (intro h; first
        | (have h := Choice.kernel.inj h; subst h; decide)
        | cases h)
  obtain ⟨h1, h2⟩ := chosen_packable hs hk
  cases hn : n.int8Inputs with
  | false =>
    have hi : n.input = .uint8 := by unfold KName.input; rw [hn]; rfl
    exact ⟨⟨h1, .inl ((kernelIs_input hk).1.trans hi)⟩, ⟨h2, .inl ((kernelIs_input hk).2.trans hi)⟩⟩
  | true =>
    have h3 := key _ _ _ _ _ hs hn
    cases hk with
    | lnz32Int8 x0 => exact ⟨⟨h1, .inr ⟨rfl, h3, ho hn, rfl, rfl, rfl, .inr rfl⟩⟩,
        ⟨h2, .inr ⟨rfl, h3, ho hn, rfl, rfl, rfl, .inl rfl⟩⟩⟩
    | lnz64Int8 x0 => exact ⟨⟨h1, .inr ⟨rfl, h3, ho hn, rfl, rfl, rfl, .inr rfl⟩⟩,
        ⟨h2, .inr ⟨rfl, h3, ho hn, rfl, rfl, rfl, .inr rfl⟩⟩⟩
    | _ => cases hn

theorem chosen_meets_for {a : Arch} {p : BitDepthParams} {n : KName} {mode : OvMode} {reg : Nat}
    {k : KernelFormat} {run : KernelRun} {o : SideMapOrder} (hs : selectKernel a p = .kernel n)
    (hk : KernelIs mode n reg k run) (hwf : k.WF reg) (ho : n.int8Inputs = true → o = .widthMajor) :
    PackerMeetsFor (packerOf a) mode k.lhs reg o ∧ PackerMeetsFor (packerOf a) mode k.rhs reg o :=
  ⟨packerOf_meets_for hwf.lhs (chosen_packable_for hs hk ho).1,
    packerOf_meets_for hwf.rhs (chosen_packable_for hs hk ho).2⟩

section
variable {e : Env} {c : Call} {L R : Nat → Nat → UInt8} {LO RO : Nat → BitVec 32}
  {val : Nat → Nat → Int}

/-- **C42.**  On every architecture, for every declaration of unsigned ranges for which anything
compiles: with the packing and the output stages of the build and the kernel that the library chooses the entry points compute the documented product of
all matrices with entries in the declared ranges, also when `DispatchGemmShape` swaps the sides - unless
a kernel for two products in 16 bits is chosen and both ranges start at zero. -/
theorem C42_gemm_partial (hs : selectKernel a p = .kernel n) (hu : 0 ≤ p.lhs.lo ∧ 0 ≤ p.rhs.lo)
    (hk : KernelIs e.mode n e.reg e.k e.run) (hpack : e.pack = packerOf a)
    (h0 : n.addsTwo = true → ¬ (p.lhs.lo = 0 ∧ p.rhs.lo = 0))
    (hL : ∀ i d, i < c.result.rows → d < c.lhs.cols → p.lhs.Has ((L i d).toNat : Int))
    (hR : ∀ d j, d < c.lhs.cols → j < c.result.cols → p.rhs.Has ((R d j).toNat : Int))
    (h : AsmCall e .uint8 c L R LO RO val) :
    ∃ pl, gemmWithOutputPipelinePC e c = .ok pl ∧ (∃ t, Outcome pl t) ∧
      ∀ t, Outcome pl t → ∀ mem r j, r < c.result.rows → j < c.result.cols →
        applyStores mem t (c.result.addr r j) = val r j := by
  have hn : n.int8Inputs = false := by
    by_contra h
    have := (select_int8 hs).1 (by revert h; cases n.int8Inputs <;> decide)
    omega
  have hi : n.input = .uint8 := by unfold KName.input; rw [hn]; rfl
  obtain ⟨hwf, hrows, hreg, z1, z2, N, hN, hN0, hNp⟩ := kernelIs_meets hk
  refine C01_gemm_with_output_pipeline (h.wellFormed_meets hwf
    ⟨(kernelIs_input hk).1.trans hi, (kernelIs_input hk).2.trans hi⟩
    (fun o _ => by rw [hpack]; exact ⟨(chosen_meets hs hk hwf hn).1 o, (chosen_meets hs hk hwf hn).2 o⟩) hN hreg hrows hN0 ?_)
  intro i j d hi hj hd
  obtain ⟨a1, a2⟩ := hL i d hi hd
  obtain ⟨b1, b2⟩ := hR d j hd hj
  rw [z1, z2]
  have v1 : InputScalar.uint8.val (L i d) = ((L i d).toNat : Int) := rfl
  have v2 : InputScalar.uint8.val (R d j) = ((R d j).toNat : Int) := rfl
  rw [v1, v2]
  have hz : n.addsTwo = true → n.zeroPoint = 128 := by
    intro ha
    unfold KName.zeroPoint
    rw [ha, hn]; rfl
  have two : n.addsTwo = true → ¬ ((L i d).toNat = 0 ∧ (R d j).toNat = 0) := by
    intro ha
    obtain ⟨-, h2⟩ := select_addsTwo hs ha
    have := h2.1 hn
    have := h0 ha
    omega
  have twelve : n = .neon32Kernel12x4Depth2Assuming12BitProducts →
      n.zeroPoint = 0 ∧ ((L i d).toNat : Int) * ((R d j).toNat : Int) < 4096 := by
    intro hn
    subst hn
    obtain ⟨h1, h2, h3⟩ := select_twelve hs
    have : ((L i d).toNat : Int) * ((R d j).toNat : Int) ≤ p.lhs.hi * p.rhs.hi :=
      Int.mul_le_mul a2 b2 (by omega) (by omega)
    exact ⟨rfl, by omega⟩
  constructor
  · refine hNp _ _ ⟨fun ha => ?_, fun hn => ?_⟩
    · have := hz ha; have := two ha; omega
    · obtain ⟨t1, t2⟩ := twelve hn
      rw [t1, Int.sub_zero, Int.sub_zero]; exact t2
  · refine hNp _ _ ⟨fun ha => ?_, fun hn => ?_⟩
    · have := hz ha; have := two ha; omega
    · obtain ⟨t1, t2⟩ := twelve hn
      rw [t1, Int.sub_zero, Int.sub_zero, Int.mul_comm]; exact t2

/-- **C42**, the whole of a build: kernel, packing and output stages of the architecture together, for a
pipeline that all builds compute alike (`Pipeline.Plain`; for other pipelines `AsmCall.out` of
`C42_gemm_partial` says what is needed). -/
theorem C42_plain_build_partial (hs : selectKernel a p = .kernel n) (hu : 0 ≤ p.lhs.lo ∧ 0 ≤ p.rhs.lo)
    (hk : KernelIs e.mode n e.reg e.k e.run) (hpack : e.pack = packerOf a) (hp : c.pipe.Plain)
    (h0 : n.addsTwo = true → ¬ (p.lhs.lo = 0 ∧ p.rhs.lo = 0))
    (hL : ∀ i d, i < c.result.rows → d < c.lhs.cols → p.lhs.Has ((L i d).toNat : Int))
    (hR : ∀ d j, d < c.lhs.cols → j < c.result.cols → p.rhs.Has ((R d j).toNat : Int))
    (h : AsmCall { e with out := .scalar } .uint8 c L R LO RO val) :
    ∃ pl, gemmWithOutputPipelinePC { e with out := outOf a } c = .ok pl ∧ (∃ t, Outcome pl t) ∧
      ∀ t, Outcome pl t → ∀ mem r j, r < c.result.rows → j < c.result.cols →
        applyStores mem t (c.result.addr r j) = val r j :=
  C42_gemm_partial (e := { e with out := outOf a }) hs hu hk hpack h0 hL hR
    ⟨h.describes, h.inRange, h.threads, h.fits1, h.fits2, h.depth, h.depthInt, h.stride, h.pipe, hp.agrees ..⟩

end

/-- **C42**, which output stages an architecture has: the cast to int8 compiles except for MSA and SSE, the
truncating cast except for NEON and SSE. -/
theorem C42_casts_compile (a : Arch) (stages : List Stage) (hst : ∀ A, ∀ s ∈ stages, s.Supports A) :
    ((outOf a).Supports { stages := stages, cast := .satInt8 } ↔ ¬ (a = .msa ∨ a = .sse32 ∨ a = .sse64)) ∧
    ((outOf a).Supports { stages := stages, cast := .truncUint8 } ↔
      ¬ (a = .neon32 ∨ a = .neon64 ∨ a = .neon64Dotprod ∨ a = .sse32 ∨ a = .sse64)) := by
  cases a <;>
    simp [outOf, OutBuild.Supports, Pipeline.Supports, Cast.Supports]
  all_goals exact fun s hs => hst _ s hs

example : ∀ A, ∀ s ∈ [Stage.clamp 0 255], s.Supports A := by
  intro A s hs
  rw [List.mem_singleton.1 hs]
  trivial

/-- **C42**, finding F8: the kernel chosen for a left-hand side in [0, 127] and a right-hand side in
[0, 255] does not compute the products of operands in these ranges. -/
theorem C42_unsigned_7bit_wrong :
    selectKernel .neon64 ⟨⟨0, 127⟩, ⟨0, 255⟩⟩ = .kernel .neon64LhsNonzero ∧
    ¬ KernelOk .wrap lnz64Format 16
      { pair := fun x y => (0 ≤ x + 128 ∧ x + 128 ≤ 127) ∧ (0 ≤ y + 128 ∧ y + 128 ≤ 255)
        pad := False, int := True } (lnz64Kernel (fun _ _ => 0#8)) := by
  refine ⟨by decide, fun h => ?_⟩
  have := addLast_entry (F := lnz64Format) (r0 := 12) (v := 0x80) rfl (by decide) (by decide) rfl
    (colTiles (tiles := lnz64Stores) (fun c => 12 + c) (by decide) (by decide) (by decide)).covers
    (by decide) ⟨by
      have : ∀ d, d < 16 →
        (0 ≤ runCoeff lnz64Format.lhs (constMem 0x80).lhs 0 0 d + 128 ∧
          runCoeff lnz64Format.lhs (constMem 0x80).lhs 0 0 d + 128 ≤ 127) ∧
        (0 ≤ runCoeff lnz64Format.rhs (constMem 0x80).rhs 0 0 d + 128 ∧
          runCoeff lnz64Format.rhs (constMem 0x80).rhs 0 0 d + 128 ≤ 255) := by decide
      exact this, False.elim⟩ h
  rw [pipe, if_pos (by decide)] at this
  revert this
  decide +kernel

/-! ## Declarations that meet the hypotheses -/

example : PairSumsFit l8r8WithLhsNonzero .neon64LhsNonzero :=
  C42_two_products_partial (a := .neon64) (by decide) rfl
    (by unfold BitDepthParams.Fits; decide) (by decide)

example : PairSumsFit signedL8R8WithLhsNonzero .neon64LhsNonzeroInt8Inputs :=
  C42_two_products_partial (a := .neon64Dotprod) (by decide) rfl
    (by unfold BitDepthParams.Fits; decide) (by decide)

example : selectKernel .neon32 ⟨⟨0, 255⟩, ⟨0, 15⟩⟩ =
    .kernel .neon32Kernel12x4Depth2Assuming12BitProducts := by decide

example (x0) : ∃ pl, gemmWithOutputPipelinePC
    (neonSampleEnv lnz32Format (lnz32Kernel x0) true) sampleCall = .ok pl :=
  (C42_gemm_partial (a := .neon32) (p := l8r8WithLhsNonzero) (n := .neon32LhsNonzero) (by decide)
    (by decide) (.lnz32 x0) rfl (by decide)
    (forall_lt_lt (n := 2) (m := 3)
      (P := fun i d => l8r8WithLhsNonzero.lhs.Has ((sampleL i d).toNat : Int)) (by
        unfold OperandRange.Has; decide))
    (fun d j _ _ => ⟨Int.natCast_nonneg _, by
      have := (sampleR d j).toNat_lt
      show ((sampleR d j).toNat : Int) ≤ 255
      omega⟩)
    (neon_sample _ _ _ (by decide))).imp fun _ h => h.1

example (x0) : ∃ pl, gemmWithOutputPipelinePC
    { neonSampleEnv lnz32Format (lnz32Kernel x0) true with out := .vec .neon } sampleCall = .ok pl := by
  have h := neon_sample lnz32Format (lnz32Kernel x0) true (by decide)
  exact (C42_plain_build_partial (a := .neon32) (p := l8r8WithLhsNonzero) (n := .neon32LhsNonzero)
    (e := neonSampleEnv lnz32Format (lnz32Kernel x0) true) (by decide)
    (by decide) (.lnz32 x0) rfl sample_plain (by decide)
    (forall_lt_lt (n := 2) (m := 3)
      (P := fun i d => l8r8WithLhsNonzero.lhs.Has ((sampleL i d).toNat : Int)) (by
        unfold OperandRange.Has; decide))
    (fun d j _ _ => ⟨Int.natCast_nonneg _, by
      have := (sampleR d j).toNat_lt
      show ((sampleR d j).toNat : Int) ≤ 255
      omega⟩)
    ⟨h.describes, h.inRange, h.threads, h.fits1, h.fits2, h.depth, h.depthInt, h.stride, h.pipe,
      ⟨trivial, fun _ _ _ _ => trivial⟩⟩).imp fun _ h => h.1

end Gemmlowp
