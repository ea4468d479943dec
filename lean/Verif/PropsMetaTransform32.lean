import Verif.MetaTransformCheck32
import Verif.PropsMetaTransform
/-!
# C65: the one-dimensional transformations of meta/ on 32-bit ARM

As C64, for the other architecture; `Requantize` computes something else there.
-/
namespace Gemmlowp.Spec

open MetaAsm (FloatOps)

/-- From one range to the other, without the offset of the output, rounded to zero. -/
def requantize32F (f : FloatOps) (min offset scale min' invScale' x : BitVec 32) : BitVec 8 :=
  byteOf (f.toZero (f.mul (f.add (f.mul (f.sub (f.ofInt x) offset) scale) (f.sub min min')) invScale')).toInt

end Gemmlowp.Spec

namespace Gemmlowp.Meta

open MetaAsm

theorem rq32_sound : rq32Kind.Sound where
  si := Or.inr rfl
  so := Or.inl rfl
  expr _ _ _ _ _ := by
    simp only [rq32Kind, LE.eval, setWidth_zx16, FloatOps.un, FloatOps.bin, XE.eval, Nat.cast_zero, Int.zero_mul,
      Int.add_zero]

def Requantize.val32 (p : Requantize) (f : FloatOps) (x : BitVec 32) : BitVec 8 :=
  Spec.requantize32F f p.inputRangeMin p.inputRangeOffset p.inputRangeScale p.outputRangeMin p.oneOverOutputRangeScale x

theorem requantize32_wrote (e : TEnv) (mem : Int → BitVec 8) {count input output : Nat} {progs : Nat → Option Prog}
    (hall : ((List.range 16).all fun r => (progs r).any fun p => rq32Kind.progOk r p && rq32Kind.initOk r p.init) = true)
    (p : Requantize) (hc : 0 < count) (hr : Allowed e.readable input (4 * count))
    (hw : Allowed e.writable output count) (nc : NoClobber input output 4 1 count) :
    ∃ l, transform1D (transformKernel progs e p.par mem count input output) 16 count = .ok l ∧
      Wrote l output 1 count fun i => (p.val32 e.f (word mem ((input : Int) + (4 * i : Nat)))).zeroExtend 32 := by
  obtain ⟨l, h1, h2⟩ := transform_ok hall rq32_sound (fun _ _ _ _ _ => rfl) rfl rfl e p.par mem hc hr
    (by show Allowed _ _ (1 * count); rw [Nat.one_mul]; exact hw) nc
  refine ⟨l, h1, h2.congr fun i _ => ?_⟩
  simp only [rq32Kind, Requantize.par, BitVec.ofInt_toInt, satU8_sat16]
  rfl

/-! ## The property -/

section
variable (e : TEnv) (mem : Int → BitVec 8) {count input output : Nat}

/-- **C65** for `Quantize`: each byte of the output is `(x - range_min) * range_scale + range_offset` for its element
`x`, rounded to zero and cut to 0 .. 255; the rest of memory keeps its contents.  The output may be where the input
is.  Only the elements of the input are read: `e.readable` is any set of places that has them. -/
theorem C65_quantize (p : Quantize) (hc : 0 < count) (hr : Allowed e.readable input (4 * count))
    (hw : Allowed e.writable output count) (nc : NoClobber input output 4 1 count) :
    ∃ l, quantize1D32 e p mem 16 count input output = .ok l ∧
      (∀ i : Nat, i < count → memAfter l mem ((output : Int) + i) =
        Spec.quantizeF e.f p.rangeMin p.rangeOffset p.rangeScale (word mem ((input : Int) + (4 * i : Nat)))) ∧
      ∀ a : Int, a < output ∨ (output : Int) + count ≤ a → memAfter l mem a = mem a := by
  obtain ⟨l, h1, h2⟩ := quantize_wrote e mem qz32_all p hc hr hw nc
  exact ⟨l, h1, bytes_of_wrote h2 mem⟩

/-- **C65** for `Requantize`. -/
theorem C65_requantize_partial (p : Requantize) (hc : 0 < count) (hr : Allowed e.readable input (4 * count))
    (hw : Allowed e.writable output count) (nc : NoClobber input output 4 1 count) :
    ∃ l, requantize1D32 e p mem 16 count input output = .ok l ∧
      (∀ i : Nat, i < count → memAfter l mem ((output : Int) + i) =
        Spec.requantize32F e.f p.inputRangeMin p.inputRangeOffset p.inputRangeScale p.outputRangeMin
          p.oneOverOutputRangeScale (word mem ((input : Int) + (4 * i : Nat)))) ∧
      ∀ a : Int, a < output ∨ (output : Int) + count ≤ a → memAfter l mem a = mem a := by
  obtain ⟨l, h1, h2⟩ := requantize32_wrote e mem rq32_all p hc hr hw nc
  exact ⟨l, h1, bytes_of_wrote h2 mem⟩

/-- **C65** for `Dequantize`. -/
theorem C65_dequantize (p : Dequantize) (hc : 0 < count) (hr : Allowed e.readable input count)
    (hw : Allowed e.writable output (4 * count)) (nc : NoClobber input output 1 4 count) :
    ∃ l, dequantize1D32 e p mem 16 count input output = .ok l ∧
      (∀ i : Nat, i < count → word (memAfter l mem) ((output : Int) + (4 * i : Nat)) =
        Spec.dequantizeF e.f p.rangeMin p.rangeOffset p.rangeScale (mem ((input : Int) + i))) ∧
      ∀ a : Int, a < output ∨ (output : Int) + (4 * count : Nat) ≤ a → memAfter l mem a = mem a := by
  obtain ⟨l, h1, h2⟩ := dequantize_wrote e mem dq32_all p hc hr hw nc
  exact ⟨l, h1, words_of_wrote h2 mem⟩

/-- **C65** for `MinMax`. -/
theorem C65_minmax (p : MinMax) (hc : 0 < count) (hr : Allowed e.readable input count)
    (hw : Allowed e.writable output count) (nc : NoClobber input output 1 1 count) :
    ∃ l, minMax1D32 e p mem 16 count input output = .ok l ∧
      (∀ i : Nat, i < count → memAfter l mem ((output : Int) + i) =
        Spec.minMaxB p.min p.max (mem ((input : Int) + i))) ∧
      ∀ a : Int, a < output ∨ (output : Int) + count ≤ a → memAfter l mem a = mem a := by
  obtain ⟨l, h1, h2⟩ := minMax_wrote e mem mm32_all p hc hr hw nc
  exact ⟨l, h1, bytes_of_wrote h2 mem⟩

/-- **C65** for `BiasAdd`: `rows` rows of `count` elements; the bias is the same for all rows. -/
theorem C65_bias_add (p : BiasAdd) (hc : 0 < count) (hrows : 0 < p.rows)
    (hr : Allowed e.readable input (count * p.rows)) (hb : Allowed e.readable p.bias count)
    (hw : Allowed e.writable output (4 * (count * p.rows))) (nc : NoClobber input output 1 4 (count * p.rows))
    (nb : output + 4 * (count * p.rows) ≤ p.bias ∨ p.bias + count ≤ output) :
    ∃ l, biasAdd1D32 e p mem 16 count input output = .ok l ∧
      (∀ r j : Nat, r < p.rows → j < count →
        word (memAfter l mem) ((output : Int) + (4 * (r * count + j) : Nat)) =
          Spec.biasAddF e.f p.inputRangeMin p.inputRangeScale p.biasRangeMin p.biasRangeScale p.outputRangeMin
            p.outputRangeOffset p.oneOverOutputRangeScale (mem ((input : Int) + (r * count + j : Nat)))
            (mem ((p.bias : Int) + j))) ∧
      ∀ a : Int, a < output ∨ (output : Int) + (4 * (count * p.rows) : Nat) ≤ a → memAfter l mem a = mem a := by
  obtain ⟨l, h1, h2⟩ := biasAdd_wrote e mem ba32_all p hc hrows hr hb hw nc nb
  obtain ⟨h3, h4⟩ := words_of_wrote h2 mem
  refine ⟨l, h1, fun r j h5 h6 => ?_, h4⟩
  have hlt : r * count + j < count * p.rows := by
    rw [Nat.mul_comm r]; exact place_lt h5 h6
  rw [h3 _ hlt, Nat.mul_comm r, Nat.mul_add_mod, Nat.mod_eq_of_lt h6]
  rfl

end

section
variable {e : TEnv} {mem : Int → BitVec 8} {seen : Nat → Int → BitVec 8} {count input output : Nat} {maxThreads : Int}

/-- **C65** for `Quantize` with several threads, whatever each of them sees of what the others have stored up to now
and in whatever order (`w`) the stores take effect. -/
theorem C65_quantize_threads (p : Quantize) (hc : 0 < count) (hfit : count * 8 ≤ 2147483647)
    (hr : Allowed e.readable input (4 * count)) (hw : Allowed e.writable output count)
    (ha : input + 4 * count ≤ output ∨ output + count ≤ input)
    (hs : ∀ o, prepareTransform1DTasks 8 maxThreads count = .ok o → Seen mem seen 1 count output o) :
    ∃ ls, multiThreadTransform1D (quantize1D32 e p · 16) 8 4 1 maxThreads seen count input output = .ok ls ∧
      ∀ w, (∀ x, x ∈ w ↔ x ∈ ls.flatten) →
        (∀ i : Nat, i < count → memAfter w mem ((output : Int) + i) =
          Spec.quantizeF e.f p.rangeMin p.rangeOffset p.rangeScale (word mem ((input : Int) + (4 * i : Nat)))) ∧
        ∀ a : Int, a < output ∨ (output : Int) + count ≤ a → memAfter w mem a = mem a := by
  obtain ⟨ls, h1, h2⟩ := threads_ok (run := (quantize1D32 e p · 16)) (e := e) (si := 4) (so := 1) (cost := 8)
    (val := fun x => (p.val e.f x).zeroExtend 32) (.inr rfl) (.inl rfl)
    (by
      intro mem n inp out a b c d
      rw [Nat.one_mul] at c
      exact quantize_wrote e mem qz32_all p a b c d)
    (by omega) hc hfit hr (by rw [Nat.one_mul]; exact hw) (by unfold SameOrApart; omega) hs
  exact ⟨ls, h1, fun w hw' => bytes_of_wrote (h2 w hw') mem⟩

/-- **C65** for `Requantize` with several threads. -/
theorem C65_requantize_threads_partial (p : Requantize) (hc : 0 < count) (hfit : count * 12 ≤ 2147483647)
    (hr : Allowed e.readable input (4 * count)) (hw : Allowed e.writable output count)
    (ha : input + 4 * count ≤ output ∨ output + count ≤ input)
    (hs : ∀ o, prepareTransform1DTasks 12 maxThreads count = .ok o → Seen mem seen 1 count output o) :
    ∃ ls, multiThreadTransform1D (requantize1D32 e p · 16) 12 4 1 maxThreads seen count input output = .ok ls ∧
      ∀ w, (∀ x, x ∈ w ↔ x ∈ ls.flatten) →
        (∀ i : Nat, i < count → memAfter w mem ((output : Int) + i) =
          Spec.requantize32F e.f p.inputRangeMin p.inputRangeOffset p.inputRangeScale p.outputRangeMin
            p.oneOverOutputRangeScale (word mem ((input : Int) + (4 * i : Nat)))) ∧
        ∀ a : Int, a < output ∨ (output : Int) + count ≤ a → memAfter w mem a = mem a := by
  obtain ⟨ls, h1, h2⟩ := threads_ok (run := (requantize1D32 e p · 16)) (e := e) (si := 4) (so := 1) (cost := 12)
    (val := fun x => (p.val32 e.f x).zeroExtend 32) (.inr rfl) (.inl rfl)
    (by
      intro mem n inp out a b c d
      rw [Nat.one_mul] at c
      exact requantize32_wrote e mem rq32_all p a b c d)
    (by omega) hc hfit hr (by rw [Nat.one_mul]; exact hw) (by unfold SameOrApart; omega) hs
  exact ⟨ls, h1, fun w hw' => bytes_of_wrote (h2 w hw') mem⟩

/-- **C65** for `Dequantize` with several threads. -/
theorem C65_dequantize_threads (p : Dequantize) (hc : 0 < count) (hfit : count * 12 ≤ 2147483647)
    (hr : Allowed e.readable input count) (hw : Allowed e.writable output (4 * count))
    (ha : input + count ≤ output ∨ output + 4 * count ≤ input)
    (hs : ∀ o, prepareTransform1DTasks 12 maxThreads count = .ok o → Seen mem seen 4 count output o) :
    ∃ ls, multiThreadTransform1D (dequantize1D32 e p · 16) 12 1 4 maxThreads seen count input output = .ok ls ∧
      ∀ w, (∀ x, x ∈ w ↔ x ∈ ls.flatten) →
        (∀ i : Nat, i < count → word (memAfter w mem) ((output : Int) + (4 * i : Nat)) =
          Spec.dequantizeF e.f p.rangeMin p.rangeOffset p.rangeScale (mem ((input : Int) + i))) ∧
        ∀ a : Int, a < output ∨ (output : Int) + (4 * count : Nat) ≤ a → memAfter w mem a = mem a := by
  obtain ⟨ls, h1, h2⟩ := threads_ok (run := (dequantize1D32 e p · 16)) (e := e) (si := 1) (so := 4) (cost := 12)
    (val := fun x => p.val e.f (x.extractLsb' 0 8)) (.inl rfl) (.inr rfl)
    (by
      intro mem n inp out a b c d
      rw [Nat.one_mul] at b
      obtain ⟨l, h1, h2⟩ := dequantize_wrote e mem dq32_all p a b c d
      refine ⟨l, h1, h2.congr fun i _ => ?_⟩
      dsimp only [elem]
      rw [if_neg (by omega), zx_low, Nat.one_mul])
    (by omega) hc hfit (by rw [Nat.one_mul]; exact hr) hw (by unfold SameOrApart; omega) hs
  refine ⟨ls, h1, fun w hw' => words_of_wrote ((h2 w hw').congr fun i _ => ?_) mem⟩
  dsimp only [elem]
  rw [if_neg (by omega), zx_low, Nat.one_mul]
  rfl

/-- **C65** for `MinMax` with several threads; here the output may be the input. -/
theorem C65_minmax_threads (p : MinMax) (hc : 0 < count) (hfit : count * 4 ≤ 2147483647)
    (hr : Allowed e.readable input count) (hw : Allowed e.writable output count)
    (ha : input + count ≤ output ∨ output + count ≤ input ∨ input = output)
    (hs : ∀ o, prepareTransform1DTasks 4 maxThreads count = .ok o → Seen mem seen 1 count output o) :
    ∃ ls, multiThreadTransform1D (minMax1D32 e p · 16) 4 1 1 maxThreads seen count input output = .ok ls ∧
      ∀ w, (∀ x, x ∈ w ↔ x ∈ ls.flatten) →
        (∀ i : Nat, i < count → memAfter w mem ((output : Int) + i) =
          Spec.minMaxB p.min p.max (mem ((input : Int) + i))) ∧
        ∀ a : Int, a < output ∨ (output : Int) + count ≤ a → memAfter w mem a = mem a := by
  obtain ⟨ls, h1, h2⟩ := threads_ok (run := (minMax1D32 e p · 16)) (e := e) (si := 1) (so := 1) (cost := 4)
    (val := fun x => (p.val (x.extractLsb' 0 8)).zeroExtend 32) (.inl rfl) (.inl rfl)
    (by
      intro mem n inp out a b c d
      rw [Nat.one_mul] at b c
      obtain ⟨l, h1, h2⟩ := minMax_wrote e mem mm32_all p a b c d
      refine ⟨l, h1, h2.congr fun i _ => ?_⟩
      dsimp only [elem]
      rw [if_neg (by omega), zx_low, Nat.one_mul])
    (by omega) hc hfit (by rw [Nat.one_mul]; exact hr) (by rw [Nat.one_mul]; exact hw)
    (by unfold SameOrApart; omega) hs
  refine ⟨ls, h1, fun w hw' => bytes_of_wrote ((h2 w hw').congr fun i _ => ?_) mem⟩
  dsimp only [elem]
  rw [if_neg (by omega), zx_low, Nat.one_mul]
  rfl

end

/-! ## `Requantize` is not the same on both architectures: finding F38 -/

/-- Some values of floating-point arithmetic, as IEEE 754 has them: 3 * 0.5 = 1.5, which is 1 rounded to zero and 2
rounded to nearest; 10 + 5 = 15. -/
structure SomeFloats (f : FloatOps) : Prop where
  three : f.ofInt 3 = 0x40400000#32
  ten : f.ofInt 10 = 0x41200000#32
  sub0 : f.sub 0x40400000#32 0 = 0x40400000#32
  sub1 : f.sub 0x41200000#32 0 = 0x41200000#32
  sub2 : f.sub 0 0 = 0
  mul0 : f.mul 0x40400000#32 0x3f000000#32 = 0x3fc00000#32
  mul1 : f.mul 0x41200000#32 0x3f800000#32 = 0x41200000#32
  mul2 : f.mul 0x3fc00000#32 0x3f800000#32 = 0x3fc00000#32
  add0 : f.add 0x3fc00000#32 0 = 0x3fc00000#32
  add1 : f.add 0x41200000#32 0 = 0x41200000#32
  add2 : f.add 0x41200000#32 0x40a00000#32 = 0x41700000#32
  near0 : f.toNearest 0x3fc00000#32 = 2
  near1 : f.toNearest 0x41700000#32 = 15
  zero0 : f.toZero 0x3fc00000#32 = 1
  zero1 : f.toZero 0x41200000#32 = 10

/-- Offset of the output 5, everything else neutral. -/
def rqOffset : Requantize := ⟨0, 0, 0x3f800000#32, 0, 0x40a00000#32, 0x3f800000#32⟩

/-- Scale of the input 0.5, everything else neutral. -/
def rqHalf : Requantize := ⟨0, 0, 0x3f000000#32, 0, 0, 0x3f800000#32⟩

/-- **C65** is not the same as C64 for `Requantize`, finding F38: from the same element 10 (3) the 64-bit code makes
15 (2) and the 32-bit code 10 (1). -/
theorem C65_requantize_fails (e : TEnv) (hf : SomeFloats e.f) (mem : Int → BitVec 8)
    (hr : Allowed e.readable 1000 4) (hw : Allowed e.writable 2000 1) :
    (word mem 1000 = 10 → ∃ l l', requantize1D e rqOffset mem 16 1 1000 2000 = .ok l ∧
      requantize1D32 e rqOffset mem 16 1 1000 2000 = .ok l' ∧ memAfter l mem 2000 = 15 ∧ memAfter l' mem 2000 = 10) ∧
    (word mem 1000 = 3 → ∃ l l', requantize1D e rqHalf mem 16 1 1000 2000 = .ok l ∧
      requantize1D32 e rqHalf mem 16 1 1000 2000 = .ok l' ∧ memAfter l mem 2000 = 2 ∧ memAfter l' mem 2000 = 1) := by
  have both : ∀ p, ∃ l l', requantize1D e p mem 16 1 1000 2000 = .ok l ∧
      requantize1D32 e p mem 16 1 1000 2000 = .ok l' ∧
      memAfter l mem 2000 = Spec.requantizeF e.f p.inputRangeMin p.inputRangeOffset p.inputRangeScale p.outputRangeMin
        p.outputRangeOffset p.oneOverOutputRangeScale (word mem 1000) ∧
      memAfter l' mem 2000 = Spec.requantize32F e.f p.inputRangeMin p.inputRangeOffset p.inputRangeScale
        p.outputRangeMin p.oneOverOutputRangeScale (word mem 1000) := by
    intro p
    obtain ⟨l, h1, h2, -⟩ := C64_requantize e mem p (count := 1) (input := 1000) (output := 2000) (by omega)
      hr hw (by unfold NoClobber; omega)
    obtain ⟨l', h1', h2', -⟩ := C65_requantize_partial e mem p (count := 1) (input := 1000) (output := 2000) (by omega)
      hr hw (by unfold NoClobber; omega)
    exact ⟨l, l', h1, h1', h2 0 (by omega), h2' 0 (by omega)⟩
  constructor
  · intro h
    obtain ⟨l, l', h1, h2, h3, h4⟩ := both rqOffset
    refine ⟨l, l', h1, h2, ?_, ?_⟩
    · rw [h3, h]
      simp only [Spec.requantizeF, rqOffset, hf.ten, hf.sub1, hf.sub2, hf.mul1, hf.add1, hf.add2, hf.near1]
      decide
    · rw [h4, h]
      simp only [Spec.requantize32F, rqOffset, hf.ten, hf.sub1, hf.sub2, hf.mul1, hf.add1, hf.zero1]
      decide
  · intro h
    obtain ⟨l, l', h1, h2, h3, h4⟩ := both rqHalf
    refine ⟨l, l', h1, h2, ?_, ?_⟩
    · rw [h3, h]
      simp only [Spec.requantizeF, rqHalf, hf.three, hf.sub0, hf.sub2, hf.mul0, hf.mul2, hf.add0, hf.near0]
      decide
    · rw [h4, h]
      simp only [Spec.requantize32F, rqHalf, hf.three, hf.sub0, hf.sub2, hf.mul0, hf.mul2, hf.add0, hf.zero0]
      decide

/-! ## No elements: finding F39 -/

/-- **C65** needs an element, as C64: finding F39. -/
theorem C65_no_elements (e : TEnv) (mem : Int → BitVec 8) (input output : Nat) :
    (∀ p, quantize1D32 e p mem 16 0 input output = .error .diverge) ∧
    (∀ p, dequantize1D32 e p mem 16 0 input output = .error .diverge) ∧
    (∀ p, requantize1D32 e p mem 16 0 input output = .error .diverge) ∧
    (∀ p, minMax1D32 e p mem 16 0 input output = .error .diverge) ∧
    ∀ p, biasAdd1D32 e p mem 16 0 input output = .error .diverge :=
  ⟨fun _ => transform_missed qz32_all qz_sound rfl .., fun _ => transform_missed dq32_all dq_sound rfl ..,
    fun _ => transform_missed rq32_all rq32_sound rfl .., fun _ => transform_missed mm32_all mm_sound rfl ..,
    fun _ => biasAdd_missed ba32_all ..⟩

/-! ## Cases -/

/-- 37 elements in place: `C65_quantize`, `C65_requantize_partial` and `C65_minmax` apply; and 37 bytes at the end of
the space for the result: `C65_dequantize` applies. -/
example : NoClobber (1000 : Nat) (1000 : Nat) 4 1 37 ∧ NoClobber (1000 : Nat) (1000 : Nat) 1 1 37 ∧
    NoClobber (1111 : Nat) (1000 : Nat) 1 4 37 := by
  unfold NoClobber; omega

/-- A table of these values: `C65_requantize_fails` applies. -/
example : ∃ f : FloatOps, SomeFloats f := by
  refine ⟨{ ofInt := fun x => if x = 3 then 0x40400000#32 else 0x41200000#32
            sub := fun x _ => x
            mul := fun x y => if x = 0x40400000#32 ∧ y = 0x3f000000#32 then 0x3fc00000#32 else x
            add := fun x y => if y = 0 then x else 0x41700000#32
            toNearest := fun x => if x = 0x3fc00000#32 then 2 else 15
            toZero := fun x => if x = 0x3fc00000#32 then 1 else 10 }, ?_⟩
  constructor <;> decide

end Gemmlowp.Meta
