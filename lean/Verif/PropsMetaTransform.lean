import Verif.MetaTransformProof
import Verif.PropsMeta
import Verif.FixedSpec
/-!
# C64: the one-dimensional transformations of meta/ on 64-bit ARM

Each element of the output becomes what its formula gives for the element of the input, and nothing else in memory
changes, also when the output overlaps the input in ways that allow it, and with several threads in whatever
order they store.
-/
namespace Gemmlowp.Spec

open MetaAsm (FloatOps)

/-- The bits of a byte that is a number cut to 0 .. 255. -/
def byteOf (x : Int) : BitVec 8 := BitVec.ofInt 8 (clampTo 0 255 x)

/-- `(x - range_min) * range_scale + range_offset`, rounded to zero. -/
def quantizeF (f : FloatOps) (min offset scale x : BitVec 32) : BitVec 8 :=
  byteOf (f.toZero (f.add (f.mul (f.sub x min) scale) offset)).toInt

/-- `(x - range_offset) * range_scale + range_min`. -/
def dequantizeF (f : FloatOps) (min offset scale : BitVec 32) (x : BitVec 8) : BitVec 32 :=
  f.add (f.mul (f.sub (f.ofInt (BitVec.ofNat 32 x.toNat)) offset) scale) min

/-- From one range to the other, rounded to the nearest integer. -/
def requantizeF (f : FloatOps) (min offset scale min' offset' invScale' x : BitVec 32) : BitVec 8 :=
  byteOf (f.toNearest (f.add (f.mul (f.add (f.mul (f.sub (f.ofInt x) offset) scale) (f.sub min min')) invScale')
    offset')).toInt

/-- The element cut to `lo .. hi`. -/
def minMaxB (lo hi x : BitVec 8) : BitVec 8 := BitVec.ofNat 8 (min (max x.toNat lo.toNat) hi.toNat)

/-- The sum of an element and a bias, each from its own range, in the range of the output. -/
def biasAddF (f : FloatOps) (min scale biasMin biasScale min' offset' invScale' : BitVec 32) (x b : BitVec 8) :
    BitVec 32 :=
  let real (scale min : BitVec 32) (x : BitVec 8) := f.add (f.mul (f.ofInt (BitVec.ofNat 32 x.toNat)) scale) min
  f.toZero (f.add (f.mul (f.sub (f.add (real scale min x) (real biasScale biasMin b)) min') invScale') offset')

end Gemmlowp.Spec

namespace Gemmlowp.Meta

open MetaAsm

/-! ## Formulas -/

theorem satU8_sat16 (x : BitVec 32) : satU8 (sat16 x) = Spec.byteOf x.toInt := by
  have h : (sat16 x).toInt = if x.toInt < -32768 then -32768 else if 32767 < x.toInt then 32767 else x.toInt := by
    unfold sat16
    rw [BitVec.toInt_ofInt, Int.bmod_def]
    split
    · decide
    · split
      · decide
      · split <;> omega
  unfold satU8 Spec.byteOf Spec.clampTo
  rw [h]
  congr 1
  split <;> (try split) <;> (try split) <;> omega

theorem sx_zx (b : BitVec 8) : ((b.zeroExtend 32).setWidth 16).signExtend 32 = BitVec.ofNat 32 b.toNat := by
  apply BitVec.eq_of_toInt_eq
  have hb := b.isLt
  have h16 : ((b.zeroExtend 32).setWidth 16).toNat = b.toNat := by
    rw [BitVec.toNat_setWidth, BitVec.toNat_setWidth]; omega
  rw [BitVec.toInt_signExtend, BitVec.toInt_eq_toNat_bmod, BitVec.toInt_eq_toNat_bmod, h16, BitVec.toNat_ofNat,
    show min 32 16 = 16 from rfl]
  simp only [Int.bmod_def]
  omega

theorem append_toNat {v w : Nat} (a : BitVec v) (b : BitVec w) : (a ++ b).toNat = 2 ^ w * a.toNat + b.toNat := by
  rw [BitVec.toNat_append, Nat.shiftLeft_eq, Nat.mul_comm, ← Nat.two_pow_add_eq_or_of_lt b.isLt]

theorem word_of_applied {m m' : Int → BitVec 8} {out : Int} {n : Nat} {g : Nat → BitVec 32}
    (h : Applied m m' out 4 n g) {i : Nat} (hi : i < n) : word m' (out + (4 * i : Nat)) = g i := by
  have h0 := h.val i 0 hi (by omega)
  have h1 := h.val i 1 hi (by omega)
  have h2 := h.val i 2 hi (by omega)
  have h3 := h.val i 3 hi (by omega)
  unfold word
  rw [show out + ((4 * i : Nat) : Int) + 3 = out + (4 * i + 3 : Nat) by omega,
    show out + ((4 * i : Nat) : Int) + 2 = out + (4 * i + 2 : Nat) by omega,
    show out + ((4 * i : Nat) : Int) + 1 = out + (4 * i + 1 : Nat) by omega,
    show out + ((4 * i : Nat) : Int) = out + (4 * i + 0 : Nat) by omega, h0, h1, h2, h3]
  generalize g i = x
  apply BitVec.eq_of_toNat_eq
  have hx := x.isLt
  simp only [append_toNat, BitVec.extractLsb'_toNat, Nat.shiftRight_eq_div_pow]
  omega

/-! ## One thread -/

/-- All of `n` bytes from `a` on may be used. -/
def Allowed (ok : Int → Bool) (a n : Nat) : Prop := ∀ q : Nat, q < n → ok ((a + q : Nat) : Int) = true

theorem get_prog {α : Type} {progs : Nat → Option α} {ok : Nat → α → Bool}
    (h : ((List.range 16).all fun r => (progs r).any fun p => ok r p) = true) {r : Nat} (hr : r < 16) :
    ∃ p, progs r = some p ∧ ok r p = true := by
  rw [List.all_eq_true] at h
  have := h r (List.mem_range.2 hr)
  cases e : progs r with
  | none => rw [e] at this; simp at this
  | some p => rw [e] at this; exact ⟨p, rfl, by simpa using this⟩

theorem transform_ok {K : Kind} {progs : Nat → Option Prog}
    (hall : ((List.range 16).all fun r => (progs r).any fun p => K.progOk r p && K.initOk r p.init) = true)
    (hK : K.Sound) (hv : ∀ f p a b b', K.val f p a b = K.val f p a b') (hbp : K.bp = none) (hctr : K.ctr = .count)
    (e : TEnv) (par : (Par → Int) → Par → Int) (mem : Int → BitVec 8) {count input output : Nat} (hc : 0 < count)
    (hr : Allowed e.readable input (K.si * count)) (hw : Allowed e.writable output (K.so * count))
    (nc : NoClobber input output K.si K.so count) :
    ∃ l, transform1D (transformKernel progs e par mem count input output) 16 count = .ok l ∧
      Wrote l output K.so count fun i =>
        K.val e.f (par fun p => e.x (.par p)) (elem K.si mem ((input : Int) + (K.si * i : Nat))) 0 := by
  rw [C44_dispatch_transform _ (by omega)]
  obtain ⟨p, hp, hok⟩ := get_prog hall (Nat.mod_lt count (by omega : 0 < 16))
  rw [Bool.and_eq_true] at hok
  obtain ⟨t, e1, w, rd⟩ := Kind.run1 hK (fun _ => hv) hbp hctr hc hok.1 hok.2 e.f mem
    (s := ⟨e.v, transformRegs par count input output e.x, [], [], []⟩) rfl rfl rfl nc
  refine ⟨t.wr, ?_, ?_⟩
  · unfold transformKernel
    rw [if_neg (by simp), hp]
    dsimp only
    rw [e1, checked, if_pos]
    rw [Bool.and_eq_true]
    refine ⟨rd _ fun q hq => ?_, Wrote.writesIn w fun q hq => ?_⟩
    · exact hr q hq
    · exact hw q hq
  · exact w.congr fun i _ => hv _ _ _ _ _

theorem qz_sound : qzKind.Sound where
  si := Or.inr rfl
  so := Or.inl rfl
  expr _ _ _ _ _ := by
    simp only [qzKind, LE.eval, setWidth_zx16, FloatOps.un, FloatOps.bin, XE.eval, Nat.cast_zero, Int.zero_mul, Int.add_zero]

theorem dq_sound : dqKind.Sound where
  si := Or.inl rfl
  so := Or.inr rfl
  expr _ _ _ _ _ := by
    simp only [dqKind, LE.eval, FloatOps.un, FloatOps.bin, XE.eval, Nat.cast_zero, Int.zero_mul, Int.add_zero]

theorem rq_sound : rqKind.Sound where
  si := Or.inr rfl
  so := Or.inl rfl
  expr _ _ _ _ _ := by
    simp only [rqKind, LE.eval, setWidth_zx16, FloatOps.un, FloatOps.bin, XE.eval, Nat.cast_zero, Int.zero_mul, Int.add_zero]

theorem mm_sound : mmKind.Sound where
  si := Or.inl rfl
  so := Or.inl rfl
  expr _ _ _ _ _ := by
    simp only [mmKind, LE.eval, XE.eval, Nat.cast_zero, Int.zero_mul, Int.add_zero]

/-- What each transformation computes from an element. -/
def Quantize.val (p : Quantize) (f : FloatOps) (x : BitVec 32) : BitVec 8 :=
  Spec.quantizeF f p.rangeMin p.rangeOffset p.rangeScale x

def Dequantize.val (p : Dequantize) (f : FloatOps) (x : BitVec 8) : BitVec 32 :=
  Spec.dequantizeF f p.rangeMin p.rangeOffset p.rangeScale x

def Requantize.val (p : Requantize) (f : FloatOps) (x : BitVec 32) : BitVec 8 :=
  Spec.requantizeF f p.inputRangeMin p.inputRangeOffset p.inputRangeScale p.outputRangeMin p.outputRangeOffset
    p.oneOverOutputRangeScale x

def MinMax.val (p : MinMax) (x : BitVec 8) : BitVec 8 := Spec.minMaxB p.min p.max x

def BiasAdd.val (p : BiasAdd) (f : FloatOps) (x b : BitVec 8) : BitVec 32 :=
  Spec.biasAddF f p.inputRangeMin p.inputRangeScale p.biasRangeMin p.biasRangeScale p.outputRangeMin p.outputRangeOffset
    p.oneOverOutputRangeScale x b

theorem mm_val (lo hi x : BitVec 8) :
    (let l : BitVec 32 := (BitVec.ofInt 8 (lo.toNat : Int)).zeroExtend 32
    let h : BitVec 32 := (BitVec.ofInt 8 (hi.toNat : Int)).zeroExtend 32
    let c := if (x.zeroExtend 32).toNat ≤ l.toNat then l else x.zeroExtend 32
    if c.toNat ≤ h.toNat then c else h) = (Spec.minMaxB lo hi x).zeroExtend 32 := by
  have ofI : ∀ b : BitVec 8, BitVec.ofInt 8 (b.toNat : Int) = b := by
    intro b; rw [BitVec.ofInt_natCast, BitVec.ofNat_toNat, BitVec.setWidth_eq]
  have z : ∀ b : BitVec 8, (b.zeroExtend 32).toNat = b.toNat := by
    intro b; have := b.isLt; rw [BitVec.toNat_setWidth]; omega
  rw [ofI, ofI]
  unfold Spec.minMaxB
  have hx := x.isLt
  have h1 := lo.isLt
  have h2 := hi.isLt
  apply BitVec.eq_of_toNat_eq
  dsimp only
  rw [z]
  split <;> split <;> simp only [z, BitVec.toNat_ofNat] at * <;> omega

section
variable (e : TEnv) (mem : Int → BitVec 8) {count input output : Nat}

theorem quantize_wrote {progs : Nat → Option Prog}
    (hall : ((List.range 16).all fun r => (progs r).any fun p => qzKind.progOk r p && qzKind.initOk r p.init) = true)
    (p : Quantize) (hc : 0 < count) (hr : Allowed e.readable input (4 * count))
    (hw : Allowed e.writable output count) (nc : NoClobber input output 4 1 count) :
    ∃ l, transform1D (transformKernel progs e p.par mem count input output) 16 count = .ok l ∧
      Wrote l output 1 count fun i =>
      (p.val e.f (word mem ((input : Int) + (4 * i : Nat)))).zeroExtend 32 := by
  obtain ⟨l, h1, h2⟩ := transform_ok hall qz_sound (fun _ _ _ _ _ => rfl) rfl rfl e p.par mem hc hr
    (by show Allowed _ _ (1 * count); rw [Nat.one_mul]; exact hw) nc
  refine ⟨l, h1, h2.congr fun i _ => ?_⟩
  simp only [qzKind, Quantize.par, BitVec.ofInt_toInt, satU8_sat16]
  rfl

theorem requantize_wrote {progs : Nat → Option Prog}
    (hall : ((List.range 16).all fun r => (progs r).any fun p => rqKind.progOk r p && rqKind.initOk r p.init) = true)
    (p : Requantize) (hc : 0 < count) (hr : Allowed e.readable input (4 * count))
    (hw : Allowed e.writable output count) (nc : NoClobber input output 4 1 count) :
    ∃ l, transform1D (transformKernel progs e p.par mem count input output) 16 count = .ok l ∧
      Wrote l output 1 count fun i =>
      (p.val e.f (word mem ((input : Int) + (4 * i : Nat)))).zeroExtend 32 := by
  obtain ⟨l, h1, h2⟩ := transform_ok hall rq_sound (fun _ _ _ _ _ => rfl) rfl rfl e p.par mem hc hr
    (by show Allowed _ _ (1 * count); rw [Nat.one_mul]; exact hw) nc
  refine ⟨l, h1, h2.congr fun i _ => ?_⟩
  simp only [rqKind, Requantize.par, BitVec.ofInt_toInt, satU8_sat16]
  rfl

theorem dequantize_wrote {progs : Nat → Option Prog}
    (hall : ((List.range 16).all fun r => (progs r).any fun p => dqKind.progOk r p && dqKind.initOk r p.init) = true)
    (p : Dequantize) (hc : 0 < count) (hr : Allowed e.readable input count)
    (hw : Allowed e.writable output (4 * count)) (nc : NoClobber input output 1 4 count) :
    ∃ l, transform1D (transformKernel progs e p.par mem count input output) 16 count = .ok l ∧
      Wrote l output 4 count fun i =>
      p.val e.f (mem ((input : Int) + i)) := by
  obtain ⟨l, h1, h2⟩ := transform_ok hall dq_sound (fun _ _ _ _ _ => rfl) rfl rfl e p.par mem hc
    (by show Allowed _ _ (1 * count); rw [Nat.one_mul]; exact hr) hw nc
  refine ⟨l, h1, h2.congr fun i _ => ?_⟩
  simp only [dqKind, Dequantize.par, BitVec.ofInt_toInt, elem, Nat.one_mul]
  rw [if_neg (by omega), sx_zx]
  rfl

theorem minMax_wrote {progs : Nat → Option Prog}
    (hall : ((List.range 16).all fun r => (progs r).any fun p => mmKind.progOk r p && mmKind.initOk r p.init) = true)
    (p : MinMax) (hc : 0 < count) (hr : Allowed e.readable input count)
    (hw : Allowed e.writable output count) (nc : NoClobber input output 1 1 count) :
    ∃ l, transform1D (transformKernel progs e p.par mem count input output) 16 count = .ok l ∧
      Wrote l output 1 count fun i =>
      (p.val (mem ((input : Int) + i))).zeroExtend 32 := by
  obtain ⟨l, h1, h2⟩ := transform_ok hall mm_sound (fun _ _ _ _ _ => rfl) rfl rfl e p.par mem hc
    (by show Allowed _ _ (1 * count); rw [Nat.one_mul]; exact hr)
    (by show Allowed _ _ (1 * count); rw [Nat.one_mul]; exact hw) nc
  refine ⟨l, h1, h2.congr fun i _ => ?_⟩
  simp only [mmKind, MinMax.par, elem, Nat.one_mul]
  rw [if_neg (by omega)]
  exact mm_val p.min p.max _

theorem biasAdd_wrote {progs : Nat → Option RowsProg}
    (hall : ((List.range 16).all fun r => (progs r).any fun p => baInitOk p.init && baRowOk r p.row) = true)
    (p : BiasAdd) (hc : 0 < count) (hrows : 0 < p.rows)
    (hr : Allowed e.readable input (count * p.rows)) (hb : Allowed e.readable p.bias count)
    (hw : Allowed e.writable output (4 * (count * p.rows))) (nc : NoClobber input output 1 4 (count * p.rows))
    (nb : output + 4 * (count * p.rows) ≤ p.bias ∨ p.bias + count ≤ output) :
    ∃ l, transform1D (biasAddKernel progs e p mem count input output) 16 count = .ok l ∧
      Wrote l output 4 (count * p.rows) fun i =>
      p.val e.f (mem ((input : Int) + i)) (mem ((p.bias : Int) + (i % count : Nat))) := by
  rw [C44_dispatch_transform _ (by omega)]
  obtain ⟨g, hp, hok⟩ := get_prog hall (Nat.mod_lt count (by omega : 0 < 16))
  rw [Bool.and_eq_true] at hok
  obtain ⟨t, e1, w, rd⟩ := ba_run hc hrows hok.1 hok.2 e.f mem
    (s := ⟨e.v, biasAddRegs p count input output e.x, [], [], []⟩) rfl rfl rfl rfl nc
    (by show (output : Int) + _ ≤ (p.bias : Int) ∨ (p.bias : Int) + _ ≤ (output : Int); omega)
  refine ⟨t.wr, ?_, ?_⟩
  · unfold biasAddKernel
    rw [if_neg (by simp), hp]
    dsimp only
    rw [e1, checked, if_pos]
    rw [Bool.and_eq_true]
    exact ⟨rd _ (fun q hq => hr q hq) (fun q hq => hb q hq), Wrote.writesIn w fun q hq => hw q hq⟩
  · refine w.congr fun i _ => ?_
    simp only [baAt, baKind, biasAddRegs, transformRegs, BiasAdd.par, BitVec.ofInt_toInt, elem]
    rw [if_neg (by omega), if_neg (by omega), sx_zx, sx_zx]
    rfl

end

/-! ## Several threads -/

theorem mapM_exists {α β : Type} {f : α → M β} {P : α → β → Prop} : ∀ {l : List α}, (∀ t ∈ l, ∃ b, f t = .ok b ∧ P t b) →
    ∃ bs, l.mapM f = .ok bs ∧ (∀ b ∈ bs, ∃ t ∈ l, P t b) ∧ ∀ t ∈ l, ∃ b ∈ bs, P t b
  | [], _ => ⟨[], rfl, by simp, by simp⟩
  | t :: l, h => by
    obtain ⟨b, e, hb⟩ := h t (by simp)
    obtain ⟨bs, es, h1, h2⟩ := mapM_exists (l := l) fun t ht => h t (by simp [ht])
    refine ⟨b :: bs, ?_, ?_, ?_⟩
    · rw [List.mapM_cons, e, ok_bind, es, ok_bind]; rfl
    · intro c hc
      rcases List.mem_cons.1 hc with rfl | hc
      · exact ⟨t, by simp, hb⟩
      · obtain ⟨u, hu, hp⟩ := h1 c hc
        exact ⟨u, by simp [hu], hp⟩
    · intro u hu
      rcases List.mem_cons.1 hu with rfl | hu
      · exact ⟨b, by simp, hb⟩
      · obtain ⟨c, hc, hp⟩ := h2 u hu
        exact ⟨c, by simp [hc], hp⟩

/-- What task `j` finds differs from what was in memory before the call at most where other tasks write. -/
def Seen (mem : Int → BitVec 8) (seen : Nat → Int → BitVec 8) (so count output : Nat) : Option (List (Nat × Nat)) → Prop
  | none => seen 0 = mem
  | some ts => ∀ j c, ts[j]? = some c → ∀ a : Int, seen j a ≠ mem a →
      (output ≤ a ∧ a < output + (so * count : Nat)) ∧
        ¬ ((output + so * c.1 : Nat) ≤ a ∧ a < (output + so * (c.1 + c.2) : Nat))

/-- Input and output are apart, or the same with elements of the same size. -/
def SameOrApart (input output si so count : Nat) : Prop :=
  input + si * count ≤ output ∨ output + so * count ≤ input ∨ (si = so ∧ input = output)

theorem threads_ok {run : (Int → BitVec 8) → Nat → Nat → Nat → M (List (Write Vec.VReg Int))} {e : TEnv} {cost si so : Nat}
    {val : BitVec 32 → BitVec 32} (hsi : si = 1 ∨ si = 4) (hso : so = 1 ∨ so = 4)
    (hrun : ∀ mem n inp out, 0 < n → Allowed e.readable inp (si * n) → Allowed e.writable out (so * n) →
      NoClobber inp out si so n →
      ∃ l, run mem n inp out = .ok l ∧ Wrote l out so n fun i => val (elem si mem ((inp : Int) + (si * i : Nat))))
    (hcost : cost ≤ 12) {maxThreads : Int} {mem : Int → BitVec 8} {seen : Nat → Int → BitVec 8} {count input output : Nat}
    (hc : 0 < count) (hfit : count * cost ≤ 2147483647) (hr : Allowed e.readable input (si * count))
    (hw : Allowed e.writable output (so * count)) (ha : SameOrApart input output si so count)
    (hs : ∀ o, prepareTransform1DTasks cost maxThreads count = .ok o → Seen mem seen so count output o) :
    ∃ ls, multiThreadTransform1D run cost si so maxThreads seen count input output = .ok ls ∧
      ∀ w, (∀ x, x ∈ w ↔ x ∈ ls.flatten) →
        Wrote w output so count fun i => val (elem si mem ((input : Int) + (si * i : Nat))) := by
  have wm : ∀ {w l : List (Write Vec.VReg Int)}, (∀ x, x ∈ w ↔ x ∈ l) → ∀ y, y ∈ bytesOf w ↔ y ∈ bytesOf l := by
    intro w l h y
    unfold bytesOf
    simp only [List.mem_flatMap, h]
  obtain ⟨o, ho, hcase⟩ := C45_transform_tasks (maxThreads := maxThreads) hcost hfit
  have hseen := hs o ho
  unfold multiThreadTransform1D
  rw [ho, ok_bind]
  rcases hcase with rfl | ⟨ts, rfl, hp, -, -⟩
  · obtain ⟨l, e1, wl⟩ := hrun (seen 0) count input output hc hr hw (by
      unfold NoClobber
      unfold SameOrApart at ha
      rcases hsi with rfl | rfl <;> rcases hso with rfl | rfl <;> omega)
    rw [show seen 0 = mem from hseen] at e1 wl
    refine ⟨[l], ?_, ?_⟩
    · dsimp only
      rw [show seen 0 = mem from hseen, e1]; rfl
    · intro w hw'
      have m := wm hw'
      simp only [List.flatten_cons, List.flatten_nil, List.append_nil] at m
      exact ⟨fun x hx => wl.sub x ((m x).1 hx), fun i k hi hk => by
        obtain ⟨x, hx, e⟩ := wl.all i k hi hk
        exact ⟨x, (m x).2 hx, e⟩⟩
  · have each : ∀ t ∈ ts.zipIdx, ∃ l, run (seen t.2) t.1.2 (input + si * t.1.1) (output + so * t.1.1) = .ok l ∧
        Wrote l (output + so * t.1.1 : Nat) so t.1.2 fun i =>
          val (elem si mem ((input : Int) + (si * (t.1.1 + i) : Nat))) := by
      rintro ⟨c, j⟩ ht
      have hj : ts[j]? = some c := List.mem_zipIdx_iff_getElem?.1 ht
      have hcm : c ∈ ts := List.mem_of_getElem? hj
      have hpos := hp.nonempty c hcm
      have hin := hp.within c hcm
      have mi : si * (c.1 + c.2) ≤ si * count := Nat.mul_le_mul_left _ hin
      have mo : so * (c.1 + c.2) ≤ so * count := Nat.mul_le_mul_left _ hin
      rw [Nat.mul_add] at mi mo
      obtain ⟨l, e1, wl⟩ := hrun (seen j) c.2 (input + si * c.1) (output + so * c.1) hpos
        (by
          intro q hq
          rw [show input + si * c.1 + q = input + (si * c.1 + q) by omega]
          exact hr _ (by omega))
        (by
          intro q hq
          rw [show output + so * c.1 + q = output + (so * c.1 + q) by omega]
          exact hw _ (by omega))
        (by
          unfold NoClobber
          unfold SameOrApart at ha
          rcases hsi with rfl | rfl <;> rcases hso with rfl | rfl <;> omega)
      refine ⟨l, e1, wl.congr fun i hi => ?_⟩
      have sm : ∀ a : Int, ((input + si * c.1 : Nat) : Int) ≤ a → a < ((input + si * (c.1 + c.2) : Nat) : Int) →
          seen j a = mem a := by
        intro a h1 h2
        by_contra hne
        have := hseen j c hj a hne
        unfold SameOrApart at ha
        rcases hsi with rfl | rfl <;> rcases hso with rfl | rfl <;> omega
      have e2 : ((input + si * c.1 : Nat) : Int) + ((si * i : Nat) : Int) = (input : Int) + ((si * (c.1 + i) : Nat) : Int) := by
        rw [Nat.mul_add]; omega
      have hi' : si * (i + 1) ≤ si * c.2 := Nat.mul_le_mul_left _ hi
      rw [Nat.mul_add, Nat.mul_one] at hi'
      dsimp only
      rw [e2, elem_congr (m := mem) hsi]
      intro q hq
      apply sm
      · rw [Nat.mul_add]; omega
      · rw [Nat.mul_add, Nat.mul_add]; omega
    obtain ⟨ls, e1, h1, h2⟩ := mapM_exists each
    refine ⟨ls, e1, fun w hw' => ?_⟩
    have m := wm hw'
    have mf : ∀ y, y ∈ bytesOf ls.flatten ↔ ∃ l ∈ ls, y ∈ bytesOf l := by
      intro y
      unfold bytesOf
      simp only [List.mem_flatMap, List.mem_flatten]
      constructor
      · rintro ⟨x, ⟨l, hl, hx⟩, hy⟩; exact ⟨l, hl, x, hx, hy⟩
      · rintro ⟨l, hl, x, hx, hy⟩; exact ⟨x, ⟨l, hl, hx⟩, hy⟩
    constructor
    · intro x hx
      obtain ⟨l, hl, hx⟩ := (mf x).1 ((m x).1 hx)
      obtain ⟨⟨c, j⟩, ht, wl⟩ := h1 l hl
      have hj : ts[j]? = some c := List.mem_zipIdx_iff_getElem?.1 ht
      have hin := hp.within c (List.mem_of_getElem? hj)
      obtain ⟨i, k, hi, hk, rfl⟩ := wl.sub x hx
      refine ⟨c.1 + i, k, by dsimp only at hi; omega, hk, Prod.ext ?_ rfl⟩
      dsimp only
      rw [Nat.mul_add]
      omega
    · intro i k hi hk
      obtain ⟨j, ⟨c, hj, hi1, hi2⟩, -⟩ := hp.covered i hi
      obtain ⟨l, hl, wl⟩ := h2 (c, j) (List.mem_zipIdx_iff_getElem?.2 hj)
      obtain ⟨x, hx, e⟩ := wl.all (i - c.1) k (by dsimp only; omega) hk
      refine ⟨x, (m x).2 ((mf x).2 ⟨l, hl, hx⟩), ?_⟩
      rw [e]
      have hb : so * i = so * c.1 + so * (i - c.1) := by rw [← Nat.mul_add]; congr 1; omega
      dsimp only
      omega

/-! ## The property -/

theorem bytes_of_wrote {l : List (Write Vec.VReg Int)} {output count : Nat} {g : Nat → BitVec 8}
    (h : Wrote l output 1 count fun i => (g i).zeroExtend 32) (mem : Int → BitVec 8) :
    (∀ i : Nat, i < count → memAfter l mem ((output : Int) + i) = g i) ∧
    ∀ a : Int, a < output ∨ (output : Int) + count ≤ a → memAfter l mem a = mem a := by
  have := h.applied mem
  refine ⟨fun i hi => ?_, fun a ha => this.rest a (by omega)⟩
  have v := this.val i 0 hi (by omega)
  rw [Nat.one_mul, Nat.add_zero, Nat.mul_zero, zx_low] at v
  exact v

theorem words_of_wrote {l : List (Write Vec.VReg Int)} {output count : Nat} {g : Nat → BitVec 32}
    (h : Wrote l output 4 count g) (mem : Int → BitVec 8) :
    (∀ i : Nat, i < count → word (memAfter l mem) ((output : Int) + (4 * i : Nat)) = g i) ∧
    ∀ a : Int, a < output ∨ (output : Int) + (4 * count : Nat) ≤ a → memAfter l mem a = mem a :=
  ⟨fun _ hi => word_of_applied (h.applied mem) hi, (h.applied mem).rest⟩

section
variable (e : TEnv) (mem : Int → BitVec 8) {count input output : Nat}

/-- **C64** for `Quantize`: each byte of the output is `(x - range_min) * range_scale + range_offset` for its element
`x`, rounded to zero and cut to 0 .. 255; the rest of memory keeps its contents.  The output may be where the input
is.  Only the elements of the input are read: `e.readable` is any set of places that has them. -/
theorem C64_quantize (p : Quantize) (hc : 0 < count) (hr : Allowed e.readable input (4 * count))
    (hw : Allowed e.writable output count) (nc : NoClobber input output 4 1 count) :
    ∃ l, quantize1D e p mem 16 count input output = .ok l ∧
      (∀ i : Nat, i < count → memAfter l mem ((output : Int) + i) =
        Spec.quantizeF e.f p.rangeMin p.rangeOffset p.rangeScale (word mem ((input : Int) + (4 * i : Nat)))) ∧
      ∀ a : Int, a < output ∨ (output : Int) + count ≤ a → memAfter l mem a = mem a := by
  obtain ⟨l, h1, h2⟩ := quantize_wrote e mem qz_all p hc hr hw nc
  exact ⟨l, h1, bytes_of_wrote h2 mem⟩

/-- **C64** for `Requantize`. -/
theorem C64_requantize (p : Requantize) (hc : 0 < count) (hr : Allowed e.readable input (4 * count))
    (hw : Allowed e.writable output count) (nc : NoClobber input output 4 1 count) :
    ∃ l, requantize1D e p mem 16 count input output = .ok l ∧
      (∀ i : Nat, i < count → memAfter l mem ((output : Int) + i) =
        Spec.requantizeF e.f p.inputRangeMin p.inputRangeOffset p.inputRangeScale p.outputRangeMin p.outputRangeOffset
          p.oneOverOutputRangeScale (word mem ((input : Int) + (4 * i : Nat)))) ∧
      ∀ a : Int, a < output ∨ (output : Int) + count ≤ a → memAfter l mem a = mem a := by
  obtain ⟨l, h1, h2⟩ := requantize_wrote e mem rq_all p hc hr hw nc
  exact ⟨l, h1, bytes_of_wrote h2 mem⟩

/-- **C64** for `Dequantize`. -/
theorem C64_dequantize (p : Dequantize) (hc : 0 < count) (hr : Allowed e.readable input count)
    (hw : Allowed e.writable output (4 * count)) (nc : NoClobber input output 1 4 count) :
    ∃ l, dequantize1D e p mem 16 count input output = .ok l ∧
      (∀ i : Nat, i < count → word (memAfter l mem) ((output : Int) + (4 * i : Nat)) =
        Spec.dequantizeF e.f p.rangeMin p.rangeOffset p.rangeScale (mem ((input : Int) + i))) ∧
      ∀ a : Int, a < output ∨ (output : Int) + (4 * count : Nat) ≤ a → memAfter l mem a = mem a := by
  obtain ⟨l, h1, h2⟩ := dequantize_wrote e mem dq_all p hc hr hw nc
  exact ⟨l, h1, words_of_wrote h2 mem⟩

/-- **C64** for `MinMax`. -/
theorem C64_minmax (p : MinMax) (hc : 0 < count) (hr : Allowed e.readable input count)
    (hw : Allowed e.writable output count) (nc : NoClobber input output 1 1 count) :
    ∃ l, minMax1D e p mem 16 count input output = .ok l ∧
      (∀ i : Nat, i < count → memAfter l mem ((output : Int) + i) =
        Spec.minMaxB p.min p.max (mem ((input : Int) + i))) ∧
      ∀ a : Int, a < output ∨ (output : Int) + count ≤ a → memAfter l mem a = mem a := by
  obtain ⟨l, h1, h2⟩ := minMax_wrote e mem mm_all p hc hr hw nc
  exact ⟨l, h1, bytes_of_wrote h2 mem⟩

/-- **C64** for `BiasAdd`: `rows` rows of `count` elements; the bias is the same for all rows. -/
theorem C64_bias_add (p : BiasAdd) (hc : 0 < count) (hrows : 0 < p.rows)
    (hr : Allowed e.readable input (count * p.rows)) (hb : Allowed e.readable p.bias count)
    (hw : Allowed e.writable output (4 * (count * p.rows))) (nc : NoClobber input output 1 4 (count * p.rows))
    (nb : output + 4 * (count * p.rows) ≤ p.bias ∨ p.bias + count ≤ output) :
    ∃ l, biasAdd1D e p mem 16 count input output = .ok l ∧
      (∀ r j : Nat, r < p.rows → j < count →
        word (memAfter l mem) ((output : Int) + (4 * (r * count + j) : Nat)) =
          Spec.biasAddF e.f p.inputRangeMin p.inputRangeScale p.biasRangeMin p.biasRangeScale p.outputRangeMin
            p.outputRangeOffset p.oneOverOutputRangeScale (mem ((input : Int) + (r * count + j : Nat)))
            (mem ((p.bias : Int) + j))) ∧
      ∀ a : Int, a < output ∨ (output : Int) + (4 * (count * p.rows) : Nat) ≤ a → memAfter l mem a = mem a := by
  obtain ⟨l, h1, h2⟩ := biasAdd_wrote e mem ba_all p hc hrows hr hb hw nc nb
  obtain ⟨h3, h4⟩ := words_of_wrote h2 mem
  refine ⟨l, h1, fun r j h5 h6 => ?_, h4⟩
  have hlt : r * count + j < count * p.rows := by
    rw [Nat.mul_comm r]; exact place_lt h5 h6
  rw [h3 _ hlt, Nat.mul_comm r, Nat.mul_add_mod, Nat.mod_eq_of_lt h6]
  rfl

end

section
variable {e : TEnv} {mem : Int → BitVec 8} {seen : Nat → Int → BitVec 8} {count input output : Nat} {maxThreads : Int}

/-- **C64** for `Quantize` with several threads, whatever each of them sees of what the others have stored up to now
and in whatever order (`w`) the stores take effect. -/
theorem C64_quantize_threads (p : Quantize) (hc : 0 < count) (hfit : count * 8 ≤ 2147483647)
    (hr : Allowed e.readable input (4 * count)) (hw : Allowed e.writable output count)
    (ha : input + 4 * count ≤ output ∨ output + count ≤ input)
    (hs : ∀ o, prepareTransform1DTasks 8 maxThreads count = .ok o → Seen mem seen 1 count output o) :
    ∃ ls, multiThreadTransform1D (quantize1D e p · 16) 8 4 1 maxThreads seen count input output = .ok ls ∧
      ∀ w, (∀ x, x ∈ w ↔ x ∈ ls.flatten) →
        (∀ i : Nat, i < count → memAfter w mem ((output : Int) + i) =
          Spec.quantizeF e.f p.rangeMin p.rangeOffset p.rangeScale (word mem ((input : Int) + (4 * i : Nat)))) ∧
        ∀ a : Int, a < output ∨ (output : Int) + count ≤ a → memAfter w mem a = mem a := by
  obtain ⟨ls, h1, h2⟩ := threads_ok (run := (quantize1D e p · 16)) (e := e) (si := 4) (so := 1) (cost := 8)
    (val := fun x => (p.val e.f x).zeroExtend 32) (.inr rfl) (.inl rfl)
    (by
      intro mem n inp out a b c d
      rw [Nat.one_mul] at c
      exact quantize_wrote e mem qz_all p a b c d)
    (by omega) hc hfit hr (by rw [Nat.one_mul]; exact hw) (by unfold SameOrApart; omega) hs
  exact ⟨ls, h1, fun w hw' => bytes_of_wrote (h2 w hw') mem⟩

/-- **C64** for `Requantize` with several threads. -/
theorem C64_requantize_threads (p : Requantize) (hc : 0 < count) (hfit : count * 12 ≤ 2147483647)
    (hr : Allowed e.readable input (4 * count)) (hw : Allowed e.writable output count)
    (ha : input + 4 * count ≤ output ∨ output + count ≤ input)
    (hs : ∀ o, prepareTransform1DTasks 12 maxThreads count = .ok o → Seen mem seen 1 count output o) :
    ∃ ls, multiThreadTransform1D (requantize1D e p · 16) 12 4 1 maxThreads seen count input output = .ok ls ∧
      ∀ w, (∀ x, x ∈ w ↔ x ∈ ls.flatten) →
        (∀ i : Nat, i < count → memAfter w mem ((output : Int) + i) =
          Spec.requantizeF e.f p.inputRangeMin p.inputRangeOffset p.inputRangeScale p.outputRangeMin p.outputRangeOffset
            p.oneOverOutputRangeScale (word mem ((input : Int) + (4 * i : Nat)))) ∧
        ∀ a : Int, a < output ∨ (output : Int) + count ≤ a → memAfter w mem a = mem a := by
  obtain ⟨ls, h1, h2⟩ := threads_ok (run := (requantize1D e p · 16)) (e := e) (si := 4) (so := 1) (cost := 12)
    (val := fun x => (p.val e.f x).zeroExtend 32) (.inr rfl) (.inl rfl)
    (by
      intro mem n inp out a b c d
      rw [Nat.one_mul] at c
      exact requantize_wrote e mem rq_all p a b c d)
    (by omega) hc hfit hr (by rw [Nat.one_mul]; exact hw) (by unfold SameOrApart; omega) hs
  exact ⟨ls, h1, fun w hw' => bytes_of_wrote (h2 w hw') mem⟩

/-- **C64** for `Dequantize` with several threads. -/
theorem C64_dequantize_threads (p : Dequantize) (hc : 0 < count) (hfit : count * 12 ≤ 2147483647)
    (hr : Allowed e.readable input count) (hw : Allowed e.writable output (4 * count))
    (ha : input + count ≤ output ∨ output + 4 * count ≤ input)
    (hs : ∀ o, prepareTransform1DTasks 12 maxThreads count = .ok o → Seen mem seen 4 count output o) :
    ∃ ls, multiThreadTransform1D (dequantize1D e p · 16) 12 1 4 maxThreads seen count input output = .ok ls ∧
      ∀ w, (∀ x, x ∈ w ↔ x ∈ ls.flatten) →
        (∀ i : Nat, i < count → word (memAfter w mem) ((output : Int) + (4 * i : Nat)) =
          Spec.dequantizeF e.f p.rangeMin p.rangeOffset p.rangeScale (mem ((input : Int) + i))) ∧
        ∀ a : Int, a < output ∨ (output : Int) + (4 * count : Nat) ≤ a → memAfter w mem a = mem a := by
  obtain ⟨ls, h1, h2⟩ := threads_ok (run := (dequantize1D e p · 16)) (e := e) (si := 1) (so := 4) (cost := 12)
    (val := fun x => p.val e.f (x.extractLsb' 0 8)) (.inl rfl) (.inr rfl)
    (by
      intro mem n inp out a b c d
      rw [Nat.one_mul] at b
      obtain ⟨l, h1, h2⟩ := dequantize_wrote e mem dq_all p a b c d
      refine ⟨l, h1, h2.congr fun i _ => ?_⟩
      dsimp only [elem]
      rw [if_neg (by omega), zx_low, Nat.one_mul])
    (by omega) hc hfit (by rw [Nat.one_mul]; exact hr) hw (by unfold SameOrApart; omega) hs
  refine ⟨ls, h1, fun w hw' => words_of_wrote ((h2 w hw').congr fun i _ => ?_) mem⟩
  dsimp only [elem]
  rw [if_neg (by omega), zx_low, Nat.one_mul]
  rfl

/-- **C64** for `MinMax` with several threads; here the output may be the input. -/
theorem C64_minmax_threads (p : MinMax) (hc : 0 < count) (hfit : count * 4 ≤ 2147483647)
    (hr : Allowed e.readable input count) (hw : Allowed e.writable output count)
    (ha : input + count ≤ output ∨ output + count ≤ input ∨ input = output)
    (hs : ∀ o, prepareTransform1DTasks 4 maxThreads count = .ok o → Seen mem seen 1 count output o) :
    ∃ ls, multiThreadTransform1D (minMax1D e p · 16) 4 1 1 maxThreads seen count input output = .ok ls ∧
      ∀ w, (∀ x, x ∈ w ↔ x ∈ ls.flatten) →
        (∀ i : Nat, i < count → memAfter w mem ((output : Int) + i) =
          Spec.minMaxB p.min p.max (mem ((input : Int) + i))) ∧
        ∀ a : Int, a < output ∨ (output : Int) + count ≤ a → memAfter w mem a = mem a := by
  obtain ⟨ls, h1, h2⟩ := threads_ok (run := (minMax1D e p · 16)) (e := e) (si := 1) (so := 1) (cost := 4)
    (val := fun x => (p.val (x.extractLsb' 0 8)).zeroExtend 32) (.inl rfl) (.inl rfl)
    (by
      intro mem n inp out a b c d
      rw [Nat.one_mul] at b c
      obtain ⟨l, h1, h2⟩ := minMax_wrote e mem mm_all p a b c d
      refine ⟨l, h1, h2.congr fun i _ => ?_⟩
      dsimp only [elem]
      rw [if_neg (by omega), zx_low, Nat.one_mul])
    (by omega) hc hfit (by rw [Nat.one_mul]; exact hr) (by rw [Nat.one_mul]; exact hw)
    (by unfold SameOrApart; omega) hs
  refine ⟨ls, h1, fun w hw' => bytes_of_wrote ((h2 w hw').congr fun i _ => ?_) mem⟩
  dsimp only [elem]
  rw [if_neg (by omega), zx_low, Nat.one_mul]
  rfl

end

/-! ## No elements: finding F39 -/

theorem transform_missed {K : Kind} {progs : Nat → Option Prog}
    (hall : ((List.range 16).all fun r => (progs r).any fun p => K.progOk r p && K.initOk r p.init) = true)
    (hK : K.Sound) (hctr : K.ctr = .count) (e : TEnv) (par : (Par → Int) → Par → Int) (mem : Int → BitVec 8)
    (input output : Nat) : transform1D (transformKernel progs e par mem 0 input output) 16 0 = .error .diverge := by
  rw [C44_dispatch_transform _ (by omega)]
  obtain ⟨p, hp, hok⟩ := get_prog hall (show 0 % 16 < 16 by omega)
  rw [Bool.and_eq_true] at hok
  unfold transformKernel
  rw [if_neg (by simp), hp]
  dsimp only
  rw [Kind.run1_missed hK hctr hok.1 hok.2 e.f mem rfl]
  rfl

theorem biasAdd_missed {progs : Nat → Option RowsProg}
    (hall : ((List.range 16).all fun r => (progs r).any fun p => baInitOk p.init && baRowOk r p.row) = true)
    (e : TEnv) (p : BiasAdd) (mem : Int → BitVec 8) (input output : Nat) :
    transform1D (biasAddKernel progs e p mem 0 input output) 16 0 = .error .diverge := by
  rw [C44_dispatch_transform _ (by omega)]
  obtain ⟨g, hp, hok⟩ := get_prog hall (show 0 % 16 < 16 by omega)
  rw [Bool.and_eq_true] at hok
  unfold biasAddKernel
  rw [if_neg (by simp), hp]
  dsimp only
  rw [ba_run_missed hok.1 hok.2 e.f mem rfl]
  rfl

/-- **C64** needs an element, finding F39: without any (`count` is 0) the loops do not stop where they should; they
go on reading and writing. -/
theorem C64_no_elements (e : TEnv) (mem : Int → BitVec 8) (input output : Nat) :
    (∀ p, quantize1D e p mem 16 0 input output = .error .diverge) ∧
    (∀ p, dequantize1D e p mem 16 0 input output = .error .diverge) ∧
    (∀ p, requantize1D e p mem 16 0 input output = .error .diverge) ∧
    (∀ p, minMax1D e p mem 16 0 input output = .error .diverge) ∧
    ∀ p, biasAdd1D e p mem 16 0 input output = .error .diverge := by
  refine ⟨fun p => transform_missed qz_all qz_sound rfl .., fun p => transform_missed dq_all dq_sound rfl ..,
    fun p => transform_missed rq_all rq_sound rfl .., fun p => transform_missed mm_all mm_sound rfl ..,
    fun p => biasAdd_missed ba_all ..⟩

/-! ## Cases -/

/-- 37 elements in place: `C64_quantize`, `C64_requantize` and `C64_minmax` apply. -/
example : NoClobber (1000 : Nat) (1000 : Nat) 4 1 37 ∧ NoClobber (1000 : Nat) (1000 : Nat) 1 1 37 := by
  unfold NoClobber; omega

/-- 37 bytes at the end of the space for the result: `C64_dequantize` applies. -/
example : NoClobber (1111 : Nat) (1000 : Nat) 1 4 37 := by unfold NoClobber; omega

/-- 3 rows of 21, the bias after the result: `C64_bias_add` applies. -/
example : NoClobber (1000 : Nat) (2000 : Nat) 1 4 (21 * 3) ∧ 2000 + 4 * (21 * 3) ≤ 2300 := by
  unfold NoClobber; omega

/-- Four threads for 100000 elements, in place: `C64_minmax_threads` applies also if all other threads are done before
a thread starts. -/
example (mem new : Int → BitVec 8) : ∃ ts, prepareTransform1DTasks 4 4 100000 = .ok (some ts) ∧ ts.length = 4 ∧
    Seen mem (fun j a => match ts[j]? with
      | some c => if (5000 ≤ a ∧ a < 5000 + 100000) ∧ ¬ ((5000 + c.1 : Nat) ≤ a ∧ a < (5000 + (c.1 + c.2) : Nat)) then
          new a else mem a
      | none => mem a) 1 100000 5000 (some ts) := by
  refine ⟨cut 100000 4, rfl, by decide, ?_⟩
  intro j c hj a h
  dsimp only at h
  rw [hj] at h
  dsimp only at h
  split at h
  · rename_i hh; simpa using hh
  · exact absurd rfl h

end Gemmlowp.Meta
