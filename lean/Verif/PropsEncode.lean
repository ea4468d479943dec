import Verif.Encode
import Verif.Neon64

/-!
# Property C49: the instruction encoder
-/

namespace Gemmlowp

/-! ## Specification: the ARM encodings -/

/-- Bits `lo, …, lo + n - 1` of a number. -/
def bitsOf (w lo n : Nat) : Nat := w / 2 ^ lo % 2 ^ n

/-- The instruction a 32-bit word stands for according to the architecture manual, for the 128-bit
forms of SDOT and UDOT:
vector `0 Q U 01110 10 0 Rm 1 0010 1 Rn Rd`, by element `0 Q U 01111 10 L M Rm 1110 H 0 Rn Rd`, with
`Q = 1`; the element is `H:L`, the register `M:Rm`. -/
def armDecode (w : Nat) : Option DotIns :=
  if bitsOf w 30 2 = 0b01 ∧ bitsOf w 21 8 = 0b01110100 ∧ bitsOf w 10 6 = 0b100101 then
    some (.vector (bitsOf w 29 1 = 1) (bitsOf w 0 5) (bitsOf w 5 5) (bitsOf w 16 5))
  else if bitsOf w 30 2 = 0b01 ∧ bitsOf w 22 7 = 0b0111110 ∧ bitsOf w 12 4 = 0b1110 ∧
      bitsOf w 10 1 = 0 then
    some (.element (bitsOf w 29 1 = 1) (bitsOf w 0 5) (bitsOf w 5 5) (bitsOf w 16 5)
      (2 * bitsOf w 11 1 + bitsOf w 21 1))
  else none

/-- The operands exist. -/
def DotIns.InRange : DotIns → Prop
  | .vector _ a n m => a ≤ 31 ∧ n ≤ 31 ∧ m ≤ 31
  | .element _ a n m k => a ≤ 31 ∧ n ≤ 31 ∧ m ≤ 31 ∧ k ≤ 3

instance (i : DotIns) : Decidable i.InRange := by
  cases i <;> unfold DotIns.InRange <;> infer_instance

/-! ## The words are sums of their fields -/

theorem shl_or (a b k : Nat) (h : b < 2 ^ k) : a <<< k ||| b = 2 ^ k * a + b := by
  rw [← Nat.shiftLeft_add_eq_or_of_lt h, Nat.shiftLeft_eq, Nat.mul_comm]

theorem vector_word (x a n m : Nat) (hx : x ≤ 1) (ha : a ≤ 31) (hn : n ≤ 31) (hm : m ≤ 31) :
    0x4e809400 ||| (a <<< 0) ||| (n <<< 5) ||| (m <<< 16) ||| (x <<< 29) =
      0x4e809400 + a + 32 * n + 65536 * m + 536870912 * x := by
  have e : 0x4e809400 ||| (a <<< 0) ||| (n <<< 5) ||| (m <<< 16) ||| (x <<< 29) =
      (2 <<< 29 ||| x <<< 29) ||| ((0xE80 <<< 16 ||| m <<< 16) ||| ((0x25 <<< 10) |||
        ((n <<< 5) ||| a))) := by
    apply Nat.eq_of_testBit_eq
    intro i
    simp only [Nat.testBit_or, Nat.shiftLeft_zero]
    have c : Nat.testBit 0x4e809400 i = (Nat.testBit (2 <<< 29) i || (Nat.testBit (0xE80 <<< 16) i
        || Nat.testBit (0x25 <<< 10) i)) := by
      rw [← Nat.testBit_or, ← Nat.testBit_or]; rfl
    rw [c]
    cases Nat.testBit (2 <<< 29) i <;> cases Nat.testBit (0xE80 <<< 16) i <;>
      cases Nat.testBit (0x25 <<< 10) i <;> cases Nat.testBit (n <<< 5) i <;>
      cases Nat.testBit (m <<< 16) i <;> cases Nat.testBit (x <<< 29) i <;> cases Nat.testBit a i <;>
      rfl
  have e1 : (2 <<< 29 ||| x <<< 29) = (2 + x) <<< 29 := by
    rw [← Nat.shiftLeft_or_distrib]
    rcases (by omega : x = 0 ∨ x = 1) with rfl | rfl <;> rfl
  have e2 : (0xE80 <<< 16 ||| m <<< 16) = (0xE80 + m) <<< 16 := by
    rw [← Nat.shiftLeft_or_distrib, show (0xE80 : Nat) = 0x74 <<< 5 from rfl, shl_or _ _ _ (by omega)]
    rfl
  rw [e, e1, e2, shl_or _ _ 5 (by omega), shl_or _ _ 10 (by omega), shl_or _ _ 16 (by omega),
    shl_or _ _ 29 (by omega)]
  omega

theorem element_word (x a n m l h : Nat) (hx : x ≤ 1) (ha : a ≤ 31) (hn : n ≤ 31) (hm : m ≤ 31)
    (hl : l ≤ 1) (hh : h ≤ 1) :
    0x4f80e000 ||| (a <<< 0) ||| (n <<< 5) ||| (m <<< 16) ||| (l <<< 21) ||| (h <<< 11) |||
        (x <<< 29) =
      0x4f80e000 + a + 32 * n + 65536 * m + 2097152 * l + 2048 * h + 536870912 * x := by
  have e : 0x4f80e000 ||| (a <<< 0) ||| (n <<< 5) ||| (m <<< 16) ||| (l <<< 21) ||| (h <<< 11) |||
      (x <<< 29) =
      (2 <<< 29 ||| x <<< 29) ||| ((0x7C <<< 21 ||| l <<< 21) ||| ((m <<< 16) |||
        ((0x1C <<< 11 ||| h <<< 11) ||| ((n <<< 5) ||| a)))) := by
    apply Nat.eq_of_testBit_eq
    intro i
    simp only [Nat.testBit_or, Nat.shiftLeft_zero]
    have c : Nat.testBit 0x4f80e000 i = (Nat.testBit (2 <<< 29) i || (Nat.testBit (0x7C <<< 21) i
        || Nat.testBit (0x1C <<< 11) i)) := by
      rw [← Nat.testBit_or, ← Nat.testBit_or]; rfl
    rw [c]
    cases Nat.testBit (2 <<< 29) i <;> cases Nat.testBit (0x7C <<< 21) i <;>
      cases Nat.testBit (0x1C <<< 11) i <;> cases Nat.testBit (n <<< 5) i <;>
      cases Nat.testBit (m <<< 16) i <;> cases Nat.testBit (x <<< 29) i <;>
      cases Nat.testBit (l <<< 21) i <;> cases Nat.testBit (h <<< 11) i <;> cases Nat.testBit a i <;>
      rfl
  have e1 : (2 <<< 29 ||| x <<< 29) = (2 + x) <<< 29 := by
    rw [← Nat.shiftLeft_or_distrib]
    rcases (by omega : x = 0 ∨ x = 1) with rfl | rfl <;> rfl
  have e2 : (0x7C <<< 21 ||| l <<< 21) = (0x7C + l) <<< 21 := by
    rw [← Nat.shiftLeft_or_distrib]
    rcases (by omega : l = 0 ∨ l = 1) with rfl | rfl <;> rfl
  have e3 : (0x1C <<< 11 ||| h <<< 11) = (0x1C + h) <<< 11 := by
    rw [← Nat.shiftLeft_or_distrib]
    rcases (by omega : h = 0 ∨ h = 1) with rfl | rfl <;> rfl
  rw [e, e1, e2, e3, shl_or _ _ 5 (by omega), shl_or _ _ 11 (by omega), shl_or _ _ 16 (by omega),
    shl_or _ _ 21 (by omega), shl_or _ _ 29 (by omega)]
  omega

theorem unsignedBit_le (u : Bool) : unsignedBit u ≤ 1 := by cases u <;> decide

theorem lane_bits (k : Nat) (hk : k ≤ 3) :
    (if k &&& 1 ≠ 0 then 1 else 0) = k % 2 ∧ (if k &&& 2 ≠ 0 then 1 else 0) = k / 2 := by
  rcases (by omega : k = 0 ∨ k = 1 ∨ k = 2 ∨ k = 3) with rfl | rfl | rfl | rfl <;> decide

theorem encodeVector_eq (u : Bool) (a n m : Nat) (h : (DotIns.vector u a n m).InRange) :
    encodeVector u a n m =
      .ok (0x4e809400 + a + 32 * n + 65536 * m + 536870912 * unsignedBit u) := by
  obtain ⟨ha, hn, hm⟩ := h
  unfold encodeVector
  rw [decide_eq_true ha, decide_eq_true hn, decide_eq_true hm,
    vector_word _ a n m (unsignedBit_le u) ha hn hm]
  rfl

theorem encodeElement_eq (u : Bool) (a n m k : Nat) (h : (DotIns.element u a n m k).InRange) :
    encodeElement u a n m k =
      .ok (0x4f80e000 + a + 32 * n + 65536 * m + 2097152 * (k % 2) + 2048 * (k / 2) +
        536870912 * unsignedBit u) := by
  obtain ⟨ha, hn, hm, hk⟩ := h
  unfold encodeElement
  rw [decide_eq_true ha, decide_eq_true hn, decide_eq_true hm, decide_eq_true hk]
  dsimp only
  rw [(lane_bits k hk).1, (lane_bits k hk).2,
    element_word _ a n m _ _ (unsignedBit_le u) ha hn hm (by omega) (by omega)]
  rfl

theorem field_eq (w A B v q : Nat) (h1 : A * (B * q + v) ≤ w) (h2 : w < A * (B * q + v) + A)
    (h3 : v < B) : w / A % B = v := by
  have hA : 0 < A := by omega
  have e : w / A = B * q + v := by
    rw [Nat.div_eq_iff hA]
    constructor
    · rw [Nat.mul_comm]; exact h1
    · rw [Nat.mul_comm]; omega
  rw [e, Nat.mul_add_mod, Nat.mod_eq_of_lt h3]

/-- The fields of an element word. -/
theorem element_fields (w a n m l h x : Nat) (hx : x ≤ 1) (ha : a ≤ 31) (hn : n ≤ 31) (hm : m ≤ 31)
    (hl : l ≤ 1) (hh : h ≤ 1) (hw : w = 0x4f80e000 + a + 32 * n + 65536 * m + 2097152 * l +
      2048 * h + 536870912 * x) :
    w / 1073741824 % 4 = 1 ∧ w / 536870912 % 2 = x ∧ w / 4194304 % 128 = 62 ∧
      w / 2097152 % 256 = 124 + l ∧ w / 4096 % 16 = 14 ∧ w / 1024 % 2 = 0 ∧ w / 1 % 32 = a ∧
      w / 32 % 32 = n ∧ w / 65536 % 32 = m ∧ w / 2048 % 2 = h ∧ w / 2097152 % 2 = l ∧
      w / 4194304 % 1024 = 318 + 128 * x := by
  refine ⟨field_eq w _ _ _ 0 ?_ ?_ ?_, field_eq w _ _ _ 1 ?_ ?_ ?_,
    field_eq w _ _ _ (2 + x) ?_ ?_ ?_, field_eq w _ _ _ (2 + x) ?_ ?_ ?_,
    field_eq w _ _ _ (m + 32 * l + 64 * (62 + 128 * (2 + x))) ?_ ?_ ?_,
    field_eq w _ _ _ (h + 2 * 14 + 32 * m + 1024 * l + 2048 * (62 + 128 * (2 + x))) ?_ ?_ ?_,
    field_eq w _ _ _ (n + 64 * h + 128 * 14 + 2048 * m + 65536 * l +
      131072 * (62 + 128 * (2 + x))) ?_ ?_ ?_,
    field_eq w _ _ _ (2 * h + 4 * 14 + 64 * m + 2048 * l + 4096 * (62 + 128 * (2 + x))) ?_ ?_ ?_,
    field_eq w _ _ _ (l + 2 * (62 + 128 * (2 + x))) ?_ ?_ ?_,
    field_eq w _ _ _ (14 + 16 * m + 512 * l + 1024 * (62 + 128 * (2 + x))) ?_ ?_ ?_,
    field_eq w _ _ _ (62 + 128 * (2 + x)) ?_ ?_ ?_, field_eq w _ _ _ 0 ?_ ?_ ?_⟩ <;> omega

/-! ## C49: the encoder -/

/-- **C49.**  Every instruction whose operands exist is encoded, without a failing assertion, as a
nonzero 32-bit word that the architecture decodes to exactly this instruction: the form, the signedness
and every operand can be read back. -/
theorem C49_decode (i : DotIns) (h : i.InRange) :
    ∃ w, encodeDot i = .ok w ∧ 0 < w ∧ w < 2 ^ 32 ∧ armDecode w = some i := by
  cases i with
  | vector u a n m =>
    refine ⟨_, encodeVector_eq u a n m h, ?_⟩
    obtain ⟨ha, hn, hm⟩ := h
    have hx := unsignedBit_le u
    refine ⟨by omega, by omega, ?_⟩
    unfold armDecode bitsOf
    rw [if_pos (by refine ⟨?_, ?_, ?_⟩ <;> omega)]
    have hu : decide ((0x4e809400 + a + 32 * n + 65536 * m + 536870912 * unsignedBit u) / 2 ^ 29 %
        2 ^ 1 = 1) = u := by
      have : (0x4e809400 + a + 32 * n + 65536 * m + 536870912 * unsignedBit u) / 2 ^ 29 % 2 ^ 1 =
        unsignedBit u := by omega
      rw [this]; cases u <;> decide
    rw [hu]
    congr 2 <;> omega
  | element u a n m k =>
    refine ⟨_, encodeElement_eq u a n m k h, ?_⟩
    obtain ⟨ha, hn, hm, hk⟩ := h
    have hx := unsignedBit_le u
    have hk' : k = 2 * (k / 2) + k % 2 := by omega
    have hl : k % 2 ≤ 1 := by omega
    have hh : k / 2 ≤ 1 := by omega
    refine ⟨by omega, by omega, ?_⟩
    generalize k % 2 = l at hk' hl ⊢
    generalize k / 2 = h at hk' hh ⊢
    subst hk'
    have hu : decide (unsignedBit u = 1) = u := by cases u <;> decide
    generalize unsignedBit u = x at hx hu ⊢
    have hw : ∃ w, w = 0x4f80e000 + a + 32 * n + 65536 * m + 2097152 * l + 2048 * h +
        536870912 * x := ⟨_, rfl⟩
    obtain ⟨w, hw⟩ := hw
    rw [← hw]
    obtain ⟨f30, f29, f22, f21', f12, f10, f0, f5, f16, f11, f21, _⟩ :=
      element_fields w a n m l h x hx ha hn hm hl hh hw
    unfold armDecode bitsOf
    simp only [Nat.reducePow]
    rw [if_neg (by intro ⟨_, hc, _⟩; omega), if_pos ⟨f30, f22, f12, f10⟩, f29, hu, f0, f5, f16, f11,
      f21]

/-- **C49.**  An instruction naming a register or an element that does not exist is never encoded: the
script stops with a failing assertion. -/
theorem C49_rejects (i : DotIns) (h : ¬ i.InRange) : encodeDot i = .error .assertion := by
  cases i with
  | vector u a n m =>
    unfold DotIns.InRange at h
    unfold encodeDot encodeVector
    dsimp only
    by_cases ha : a ≤ 31
    · by_cases hn : n ≤ 31
      · have hm : ¬ m ≤ 31 := fun hm => h ⟨ha, hn, hm⟩
        rw [decide_eq_true ha, decide_eq_true hn, decide_eq_false hm]; rfl
      · rw [decide_eq_true ha, decide_eq_false hn]; rfl
    · rw [decide_eq_false ha]; rfl
  | element u a n m k =>
    unfold DotIns.InRange at h
    unfold encodeDot encodeElement
    dsimp only
    by_cases ha : a ≤ 31
    · by_cases hn : n ≤ 31
      · by_cases hm : m ≤ 31
        · have hk : ¬ k ≤ 3 := fun hk => h ⟨ha, hn, hm, hk⟩
          rw [decide_eq_true ha, decide_eq_true hn, decide_eq_true hm, decide_eq_false hk]; rfl
        · rw [decide_eq_true ha, decide_eq_true hn, decide_eq_false hm]; rfl
      · rw [decide_eq_true ha, decide_eq_false hn]; rfl
    · rw [decide_eq_false ha]; rfl

/-- **C49.**  Distinct instructions, whichever their forms, have distinct words. -/
theorem C49_injective (i j : DotIns) (w : Nat) (hi : encodeDot i = .ok w)
    (hj : encodeDot j = .ok w) : i = j := by
  have r : ∀ i : DotIns, encodeDot i = .ok w → armDecode w = some i := by
    intro i hi
    by_cases h : i.InRange
    · obtain ⟨w', e, _, _, d⟩ := C49_decode i h
      rw [e] at hi
      injection hi with hi
      rw [← hi]; exact d
    · rw [C49_rejects i h] at hi
      cases hi
  have a := r i hi
  rw [r j hj] at a
  injection a with a
  exact a.symm

theorem extract_field (w lo len v A B : Nat) (hw : w < 2 ^ 32) (eA : A = 2 ^ lo) (eB : B = 2 ^ len)
    (e : w / A % B = v) : ((BitVec.ofNat 32 w).extractLsb' lo len).toNat = v := by
  rw [BitVec.extractLsb'_toNat, BitVec.toNat_ofNat, Nat.mod_eq_of_lt hw,
    Nat.shiftRight_eq_div_pow, ← eA, ← eB]
  exact e

theorem extract_const (w lo len v A B : Nat) (hw : w < 2 ^ 32) (eA : A = 2 ^ lo) (eB : B = 2 ^ len)
    (hv : v < B) (e : w / A % B = v) :
    (BitVec.ofNat 32 w).extractLsb' lo len = BitVec.ofNat len v := by
  apply BitVec.eq_of_toNat_eq
  rw [extract_field w lo len v A B hw eA eB e, BitVec.toNat_ofNat, Nat.mod_eq_of_lt (by omega)]

theorem decodeUdot_element (w a n m l h : Nat) (ha : a ≤ 31) (hn : n ≤ 31) (hm : m ≤ 31)
    (hl : l ≤ 1) (hh : h ≤ 1) (hw : w = 0x4f80e000 + a + 32 * n + 65536 * m + 2097152 * l +
      2048 * h + 536870912 * 1) :
    Vec.decodeUdot (BitVec.ofNat 32 w) = some (a, n, m, 2 * h + l) := by
  have hw' : w < 2 ^ 32 := by omega
  obtain ⟨_, _, _, _, f12, f10, f0, f5, f16, f11, f21, f22⟩ :=
    element_fields w a n m l h 1 (by omega) ha hn hm hl hh hw
  unfold Vec.decodeUdot
  rw [if_pos ⟨extract_const w 22 10 446 4194304 1024 hw' (by decide) (by decide) (by decide) (by omega),
    extract_const w 12 4 14 4096 16 hw' (by decide) (by decide) (by decide) f12,
    extract_const w 10 1 0 1024 2 hw' (by decide) (by decide) (by decide) f10⟩,
    extract_field w 0 5 a 1 32 hw' (by decide) (by decide) f0,
    extract_field w 5 5 n 32 32 hw' (by decide) (by decide) f5,
    extract_field w 16 5 m 65536 32 hw' (by decide) (by decide) f16,
    extract_field w 11 1 h 2048 2 hw' (by decide) (by decide) f11,
    extract_field w 21 1 l 2097152 2 hw' (by decide) (by decide) f21]

/-- **C49.**  The word of `udot vA.4s, vN.16b, vM.4b[k]` is one that the model of the dot product
kernel executes as this instruction, on these registers and this element. -/
theorem C49_executes (a n m k : Nat) (h : (DotIns.element true a n m k).InRange) :
    ∃ w, encodeDot (.element true a n m k) = .ok w ∧
      Vec.word (BitVec.ofNat 32 w) = Vec.udot a n m k := by
  obtain ⟨w, hw⟩ : ∃ w, w = 0x4f80e000 + a + 32 * n + 65536 * m + 2097152 * (k % 2) +
      2048 * (k / 2) + 536870912 * 1 := ⟨_, rfl⟩
  refine ⟨w, ?_, ?_⟩
  · rw [hw]; exact encodeElement_eq true a n m k h
  · obtain ⟨ha, hn, hm, hk⟩ := h
    have e := decodeUdot_element w a n m (k % 2) (k / 2) ha hn hm (by omega) (by omega) hw
    have hk' : 2 * (k / 2) + k % 2 = k := by omega
    clear hw
    rw [hk'] at e
    unfold Vec.word
    rw [e]

/-- **C49.**  Each of the `.word` directives in the sources of the kernels and of the benchmark is the
encoding of the instruction in its comment. -/
theorem C49_sources : ∀ p ∈ kernelWords ++ benchmarkWords, encodeDot p.1 = .ok p.2 := by
  decide +kernel

/-! ## C49: the script -/

/-- A line the script has nothing to say against: an instruction directly behind its own word. -/
def EncLine.Right (l : EncLine) : Prop :=
  ∀ i, l.ins = some i → ∃ w, encodeDot i = .ok w ∧ l.words = [w]

/-- A line as the script writes them: an instruction has at most one word before it, not 0. -/
def EncLine.Plain (l : EncLine) : Prop :=
  ∀ i, l.ins = some i → i.InRange ∧ (l.words = [] ∨ ∃ w, w ≠ 0 ∧ l.words = [w])

theorem encodeDot_total (i : DotIns) (h : i.InRange) : ∃ w, encodeDot i = .ok w ∧ w ≠ 0 := by
  obtain ⟨w, e, p, _⟩ := C49_decode i h
  exact ⟨w, e, by omega⟩

/-- What the loop does with one line, with `--fix` or without, when it was not wrong before. -/
theorem encodeLine_right (fix : Bool) (s : EncNotes) (l : EncLine) (hp : l.Plain) :
    ∃ l' s', encodeLine fix s l = .ok (l', s') ∧ l'.ins = l.ins ∧
      (fix = true ∨ l.words = [] ∨ l.Right → l'.Right ∧ s'.foundError = s.foundError) ∧
      (fix = false → l.words ≠ [] → l' = l) ∧
      (fix = false → l.ins ≠ none → l.words ≠ [] → ¬ l.Right → s'.foundError = true) ∧
      (s.foundError = true → s'.foundError = true) := by
  unfold encodeLine
  cases hi : l.ins with
  | none =>
    refine ⟨l, s, rfl, hi, fun _ => ⟨?_, rfl⟩, fun _ _ => rfl, fun _ h => absurd rfl h, id⟩
    intro i h; rw [hi] at h; cases h
  | some i =>
    obtain ⟨hr, hw⟩ := hp i hi
    obtain ⟨w, e, h0⟩ := encodeDot_total i hr
    dsimp only
    rw [e, ok_bind, if_neg h0]
    rcases hw with hw | ⟨v, hv, hw⟩
    · have hx : readExisting l = 0 := by unfold readExisting; rw [hw]; rfl
      rw [hx, if_neg (fun h => h rfl)]
      refine ⟨_, _, rfl, rfl, fun _ => ⟨?_, rfl⟩, fun _ h => absurd hw h, fun _ _ h => absurd hw h, id⟩
      intro j hj
      injection hj with hj
      subst hj
      exact ⟨w, e, by show l.words ++ [w] = [w]; rw [hw]; rfl⟩
    · have hx : readExisting l = v := by unfold readExisting; rw [hw]; rfl
      rw [hx, if_pos hv]
      by_cases hwv : w = v
      · subst hwv
        rw [if_neg (fun h => h rfl)]
        have hR : l.Right := by
          intro j hj
          rw [hi] at hj
          injection hj with hj
          subst hj
          exact ⟨w, e, hw⟩
        exact ⟨l, _, rfl, hi, fun _ => ⟨hR, rfl⟩, fun _ _ => rfl, fun _ _ _ h => absurd hR h, id⟩
      · rw [if_pos hwv]
        have hR : ¬ l.Right := by
          intro hR
          obtain ⟨w', e', h'⟩ := hR i hi
          rw [e] at e'
          injection e' with e'
          rw [hw] at h'
          injection h' with h'
          omega
        have hne : l.words ≠ [] := by rw [hw]; exact List.cons_ne_nil _ _
        cases fix with
        | true =>
          rw [if_pos rfl]
          refine ⟨_, _, rfl, ?_, fun _ => ⟨?_, rfl⟩, fun h => (Bool.noConfusion h),
            fun h => (Bool.noConfusion h), id⟩
          · unfold replaceWord; split <;> exact hi
          · intro j hj
            unfold replaceWord at hj ⊢
            rw [if_pos (by rw [hw]; rfl)] at hj ⊢
            rw [show ({ l with words := l.words.dropLast ++ [w] } : EncLine).ins = l.ins from rfl, hi]
              at hj
            injection hj with hj
            subst hj
            exact ⟨w, e, by show l.words.dropLast ++ [w] = [w]; rw [hw]; rfl⟩
        | false =>
          rw [if_neg (by decide)]
          refine ⟨l, _, rfl, hi, ?_, fun _ _ => rfl, fun _ _ _ _ => rfl, fun _ => rfl⟩
          rintro (h | h | h)
          · cases h
          · exact absurd h hne
          · exact absurd h hR

/-- The loop, when every line is right, is without a word, or may be fixed. -/
theorem encodeLines_right (fix : Bool) : ∀ (ls : List EncLine) (s : EncNotes),
    (∀ l ∈ ls, l.Plain) → (∀ l ∈ ls, fix = true ∨ l.words = [] ∨ l.Right) →
    ∃ ls' s', encodeLines fix s ls = .ok (ls', s') ∧ ls'.map EncLine.ins = ls.map EncLine.ins ∧
      (∀ l ∈ ls', l.Right) ∧ s'.foundError = s.foundError
  | [], s, _, _ => ⟨[], s, rfl, rfl, by simp, rfl⟩
  | l :: ls, s, hp, hr => by
    obtain ⟨l', s', e, hi, h1, _, _, _⟩ := encodeLine_right fix s l (hp l (by simp))
    obtain ⟨ls', s'', e', hi', h', hs'⟩ := encodeLines_right fix ls s'
      (fun x hx => hp x (by simp [hx])) (fun x hx => hr x (by simp [hx]))
    obtain ⟨hR, hs⟩ := h1 (hr l (by simp))
    refine ⟨l' :: ls', s'', ?_, by simp [hi, hi'], ?_, by rw [hs', hs]⟩
    · unfold encodeLines
      rw [e, ok_bind]; dsimp only
      rw [e', ok_bind]
    · intro x hx
      rcases List.mem_cons.mp hx with rfl | hx
      · exact hR
      · exact h' x hx

/-- The loop, once an error has been found. -/
theorem encodeLines_error (fix : Bool) : ∀ (ls : List EncLine) (s : EncNotes),
    (∀ l ∈ ls, l.Plain) →
    ∃ ls' s', encodeLines fix s ls = .ok (ls', s') ∧
      (s.foundError = true → s'.foundError = true) ∧
      (fix = false → (∃ l ∈ ls, l.ins ≠ none ∧ l.words ≠ [] ∧ ¬ l.Right) → s'.foundError = true)
  | [], s, _ => ⟨[], s, rfl, id, fun _ ⟨_, h, _⟩ => by cases h⟩
  | l :: ls, s, hp => by
    obtain ⟨l', s', e, _, _, _, hbad, hkeep⟩ := encodeLine_right fix s l (hp l (by simp))
    obtain ⟨ls', s'', e', hk', hb'⟩ := encodeLines_error fix ls s' (fun x hx => hp x (by simp [hx]))
    refine ⟨l' :: ls', s'', ?_, fun h => hk' (hkeep h), ?_⟩
    · unfold encodeLines
      rw [e, ok_bind]; dsimp only
      rw [e', ok_bind]
    · rintro hf ⟨x, hx, hxi, hxw, hxr⟩
      rcases List.mem_cons.mp hx with rfl | hx
      · exact hk' (hbad hf hxi hxw hxr)
      · exact hb' hf ⟨x, hx, hxi, hxw, hxr⟩

/-- **C49.**  With `--fix` the script writes every line back with its instruction directly behind the
word that encodes it, whatever word stood there, and exits with status 0. -/
theorem C49_fix (ls : List EncLine) (h : ∀ l ∈ ls, l.Plain) :
    ∃ ls', encodeMain true ls = .ok (ls', 0) ∧ ls'.map EncLine.ins = ls.map EncLine.ins ∧
      ∀ l ∈ ls', l.Right := by
  obtain ⟨ls', s', e, hi, hr, hs⟩ := encodeLines_right true ls ⟨false, false, false⟩ h
    (fun _ _ => Or.inl rfl)
  refine ⟨ls', ?_, hi, hr⟩
  unfold encodeMain
  rw [e, ok_bind]; dsimp only
  rw [hs]; rfl

/-- **C49.**  Without `--fix` the exit status is 0 exactly if no line has a word that is not the
encoding of its instruction; then the lines are written as with `--fix`. -/
theorem C49_check (ls : List EncLine) (h : ∀ l ∈ ls, l.Plain) :
    ∃ ls' st, encodeMain false ls = .ok (ls', st) ∧
      (st = 0 ↔ ∀ l ∈ ls, l.words = [] ∨ l.Right) ∧
      (st = 0 → ∀ l ∈ ls', l.Right) := by
  by_cases hr : ∀ l ∈ ls, l.words = [] ∨ l.Right
  · obtain ⟨ls', s', e, _, hR, hs⟩ := encodeLines_right false ls ⟨false, false, false⟩ h
      (fun l hl => Or.inr (hr l hl))
    refine ⟨ls', 0, ?_, ⟨fun _ => hr, fun _ => rfl⟩, fun _ => hR⟩
    unfold encodeMain
    rw [e, ok_bind]; dsimp only
    rw [hs]; rfl
  · obtain ⟨ls', s', e, _, hb⟩ := encodeLines_error false ls ⟨false, false, false⟩ h
    have hbad : s'.foundError = true := by
      apply hb rfl
      obtain ⟨l, hl, hw, hR⟩ : ∃ l ∈ ls, l.words ≠ [] ∧ ¬ l.Right := by
        apply Classical.byContradiction
        intro hc
        apply hr
        intro l hl
        by_cases hw : l.words = []
        · exact Or.inl hw
        · exact Or.inr (Classical.byContradiction fun hR => hc ⟨l, hl, hw, hR⟩)
      refine ⟨l, hl, ?_, hw, hR⟩
      intro hn
      apply hR
      intro i hi
      rw [hn] at hi; cases hi
    refine ⟨ls', 1, ?_, ⟨fun h => absurd h (by decide), fun h => absurd h hr⟩,
      fun h => absurd h (by decide)⟩
    unfold encodeMain
    rw [e, ok_bind]; dsimp only
    rw [hbad]; rfl

/-- **C49 does not extend to a word 0.**  For a line that already carries the word 0 the script takes
the value 0 for "no encoding", so that `--fix` keeps the wrong word and puts the right one behind it. -/
theorem C49_zero_word_fails :
    encodeMain true [⟨[0], some (.vector true 16 4 0)⟩] =
      .ok ([⟨[0, 0x6e809490], some (.vector true 16 4 0)⟩], 0) := by decide +kernel

/-- **C49**, the same finding for all instructions: each further run with `--fix` adds one more word, even
if the right word stands directly before the instruction already. -/
theorem C49_zero_word_grows (i : DotIns) (h : i.InRange) (ws : List Nat) :
    ∃ w, encodeDot i = .ok w ∧
      encodeMain true [⟨0 :: ws, some i⟩] = .ok ([⟨0 :: ws ++ [w], some i⟩], 0) := by
  obtain ⟨w, e, h0⟩ := encodeDot_total i h
  refine ⟨w, e, ?_⟩
  have h1 : encodeLine true ⟨false, false, false⟩ ⟨0 :: ws, some i⟩ =
      .ok (⟨0 :: ws ++ [w], some i⟩, ⟨false, false, false⟩) := by
    unfold encodeLine
    dsimp only
    rw [e, ok_bind, if_neg h0, if_neg (fun h => h rfl)]
  unfold encodeMain encodeLines
  rw [h1, ok_bind]
  rfl

/-! ## The hypotheses can be met -/

/-- The example in the comment of the script (lines 19-21). -/
example : encodeDot (.vector true 16 4 0) = .ok 0x6e809490 := by decide +kernel

/-- Both forms, both signs, the largest operands. -/
example : (DotIns.element false 31 31 31 3).InRange ∧ (DotIns.vector true 31 31 31).InRange ∧
    ¬ (DotIns.element true 0 0 0 4).InRange := by decide

/-- A plain file with a line to be encoded, a right one, a wrong one and one without an instruction. -/
example : ∀ l ∈ ([⟨[], some (.vector true 16 4 0)⟩, ⟨[0x6e809490], some (.vector true 16 4 0)⟩,
    ⟨[0x6f80e048], some (.element true 8 2 0 1)⟩, ⟨[], none⟩] : List EncLine), l.Plain := by
  intro l hl i hi
  simp only [List.mem_cons, List.not_mem_nil, or_false] at hl
  rcases hl with rfl | rfl | rfl | rfl
  · cases hi; exact ⟨by decide, Or.inl rfl⟩
  · cases hi; exact ⟨by decide, Or.inr ⟨_, by decide, rfl⟩⟩
  · cases hi; exact ⟨by decide, Or.inr ⟨_, by decide, rfl⟩⟩
  · cases hi

end Gemmlowp
