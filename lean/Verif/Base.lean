/-!
# Base: faults, checked 32-bit arithmetic, buffers, loops

Nothing in this file models a particular gemmlowp function; it is the fragment
of the C++ abstract machine the other files are written in.
-/

namespace Gemmlowp

/-- Ways in which the modelled C++ code can go wrong.  A model function returning
`.ok` therefore performed none of these. -/
inductive Fault
  /-- access outside an object -/
  | oob
  /-- signed integer overflow (undefined behaviour) -/
  | overflow
  /-- a failing `assert` / `ReleaseBuildAssertion` -/
  | assertion
  /-- a call of `abort()` -/
  | abort
  /-- division by zero, or a shift by a negative or too large amount -/
  | badOp
  /-- a `for` loop with step 0 that would not terminate -/
  | diverge
  /-- a vector access that needs an aligned address and does not get one -/
  | misaligned
  deriving DecidableEq, Repr

/-- Result of a model function. -/
abbrev M := Except Fault

deriving instance DecidableEq for Except

/-- C `assert(b)`. -/
def assertM (b : Bool) : M Unit := if b then .ok () else .error .assertion

@[simp] theorem assertM_true : assertM true = .ok () := rfl

theorem ok_bind {α β : Type} (a : α) (f : α → M β) : ((Except.ok a : M α) >>= f) = f a := rfl
theorem error_bind {α β : Type} (e : Fault) (f : α → M β) :
    ((Except.error e : M α) >>= f) = .error e := rfl
theorem pure_ok {α : Type} (a : α) : (pure a : M α) = .ok a := rfl

/-! ## Signed 32-bit arithmetic -/

/-- What signed 32-bit overflow does: `trap` is the C++ rule (undefined behaviour,
modelled as a fault), `wrap` is two's complement wrap-around, which is what the SIMD
instructions and `-fwrapv` builds do. -/
inductive OvMode | trap | wrap
  deriving DecidableEq, Repr

/-- `x` fits in a signed 32-bit integer. -/
def InI32 (x : Int) : Prop := -2147483648 ≤ x ∧ x ≤ 2147483647

instance (x : Int) : Decidable (InI32 x) := inferInstanceAs (Decidable (_ ∧ _))

/-- The machine word obtained from the exact value `x` of an int32 operation. -/
def ret32 (m : OvMode) (x : Int) : M (BitVec 32) :=
  if m = .trap ∧ ¬ InI32 x then .error .overflow else .ok (BitVec.ofInt 32 x)

/-- int32 addition. -/
def add32 (m : OvMode) (a b : BitVec 32) : M (BitVec 32) := ret32 m (a.toInt + b.toInt)
/-- int32 multiplication. -/
def mul32 (m : OvMode) (a b : BitVec 32) : M (BitVec 32) := ret32 m (a.toInt * b.toInt)

theorem toInt_ofInt32 {x : Int} (h : InI32 x) : (BitVec.ofInt 32 x).toInt = x := by
  unfold InI32 at h
  rw [BitVec.toInt_ofInt]
  simp only [Int.bmod_def]; omega

theorem inI32_toInt (a : BitVec 32) : InI32 a.toInt := by
  have h1 := BitVec.toInt_lt (x := a)
  have h2 := BitVec.le_toInt (x := a)
  unfold InI32; omega

theorem ofInt_toInt32 (a : BitVec 32) : BitVec.ofInt 32 a.toInt = a := BitVec.ofInt_toInt

theorem ret32_ok {m : OvMode} {x : Int} (h : m = .trap → InI32 x) :
    ret32 m x = .ok (BitVec.ofInt 32 x) := by
  unfold ret32
  split
  · rename_i hh; exact absurd (h hh.1) hh.2
  · rfl

theorem ofInt_congr {x y : Int} (h : x % 4294967296 = y % 4294967296) :
    BitVec.ofInt 32 x = BitVec.ofInt 32 y := by
  apply BitVec.eq_of_toInt_eq
  rw [BitVec.toInt_ofInt, BitVec.toInt_ofInt]
  simp only [Int.bmod_def]
  have : ((2 ^ 32 : Nat) : Int) = 4294967296 := by decide
  rw [this, h]

theorem toInt_ofInt_emod (x : Int) :
    (BitVec.ofInt 32 x).toInt % 4294967296 = x % 4294967296 := by
  rw [BitVec.toInt_ofInt]
  have : ((2 ^ 32 : Nat) : Int) = 4294967296 := by decide
  simp only [Int.bmod_def, this]
  split <;> omega

/-- Adding words that stand for the exact values `x`, `y` gives the word that stands for
`x + y`; in `trap` mode provided the values involved fit. -/
theorem add32_ofInt {m : OvMode} {x y : Int}
    (h : m = .trap → InI32 x ∧ InI32 y ∧ InI32 (x + y)) :
    add32 m (BitVec.ofInt 32 x) (BitVec.ofInt 32 y) = .ok (BitVec.ofInt 32 (x + y)) := by
  unfold add32
  rw [ret32_ok]
  · congr 1
    apply ofInt_congr
    rw [Int.add_emod, toInt_ofInt_emod, toInt_ofInt_emod, ← Int.add_emod]
  · intro hm
    obtain ⟨hx, hy, hxy⟩ := h hm
    rwa [toInt_ofInt32 hx, toInt_ofInt32 hy]

theorem ofInt_add_toInt (x y : Int) :
    BitVec.ofInt 32 ((BitVec.ofInt 32 x).toInt + y) = BitVec.ofInt 32 (x + y) := by
  apply ofInt_congr
  rw [Int.add_emod, toInt_ofInt_emod, ← Int.add_emod]

theorem mul32_ofInt {m : OvMode} {x y : Int}
    (h : m = .trap → InI32 x ∧ InI32 y ∧ InI32 (x * y)) :
    mul32 m (BitVec.ofInt 32 x) (BitVec.ofInt 32 y) = .ok (BitVec.ofInt 32 (x * y)) := by
  unfold mul32
  rw [ret32_ok]
  · congr 1
    apply ofInt_congr
    rw [Int.mul_emod, toInt_ofInt_emod, toInt_ofInt_emod, ← Int.mul_emod]
  · intro hm
    obtain ⟨hx, hy, hxy⟩ := h hm
    rwa [toInt_ofInt32 hx, toInt_ofInt32 hy]

/-! ## Buffers -/

/-- An object of `size` elements.  `get i` is the current content of element `i`;
only `i < size` may be accessed. -/
structure Buf (α : Type) where
  size : Nat
  get : Nat → α

/-- `buf[i]` as an rvalue. -/
def Buf.read {α : Type} (b : Buf α) (i : Nat) : M α :=
  if i < b.size then .ok (b.get i) else .error .oob

/-- `buf[i] = v`. -/
def Buf.write {α : Type} (b : Buf α) (i : Nat) (v : α) : M (Buf α) :=
  if i < b.size then .ok { b with get := fun j => if j = i then v else b.get j }
  else .error .oob

theorem Buf.read_ok {α : Type} {b : Buf α} {i : Nat} (h : i < b.size) :
    b.read i = .ok (b.get i) := by simp [Buf.read, h]

/-- The buffer after a successful store. -/
def Buf.upd {α : Type} (b : Buf α) (i : Nat) (v : α) : Buf α :=
  { b with get := fun j => if j = i then v else b.get j }

@[simp] theorem Buf.upd_size {α : Type} (b : Buf α) (i : Nat) (v : α) :
    (b.upd i v).size = b.size := rfl

theorem Buf.upd_get {α : Type} (b : Buf α) (i : Nat) (v : α) (j : Nat) :
    (b.upd i v).get j = if j = i then v else b.get j := rfl

theorem Buf.write_ok {α : Type} {b : Buf α} {i : Nat} (h : i < b.size) (v : α) :
    b.write i v = .ok (b.upd i v) := by simp [Buf.write, Buf.upd, h]

/-! ## Loops -/

/-- `for (i = lo; i < hi; i += step) s = f(i, s);` -/
def forLoop {σ : Type} (lo hi step : Nat) (f : Nat → σ → M σ) (s : σ) : M σ :=
  if lo < hi then
    if 0 < step then do
      let s' ← f lo s
      forLoop (lo + step) hi step f s'
    else .error .diverge
  else .ok s
termination_by hi - lo
decreasing_by omega

/-- Invariant rule: if every iteration started in `Inv i` succeeds and re-establishes
`Inv (i + step)`, the loop succeeds and ends in `Inv i` for the first `i ≥ hi` reached. -/
theorem forLoop_inv {σ : Type} {lo hi step : Nat} {f : Nat → σ → M σ} {s : σ}
    (Inv : Nat → σ → Prop) (hstep : 0 < step) (h0 : Inv lo s)
    (hbody : ∀ k s, lo + step * k < hi → Inv (lo + step * k) s →
      ∃ s', f (lo + step * k) s = .ok s' ∧ Inv (lo + step * (k + 1)) s') :
    ∃ s' k, forLoop lo hi step f s = .ok s' ∧ hi ≤ lo + step * k ∧
      (k = 0 ∨ lo + step * (k - 1) < hi) ∧ Inv (lo + step * k) s' := by
  suffices H : ∀ n k s, hi - (lo + step * k) ≤ n → (k = 0 ∨ lo + step * (k - 1) < hi) →
      Inv (lo + step * k) s →
      ∃ s' k', forLoop (lo + step * k) hi step f s = .ok s' ∧ hi ≤ lo + step * k' ∧
      (k' = 0 ∨ lo + step * (k' - 1) < hi) ∧ Inv (lo + step * k') s' by
    simpa using H (hi - lo) 0 s (by simp) (Or.inl rfl) (by simpa using h0)
  intro n
  induction n with
  | zero =>
    intro k s hn hk hI
    refine ⟨s, k, ?_, by omega, hk, hI⟩
    rw [forLoop]; simp; omega
  | succ n ih =>
    intro k s hn hk hI
    by_cases hlt : lo + step * k < hi
    · obtain ⟨s1, hs1, hI1⟩ := hbody k s hlt hI
      have e : lo + step * (k + 1) = lo + step * k + step := by rw [Nat.mul_add]; omega
      obtain ⟨s', k', h1, h2, h3, h4⟩ := ih (k + 1) s1 (by omega)
        (Or.inr (by simpa using hlt)) hI1
      refine ⟨s', k', ?_, h2, h3, h4⟩
      rw [forLoop, if_pos hlt, if_pos hstep, hs1, ok_bind, ← e, h1]
    · refine ⟨s, k, ?_, by omega, hk, hI⟩
      rw [forLoop, if_neg hlt]

/-- Invariant rule for unit steps, starting at 0. -/
theorem forLoop_inv1 {σ : Type} {hi : Nat} {f : Nat → σ → M σ} {s : σ}
    (Inv : Nat → σ → Prop) (h0 : Inv 0 s)
    (hbody : ∀ k s, k < hi → Inv k s → ∃ s', f k s = .ok s' ∧ Inv (k + 1) s') :
    ∃ s', forLoop 0 hi 1 f s = .ok s' ∧ Inv hi s' := by
  obtain ⟨s', k, h1, h2, h3, h4⟩ := forLoop_inv (lo := 0) (hi := hi) (step := 1) (f := f) (s := s)
    Inv (by omega) h0 (by
      intro k s hk hI
      obtain ⟨s', hs', hI'⟩ := hbody k s (by omega) (by simpa using hI)
      exact ⟨s', by simpa using hs', by simpa using hI'⟩)
  refine ⟨s', h1, ?_⟩
  have : k = hi := by omega
  subst this; simpa using h4

/-- `forLoop_inv1` with a consequence step, convenient with `refine`. -/
theorem forLoop_post {σ : Type} {hi : Nat} {f : Nat → σ → M σ} {s : σ} {Post : σ → Prop}
    (Inv : Nat → σ → Prop) (h0 : Inv 0 s) (hpost : ∀ s, Inv hi s → Post s)
    (hbody : ∀ k s, k < hi → Inv k s → ∃ s', f k s = .ok s' ∧ Inv (k + 1) s') :
    ∃ s', forLoop 0 hi 1 f s = .ok s' ∧ Post s' := by
  obtain ⟨s', h1, h2⟩ := forLoop_inv1 Inv h0 hbody
  exact ⟨s', h1, hpost s' h2⟩

/-- `forLoop_inv` with a consequence step, convenient with `refine`. -/
theorem forLoop_postS {σ : Type} {lo hi step : Nat} {f : Nat → σ → M σ} {s : σ} {Post : σ → Prop}
    (Inv : Nat → σ → Prop) (hstep : 0 < step) (h0 : Inv lo s)
    (hpost : ∀ k s, hi ≤ lo + step * k → (k = 0 ∨ lo + step * (k - 1) < hi) →
      Inv (lo + step * k) s → Post s)
    (hbody : ∀ k s, lo + step * k < hi → Inv (lo + step * k) s →
      ∃ s', f (lo + step * k) s = .ok s' ∧ Inv (lo + step * (k + 1)) s') :
    ∃ s', forLoop lo hi step f s = .ok s' ∧ Post s' := by
  obtain ⟨s', k, h1, h2, h3, h4⟩ := forLoop_inv Inv hstep h0 hbody
  exact ⟨s', h1, hpost k s' h2 h3 h4⟩

/-! ## Finite sums -/

/-- `f 0 + f 1 + ... + f (n-1)`. -/
def sumTo : Nat → (Nat → Int) → Int
  | 0, _ => 0
  | n + 1, f => sumTo n f + f n

@[simp] theorem sumTo_zero (f : Nat → Int) : sumTo 0 f = 0 := rfl
theorem sumTo_succ (n : Nat) (f : Nat → Int) : sumTo (n + 1) f = sumTo n f + f n := rfl

theorem sumTo_congr {n : Nat} {f g : Nat → Int} (h : ∀ i, i < n → f i = g i) :
    sumTo n f = sumTo n g := by
  induction n with
  | zero => rfl
  | succ n ih => rw [sumTo_succ, sumTo_succ, ih (fun i hi => h i (by omega)), h n (by omega)]

theorem sumTo_add_fn (n : Nat) (f g : Nat → Int) :
    sumTo n (fun i => f i + g i) = sumTo n f + sumTo n g := by
  induction n with
  | zero => rfl
  | succ n ih => simp only [sumTo_succ, ih]; omega

theorem sumTo_mul_left (n : Nat) (c : Int) (f : Nat → Int) :
    sumTo n (fun i => c * f i) = c * sumTo n f := by
  induction n with
  | zero => simp
  | succ n ih => simp only [sumTo_succ, ih, Int.mul_add]

theorem sumTo_const (n : Nat) (c : Int) : sumTo n (fun _ => c) = n * c := by
  induction n with
  | zero => simp
  | succ n ih => rw [sumTo_succ, ih]; push_cast; rw [Int.add_mul]; omega

theorem sumTo_split (a b : Nat) (f : Nat → Int) :
    sumTo (a + b) f = sumTo a f + sumTo b (fun i => f (a + i)) := by
  induction b with
  | zero => simp
  | succ b ih => rw [← Nat.add_assoc, sumTo_succ, ih, sumTo_succ]; omega

theorem sumTo_zero_tail {a b : Nat} {f : Nat → Int} (hab : a ≤ b)
    (h : ∀ i, a ≤ i → i < b → f i = 0) : sumTo b f = sumTo a f := by
  induction b with
  | zero => have : a = 0 := by omega
            subst this; rfl
  | succ b ih =>
    by_cases hb : a = b + 1
    · subst hb; rfl
    · rw [sumTo_succ, ih (by omega) (fun i h1 h2 => h i h1 (by omega)), h b (by omega) (by omega)]
      omega

/-- A sum of `n` terms of magnitude at most `B` has magnitude at most `n * B`. -/
theorem sumTo_bound {n : Nat} {f : Nat → Int} {B : Int}
    (h : ∀ i, i < n → -B ≤ f i ∧ f i ≤ B) : -(n * B) ≤ sumTo n f ∧ sumTo n f ≤ n * B := by
  induction n with
  | zero => simp
  | succ n ih =>
    have h1 := ih (fun i hi => h i (by omega))
    have h2 := h n (by omega)
    rw [sumTo_succ]
    have e : ((n + 1 : Nat) : Int) * B = n * B + B := by push_cast; rw [Int.add_mul]; omega
    rw [e]; omega

end Gemmlowp
