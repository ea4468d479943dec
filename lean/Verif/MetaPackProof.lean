import Verif.MetaAsmSym
import Verif.Vec128Proof
/-!
# The generated packing code: what is common to all of it
-/
namespace Gemmlowp.MetaAsm

open Vec (VReg ofH ofS h_ofH s_ofS)

/-! ## Stores -/

theorem memAfter_append (l l' : List (Write VReg Int)) (m : Int → BitVec 8) :
    memAfter (l ++ l') m = memAfter l (memAfter l' m) := by
  induction l with
  | nil => rfl
  | cons w l ih => funext a; simp only [List.cons_append, memAfter, ih]

theorem writesIn_append (ok : Int → Bool) (l l' : List (Write VReg Int)) :
    writesIn ok (l ++ l') = (writesIn ok l && writesIn ok l') := by
  unfold writesIn; rw [List.all_append]

theorem readsIn_append (ok : Int → Bool) (l l' : List (Int × Nat)) :
    readsIn ok (l ++ l') = (readsIn ok l && readsIn ok l') := by
  unfold readsIn; rw [List.all_append]

/-- The stores of eight bytes per lane, lane after lane. -/
def chunkWr (out : Int) (e : Nat → VReg) : Nat → List (Write VReg Int)
  | 0 => []
  | n + 1 => ⟨out + (8 * n + 4 : Nat), 4, 1, e n⟩ :: ⟨out + (8 * n : Nat), 4, 0, e n⟩ :: chunkWr out e n

theorem memAfter_chunk (out : Int) (e : Nat → VReg) (m : Int → BitVec 8) : ∀ (n : Nat) (a : Int),
    memAfter (chunkWr out e n) m a =
      if out ≤ a ∧ a < out + (8 * n : Nat) then e ((a - out).toNat / 8) ((a - out).toNat % 8) else m a
  | 0, a => by
    rw [if_neg (by omega)]; rfl
  | n + 1, a => by
    simp only [chunkWr, memAfter]
    rw [memAfter_chunk out e m n a]
    by_cases h1 : out + (8 * n + 4 : Nat) ≤ a ∧ a < out + (8 * n + 4 : Nat) + (4 : Nat)
    · rw [if_pos h1, if_pos (by omega), show (a - out).toNat / 8 = n by omega]
      congr 1; omega
    · rw [if_neg h1]
      by_cases h2 : out + (8 * n : Nat) ≤ a ∧ a < out + (8 * n : Nat) + (4 : Nat)
      · rw [if_pos h2, if_pos (by omega), show (a - out).toNat / 8 = n by omega]
        congr 1; omega
      · rw [if_neg h2]
        by_cases h3 : out ≤ a ∧ a < out + (8 * n : Nat)
        · rw [if_pos h3, if_pos (by omega)]
        · rw [if_neg h3, if_neg (by omega)]

theorem writesIn_chunk (ok : Int → Bool) (out : Int) (e : Nat → VReg) : ∀ n : Nat,
    (∀ a, out ≤ a → a < out + (8 * n : Nat) → ok a = true) → writesIn ok (chunkWr out e n) = true
  | 0, _ => rfl
  | n + 1, h => by
    have ih := writesIn_chunk ok out e n (fun a h1 h2 => h a h1 (by omega))
    unfold writesIn at ih ⊢
    simp only [chunkWr, List.all_cons, ih, Bool.and_true, Bool.and_eq_true, List.all_eq_true, List.mem_range]
    exact ⟨fun i hi => h _ (by omega) (by omega), fun i hi => h _ (by omega) (by omega)⟩

/-- The stores of the four words of some registers. -/
def wordWr (out : Int) (e : Nat → VReg) : Nat → List (Write VReg Int)
  | 0 => []
  | n + 1 => ⟨out + n * 16 + 12, 4, 3, e n⟩ :: ⟨out + n * 16 + 8, 4, 2, e n⟩ ::
      ⟨out + n * 16 + 4, 4, 1, e n⟩ :: ⟨out + n * 16, 4, 0, e n⟩ :: wordWr out e n

theorem memAfter_word (out : Int) (e : Nat → VReg) (m : Int → BitVec 8) : ∀ (n : Nat) (a : Int),
    memAfter (wordWr out e n) m a =
      if out ≤ a ∧ a < out + (16 * n : Nat) then e ((a - out).toNat / 16) ((a - out).toNat % 16) else m a
  | 0, a => by
    rw [if_neg (by omega)]; rfl
  | n + 1, a => by
    simp only [wordWr, memAfter]
    rw [memAfter_word out e m n a]
    by_cases h1 : out + n * 16 + 12 ≤ a ∧ a < out + n * 16 + 12 + (4 : Nat)
    · rw [if_pos h1, if_pos (by omega), show (a - out).toNat / 16 = n by omega]
      congr 1; omega
    rw [if_neg h1]
    by_cases h2 : out + n * 16 + 8 ≤ a ∧ a < out + n * 16 + 8 + (4 : Nat)
    · rw [if_pos h2, if_pos (by omega), show (a - out).toNat / 16 = n by omega]
      congr 1; omega
    rw [if_neg h2]
    by_cases h3 : out + n * 16 + 4 ≤ a ∧ a < out + n * 16 + 4 + (4 : Nat)
    · rw [if_pos h3, if_pos (by omega), show (a - out).toNat / 16 = n by omega]
      congr 1; omega
    rw [if_neg h3]
    by_cases h4 : out + n * 16 ≤ a ∧ a < out + n * 16 + (4 : Nat)
    · rw [if_pos h4, if_pos (by omega), show (a - out).toNat / 16 = n by omega]
      congr 1; omega
    rw [if_neg h4]
    by_cases h5 : out ≤ a ∧ a < out + (16 * n : Nat)
    · rw [if_pos h5, if_pos (by omega)]
    · rw [if_neg h5, if_neg (by omega)]

theorem writesIn_word (ok : Int → Bool) (out : Int) (e : Nat → VReg) : ∀ n : Nat,
    (∀ a, out ≤ a → a < out + (16 * n : Nat) → ok a = true) → writesIn ok (wordWr out e n) = true
  | 0, _ => rfl
  | n + 1, h => by
    have ih := writesIn_word ok out e n (fun a h1 h2 => h a h1 (by omega))
    unfold writesIn at ih ⊢
    simp only [wordWr, List.all_cons, ih, Bool.and_true, Bool.and_eq_true, List.all_eq_true, List.mem_range]
    exact ⟨fun i hi => h _ (by omega) (by omega), fun i hi => h _ (by omega) (by omega),
      fun i hi => h _ (by omega) (by omega), fun i hi => h _ (by omega) (by omega)⟩

/-! ## Sums -/

/-- The sum of the values at the places `< n` that leave the remainder `j`. -/
def colSum (f : Nat → Nat) (j : Nat) : Nat → Nat
  | 0 => 0
  | q + 1 => colSum f j q + if q % 8 = j then f q else 0

def sumTo (f : Nat → Nat) : Nat → Nat
  | 0 => 0
  | q + 1 => sumTo f q + f q

theorem colSum_chunk (f : Nat → Nat) {j pos : Nat} (hj : j < 8) (hp : pos % 8 = 0) : ∀ len, len ≤ 8 →
    colSum f j (pos + len) = colSum f j pos + if j < len then f (pos + j) else 0
  | 0, _ => by simp
  | len + 1, h => by
    rw [← Nat.add_assoc, colSum, colSum_chunk f hj hp len (by omega)]
    by_cases e : j = len
    · subst e
      rw [if_neg (by omega), if_pos (by omega), if_pos (by omega)]; omega
    · rw [if_neg (show ¬ (pos + len) % 8 = j by omega)]
      by_cases h' : j < len
      · rw [if_pos h', if_pos (by omega)]; omega
      · rw [if_neg h', if_neg (by omega)]

theorem sum_colSum (f : Nat → Nat) : ∀ k, colSum f 0 k + colSum f 1 k + colSum f 2 k + colSum f 3 k +
    colSum f 4 k + colSum f 5 k + colSum f 6 k + colSum f 7 k = sumTo f k
  | 0 => rfl
  | k + 1 => by
    have ih := sum_colSum f k
    simp only [colSum, sumTo]
    have : k % 8 = 0 ∨ k % 8 = 1 ∨ k % 8 = 2 ∨ k % 8 = 3 ∨ k % 8 = 4 ∨ k % 8 = 5 ∨ k % 8 = 6 ∨ k % 8 = 7 := by omega
    rcases this with h | h | h | h | h | h | h | h <;> rw [h] <;> simp only [reduceIte, Nat.reduceEqDiff] <;> omega

theorem colSum_le (f : Nat → Nat) (hf : ∀ q, f q ≤ 255) {j : Nat} (hj : j < 8) : ∀ k,
    colSum f j k ≤ 255 * ((k + 7 - j) / 8)
  | 0 => by show 0 ≤ _; omega
  | k + 1 => by
    have ih := colSum_le f hf hj k
    have := hf k
    rw [colSum]
    split
    · rw [show (k + 1 + 7 - j) / 8 = (k + 7 - j) / 8 + 1 by omega]; omega
    · exact Nat.le_trans (by omega) (Nat.mul_le_mul_left 255 (Nat.div_le_div_right (show k + 7 - j ≤ k + 1 + 7 - j by omega)))

/-! ## Chunks -/

/-- What a pass does: `e i` are the eight bytes of lane `i` that it adds to the sums and stores. -/
structure Chunk (ok : Int → Bool) (n len : Nat) (src : Nat → Nat → BitVec 8) (s s' : St VReg Int) : Prop where
  store : ∃ e : Nat → VReg, (∀ i, i < n → ∀ j, j < 8 → e i j = if j < len then src i j else 0) ∧
    (∀ i, i < n → ∀ j, j < 8 → (s'.v (8 + i)).h j = (s.v (8 + i)).h j + (e i j).zeroExtend 16) ∧
    s'.wr = chunkWr (s.x .out) e n ++ s.wr
  out : s'.x .out = s.x .out + (8 * n : Nat)
  rd : readsIn ok s.rd = true → readsIn ok s'.rd = true
  mulSum : s'.x .mulSum = s.x .mulSum
  addSum : s'.x .addSum = s.x .addSum

/-- The state after `pos` elements of each lane (rounded up to a multiple of eight: `up`). -/
structure Packing (ok : Int → Bool) (n : Nat) (src : Nat → Nat → BitVec 8) (s0 : St VReg Int) (pos up : Nat)
    (s : St VReg Int) : Prop where
  sums : ∀ i, i < n → ∀ j, j < 8 →
    (s.v (8 + i)).h j = BitVec.ofNat 16 (colSum (fun q => (src i q).toNat) j pos)
  out : s.x .out = s0.x .out + (n * up : Nat)
  rd : readsIn ok s.rd = true
  mulSum : s.x .mulSum = s0.x .mulSum
  addSum : s.x .addSum = s0.x .addSum
  wr : ∀ m a, memAfter s.wr m a =
    if s0.x .out ≤ a ∧ a < s0.x .out + (n * up : Nat) then
      (let t := (a - s0.x .out).toNat
       let q := t / (8 * n) * 8 + t % 8
       if q < pos then src (t % (8 * n) / 8) q else 0)
    else memAfter s0.wr m a
  wrIn : ∀ okw, writesIn okw s0.wr = true →
    (∀ a, s0.x .out ≤ a → a < s0.x .out + (n * up : Nat) → okw a = true) → writesIn okw s.wr = true

theorem Packing.chunk {ok : Int → Bool} {n len : Nat} {src : Nat → Nat → BitVec 8} {s0 s s' : St VReg Int} {pos : Nat}
    (hp : pos % 8 = 0) (hl : len ≤ 8) (hn : 0 < n) (h : Packing ok n src s0 pos pos s)
    (hc : Chunk ok n len (fun i j => src i (pos + j)) s s') : Packing ok n src s0 (pos + len) (pos + 8) s' := by
  obtain ⟨⟨e, he, hv, hw⟩, hout, hrd, hm, ha⟩ := hc
  obtain ⟨c, hcp⟩ : ∃ c, pos = 8 * c := ⟨pos / 8, by omega⟩
  have e1 : n * pos = 8 * n * c := by rw [hcp, ← Nat.mul_assoc, Nat.mul_comm n 8]
  have e2 : n * (pos + 8) = 8 * n * c + 8 * n := by rw [Nat.mul_add, e1, Nat.mul_comm n 8]
  refine ⟨?_, ?_, hrd h.rd, hm.trans h.mulSum, ha.trans h.addSum, ?_, ?_⟩
  · intro i hi j hj
    rw [hv i hi j hj, h.sums i hi j hj, he i hi j hj, colSum_chunk _ hj hp len hl]
    apply BitVec.eq_of_toNat_eq
    rw [BitVec.toNat_add, BitVec.toNat_ofNat, BitVec.toNat_ofNat]
    split
    · rw [show (BitVec.zeroExtend 16 (src i (pos + j))).toNat = (src i (pos + j)).toNat from by
        rw [BitVec.toNat_setWidth]; omega]
      omega
    · simp
  · rw [hout, h.out]; push_cast; rw [Int.mul_add]; omega
  · intro m a
    rw [hw, memAfter_append, memAfter_chunk, h.out, h.wr, e1, e2]
    generalize hQ : 8 * n * c = Q at *
    by_cases h1 : s0.x .out + (Q : Nat) ≤ a ∧ a < s0.x .out + (Q : Nat) + (8 * n : Nat)
    · rw [if_pos h1, if_pos (by omega)]
      obtain ⟨t, ht⟩ : ∃ t, t = (a - (s0.x .out + (Q : Nat))).toNat := ⟨_, rfl⟩
      have htn : t < 8 * n := by omega
      have e3 : (a - s0.x .out).toNat = t + 8 * n * c := by omega
      rw [← ht, e3, he _ (by omega) _ (by omega)]
      dsimp only
      rw [Nat.add_mul_div_left _ _ (by omega), Nat.add_mul_mod_self_left, Nat.div_eq_of_lt htn,
        Nat.mod_eq_of_lt htn, show (t + 8 * n * c) % 8 = t % 8 by
          rw [Nat.mul_assoc, Nat.add_mul_mod_self_left], Nat.zero_add,
        show c * 8 + t % 8 = pos + t % 8 by omega]
      by_cases h2 : t % 8 < len
      · rw [if_pos h2, if_pos (by omega)]
      · rw [if_neg h2, if_neg (by omega)]
    · rw [if_neg h1]
      by_cases h2 : s0.x .out ≤ a ∧ a < s0.x .out + (Q : Nat)
      · rw [if_pos h2, if_pos (show s0.x .out ≤ a ∧ a < s0.x .out + (Q + 8 * n : Nat) by omega)]
        obtain ⟨t, ht⟩ : ∃ t, t = (a - s0.x .out).toNat := ⟨_, rfl⟩
        rw [← ht]
        dsimp only
        have : t / (8 * n) < c := by
          apply Nat.div_lt_of_lt_mul; omega
        rw [if_pos (show t / (8 * n) * 8 + t % 8 < pos by omega),
          if_pos (show t / (8 * n) * 8 + t % 8 < pos + len by omega)]
      · rw [if_neg h2, if_neg (by omega)]
  · intro okw h0 hok
    rw [hw, writesIn_append, Bool.and_eq_true]
    constructor
    · apply writesIn_chunk
      intro a h1 h2
      rw [h.out, e1] at h1 h2
      rw [e2] at hok
      generalize 8 * n * c = Q at *
      exact hok a (by omega) (by omega)
    · apply h.wrIn okw h0
      intro a h1 h2
      rw [e1] at h2
      rw [e2] at hok
      generalize 8 * n * c = Q at *
      exact hok a h1 (by omega)

/-! ## The sums at the end -/

/-- The sum of the eight 16-bit lanes. -/
def sum8 (v : VReg) : BitVec 32 :=
  (v.h 0).zeroExtend 32 + (v.h 1).zeroExtend 32 + ((v.h 2).zeroExtend 32 + (v.h 3).zeroExtend 32) +
    ((v.h 4).zeroExtend 32 + (v.h 5).zeroExtend 32 + ((v.h 6).zeroExtend 32 + (v.h 7).zeroExtend 32))

/-- The register groups of four. -/
def groups (n : Nat) : Nat := if n ≤ 4 then 1 else 2

/-- Which sum is in which place of a group of `r`. -/
def place (r i : Nat) : Nat := if i < r then i else if r = 3 then 2 else i % r

def quadE (g r : Nat) : VE :=
  let u i := VE.op1 .uaddlp (.reg (8 + (4 * g + place r i)))
  .op2 .addp (.op2 .addp (u 0) (u 1)) (.op2 .addp (u 2) (u 3))

/-- What is stored for group `g` of `n` lanes. -/
def sumE (n g : Nat) : VE :=
  .op2 .add (.mulLane 0 (quadE g (min 4 (n - 4 * g))) (.ins (.lin .mulSum 0 0) (.reg 0))) (.dupW (.lin .addSum 0 0))

def wordWrS (e : Nat → VE) : Nat → List (Write VE XE)
  | 0 => []
  | n + 1 => ⟨.lin .out 0 (16 * n + 12 : Nat), 4, 3, e n⟩ :: ⟨.lin .out 0 (16 * n + 8 : Nat), 4, 2, e n⟩ ::
      ⟨.lin .out 0 (16 * n + 4 : Nat), 4, 1, e n⟩ :: ⟨.lin .out 0 (16 * n : Nat), 4, 0, e n⟩ :: wordWrS e n

/-- The reduction stores what it should. -/
def redOk (n : Nat) (l : List Ins) : Bool :=
  let s := exec sym l symInit
  decide (s.rd = []) && decide (s.wr = wordWrS (sumE n) (groups n))

theorem eval_wordWrS (f : FloatOps) (mem : Int → BitVec 8) (s : St VReg Int) (e : Nat → VE) : ∀ n,
    (wordWrS e n).map (evalWr f mem s) = wordWr (s.x .out) (fun g => (e g).eval f mem s) n
  | 0 => rfl
  | n + 1 => by
    have e0 : ∀ m : Nat, (XE.lin .out 0 (16 * n + m : Nat)).eval s.x = s.x .out + n * 16 + m := by
      intro m; simp only [XE.eval]; push_cast; omega
    have e1 : (XE.lin .out 0 (16 * n : Nat)).eval s.x = s.x .out + n * 16 := by
      simp only [XE.eval]; push_cast; omega
    simp only [wordWrS, wordWr, List.map_cons, evalWr, e0, e1, eval_wordWrS f mem s e n]
    rfl

theorem sumE_s (f : FloatOps) (mem : Int → BitVec 8) (s : St VReg Int) {n i : Nat} (hi : i < n) :
    ((sumE n (i / 4)).eval f mem s).s (i % 4) =
      sum8 (s.v (8 + i)) * BitVec.ofInt 32 (s.x .mulSum) + BitVec.ofInt 32 (s.x .addSum) := by
  obtain ⟨g, hg⟩ : ∃ g, g = i / 4 := ⟨_, rfl⟩
  obtain ⟨j, hj⟩ : ∃ j, j = i % 4 := ⟨_, rfl⟩
  have e0 : XE.eval s.x (.lin .mulSum 0 0) = s.x .mulSum := by simp [XE.eval]
  have e1 : XE.eval s.x (.lin .addSum 0 0) = s.x .addSum := by simp [XE.eval]
  have hq : ((quadE g (min 4 (n - 4 * g))).eval f mem s).s j = sum8 (s.v (8 + i)) := by
    have hp : place (min 4 (n - 4 * g)) j = j := by unfold place; rw [if_pos (by omega)]
    have ei : 8 + i = 8 + (4 * g + place (min 4 (n - 4 * g)) j) := by omega
    rw [ei]
    clear ei hp
    simp only [quadE, VE.eval, machine, op2V, op1V, s_ofS]
    have : j = 0 ∨ j = 1 ∨ j = 2 ∨ j = 3 := by omega
    rcases this with h | h | h | h <;> subst h <;> rfl
  rw [← hg, ← hj]
  simp only [sumE, VE.eval, machine, op2V, s_ofS, reduceIte, e0, e1] at hq ⊢
  rw [hq]

theorem redOk_wr {n : Nat} {l : List Ins} (h : redOk n l = true) (f : FloatOps) (mem : Int → BitVec 8)
    (s : St VReg Int) :
    (exec (machine f mem) l s).rd = s.rd ∧
    ∃ e : Nat → VReg, (exec (machine f mem) l s).wr = wordWr (s.x .out) e (groups n) ++ s.wr ∧
      ∀ i, i < n → (e (i / 4)).s (i % 4) =
        sum8 (s.v (8 + i)) * BitVec.ofInt 32 (s.x .mulSum) + BitVec.ofInt 32 (s.x .addSum) := by
  unfold redOk at h
  rw [Bool.and_eq_true, decide_eq_true_eq, decide_eq_true_eq] at h
  rw [exec_sym]
  refine ⟨?_, fun g => (sumE n g).eval f mem s, ?_, fun i hi => sumE_s f mem s hi⟩
  · show (exec sym l symInit).rd.map _ ++ s.rd = s.rd
    rw [h.1]; rfl
  · show (exec sym l symInit).wr.map _ ++ s.wr = _
    rw [h.2, eval_wordWrS]

/-- A 32-bit word in memory. -/
def word (m : Int → BitVec 8) (a : Int) : BitVec 32 := (m (a + 3) ++ m (a + 2)) ++ (m (a + 1) ++ m a)

/-- What the code for the sums of `n` lanes does: it stores a word for each lane, within the groups of four words, and
reads nothing. -/
def Reduces (f : FloatOps) (mem : Int → BitVec 8) (n : Nat) (l : List Ins) : Prop := ∀ s : St VReg Int,
  (exec (machine f mem) l s).rd = s.rd ∧ ∃ w, (exec (machine f mem) l s).wr = w ++ s.wr ∧
    (∀ ok : Int → Bool, (∀ a, s.x .out ≤ a → a < s.x .out + (16 * groups n : Nat) → ok a = true) →
      writesIn ok w = true) ∧
    ∀ m, (∀ a, ¬(s.x .out ≤ a ∧ a < s.x .out + (16 * groups n : Nat)) → memAfter w m a = m a) ∧
      ∀ i : Nat, i < n → word (memAfter w m) (s.x .out + 4 * i) =
        sum8 (s.v (8 + i)) * BitVec.ofInt 32 (s.x .mulSum) + BitVec.ofInt 32 (s.x .addSum)

theorem reduces_of_ok {n : Nat} {l : List Ins} (hn : n ≤ 8) (h : redOk n l = true) (f : FloatOps)
    (mem : Int → BitVec 8) : Reduces f mem n l := by
  intro s
  obtain ⟨hr, e, hwr, hsum⟩ := redOk_wr h f mem s
  refine ⟨hr, _, hwr, fun ok hok => writesIn_word ok _ e _ hok, fun m => ⟨?_, ?_⟩⟩
  · intro a ha
    rw [memAfter_word, if_neg ha]
  · intro i hi
    have hg : i / 4 < groups n := by unfold groups; split <;> omega
    have hb : ∀ b : Nat, b < 4 → memAfter (wordWr (s.x .out) e (groups n)) m (s.x .out + 4 * i + b) =
        e (i / 4) (4 * (i % 4) + b) := by
      intro b hb
      rw [memAfter_word, if_pos (by omega), show (s.x .out + 4 * (i : Int) + b - s.x .out).toNat = 4 * i + b by omega]
      rw [show (4 * i + b) / 16 = i / 4 by omega, show (4 * i + b) % 16 = 4 * (i % 4) + b by omega]
    rw [← hsum i hi]
    unfold word
    have b0 := hb 0 (by omega)
    have b1 := hb 1 (by omega)
    have b2 := hb 2 (by omega)
    have b3 := hb 3 (by omega)
    simp only [Nat.cast_ofNat, Int.add_zero, Nat.add_zero, Nat.cast_zero, Nat.cast_one] at b0 b1 b2 b3
    unfold VReg.s VReg.h
    rw [b0, b1, b2, b3, show 2 * (2 * (i % 4) + 1) + 1 = 4 * (i % 4) + 3 by omega,
      show 2 * (2 * (i % 4) + 1) = 4 * (i % 4) + 2 by omega, show 2 * (2 * (i % 4)) = 4 * (i % 4) by omega]

/-! ## The packed form -/

/-- Rounded up to a multiple of eight. -/
def up8 (k : Nat) : Nat := (k + 7) / 8 * 8

/-- Byte `t` of the packed form of `n` lanes of `k` bytes: chunks of eight bytes, lane after lane, filled
up with zeros. -/
def packedByte (n k : Nat) (src : Nat → Nat → BitVec 8) (t : Nat) : BitVec 8 :=
  let q := t / (8 * n) * 8 + t % 8
  if q < k then src (t % (8 * n) / 8) q else 0

/-- The sum of a lane, as eight 16-bit counters give it. -/
def laneSum (f : Nat → BitVec 8) (k : Nat) : Nat :=
  let c j := colSum (fun q => (f q).toNat) j k % 65536
  c 0 + c 1 + (c 2 + c 3) + (c 4 + c 5 + (c 6 + c 7))

/-- At `dst` there is the packed form of `n` lanes, followed by a word for each lane: the sum of its bytes times
`mul` plus `add`. -/
structure Packed (m : Int → BitVec 8) (dst : Int) (n k : Nat) (src : Nat → Nat → BitVec 8) (mul add : Int) :
    Prop where
  data : ∀ t : Nat, t < n * up8 k → m (dst + t) = packedByte n k src t
  sums : ∀ i : Nat, i < n → word m (dst + (n * up8 k : Nat) + 4 * i) =
    BitVec.ofNat 32 (laneSum (src i) k) * BitVec.ofInt 32 mul + BitVec.ofInt 32 add

theorem laneSum_eq {f : Nat → BitVec 8} {k : Nat} (hk : k ≤ 2056) : laneSum f k = sumTo (fun q => (f q).toNat) k := by
  have h : ∀ j, j < 8 → colSum (fun q => (f q).toNat) j k % 65536 = colSum (fun q => (f q).toNat) j k := by
    intro j hj
    apply Nat.mod_eq_of_lt
    have := colSum_le (fun q => (f q).toNat) (fun q => by have := (f q).isLt; omega) hj k
    omega
  unfold laneSum
  dsimp only
  rw [h 0 (by omega), h 1 (by omega), h 2 (by omega), h 3 (by omega), h 4 (by omega), h 5 (by omega),
    h 6 (by omega), h 7 (by omega), ← sum_colSum]
  omega

theorem sum8_eq {v : VReg} {f : Nat → BitVec 8} {k : Nat}
    (h : ∀ j, j < 8 → v.h j = BitVec.ofNat 16 (colSum (fun q => (f q).toNat) j k)) :
    sum8 v = BitVec.ofNat 32 (laneSum f k) := by
  have e : ∀ j, j < 8 → (v.h j).zeroExtend 32 = BitVec.ofNat 32 (colSum (fun q => (f q).toNat) j k % 65536) := by
    intro j hj
    rw [h j hj]
    apply BitVec.eq_of_toNat_eq
    rw [BitVec.toNat_setWidth, BitVec.toNat_ofNat, BitVec.toNat_ofNat]
  unfold sum8 laneSum
  rw [e 0 (by omega), e 1 (by omega), e 2 (by omega), e 3 (by omega), e 4 (by omega), e 5 (by omega),
    e 6 (by omega), e 7 (by omega)]
  simp only [← BitVec.ofNat_add]

/-- The part of the code after the loop that packs the leftovers, and the reduction. -/
def Ins.isRed : Ins → Bool
  | .ins .. | .ldr .. => true
  | _ => false

def Prog.left (p : Prog) : List Ins := p.tail.takeWhile fun i => !i.isRed
def Prog.red (p : Prog) : List Ins := p.tail.dropWhile fun i => !i.isRed

theorem Prog.tail_eq (p : Prog) : p.tail = p.left ++ p.red := (List.takeWhile_append_dropWhile).symm

theorem exec_append {V A : Type} (D : Dom V A) (l l' : List Ins) (s : St V A) :
    exec D (l ++ l') s = exec D l' (exec D l s) := by
  unfold exec; rw [List.foldl_append]

/-- What the parts of packing code do.  `P pos s`: the pointers are at element `pos` of the lanes. -/
structure PackCode (f : FloatOps) (mem : Int → BitVec 8) (p : Prog) (ok : Int → Bool) (n k : Nat)
    (src : Nat → Nat → BitVec 8) (s0 : St VReg Int) (P : Nat → St VReg Int → Prop) : Prop where
  skip : p.skip = decide (0 < k % 8)
  cond : p.cond = .ne
  red : Reduces f mem n p.red
  leftNil : k % 8 = 0 → p.left = []
  init : P 0 (exec (machine f mem) p.init s0)
  initV : ∀ i, i < n → (exec (machine f mem) p.init s0).v (8 + i) = fun _ => 0
  initX : ∀ r, r = .out ∨ r = .mulSum ∨ r = .addSum → (exec (machine f mem) p.init s0).x r = s0.x r
  initCount : (exec (machine f mem) p.init s0).x .count = s0.x .count - (k % 8 : Nat)
  initFlags : 0 < k % 8 → (exec (machine f mem) p.init s0).x .flags = s0.x .count - (k % 8 : Nat)
  initRd : (exec (machine f mem) p.init s0).rd = s0.rd
  initWr : (exec (machine f mem) p.init s0).wr = s0.wr
  body : ∀ pos s, P pos s → pos + 8 ≤ k →
    Chunk ok n 8 (fun i j => src i (pos + j)) s (exec (machine f mem) p.body s) ∧
    P (pos + 8) (exec (machine f mem) p.body s) ∧
    (exec (machine f mem) p.body s).x .count = s.x .count - 8 ∧
    (exec (machine f mem) p.body s).x .flags = s.x .count - 8
  last : ∀ pos s, P pos s → 0 < k % 8 → pos + k % 8 = k →
    Chunk ok n (k % 8) (fun i j => src i (pos + j)) s (exec (machine f mem) p.left s)

theorem packLoop {f : FloatOps} {mem : Int → BitVec 8} {p : Prog} {ok : Int → Bool} {n k : Nat}
    {src : Nat → Nat → BitVec 8} {s0 : St VReg Int} {P : Nat → St VReg Int → Prop}
    (h : PackCode f mem p ok n k src s0 P) (hn : 0 < n) : ∀ (c pos fuel : Nat) (s : St VReg Int),
    pos % 8 = 0 → 0 < c → c < fuel → pos + 8 * c + k % 8 = k → s.x .count = (8 * c : Nat) →
    P pos s → Packing ok n src s0 pos pos s →
    ∃ s', loop (machine f mem) p.body p.cond fuel s = some s' ∧ P (pos + 8 * c) s' ∧
      Packing ok n src s0 (pos + 8 * c) (pos + 8 * c) s' := by
  intro c
  induction c with
  | zero => intro _ _ _ _ h0; omega
  | succ c ih =>
    intro pos fuel s hp _ hf hk hc hP hs
    obtain ⟨fuel, rfl⟩ : ∃ g, fuel = g + 1 := ⟨fuel - 1, by omega⟩
    obtain ⟨hch, hP', hc', hfl⟩ := h.body pos s hP (by omega)
    have hs' := hs.chunk hp (by omega) hn hch
    rw [loop, h.cond, hfl]
    by_cases h0 : c = 0
    · subst h0
      rw [if_neg (by rw [hc]; simp [Cond.holds])]
      exact ⟨_, rfl, hP', hs'⟩
    · rw [if_pos (by rw [hc]; simp only [Cond.holds, decide_eq_true_eq]; omega), ← h.cond]
      obtain ⟨s', e, h1, h2⟩ := ih (pos + 8) fuel _ (by omega) (by omega) (by omega) (by omega)
        (by rw [hc', hc]; omega) hP' hs'
      refine ⟨s', e, ?_, ?_⟩
      · rw [show pos + 8 * (c + 1) = pos + 8 + 8 * c by omega]; exact h1
      · rw [show pos + 8 * (c + 1) = pos + 8 + 8 * c by omega]; exact h2

/-- Packing code packs. -/
theorem PackCode.run {f : FloatOps} {mem : Int → BitVec 8} {p : Prog} {ok : Int → Bool} {n k : Nat}
    {src : Nat → Nat → BitVec 8} {s0 : St VReg Int} {P : Nat → St VReg Int → Prop}
    (h : PackCode f mem p ok n k src s0 P) (hn : 0 < n) (hk : 0 < k) (hc : s0.x .count = k)
    (hrd : readsIn ok s0.rd = true) (hw0 : s0.wr = []) :
    ∃ s', p.run (machine f mem) s0 = some s' ∧ readsIn ok s'.rd = true ∧
      (∀ okw, (∀ a, s0.x .out ≤ a → a < s0.x .out + (n * up8 k + 16 * groups n : Nat) → okw a = true) →
        writesIn okw s'.wr = true) ∧
      ∀ m, Packed (memAfter s'.wr m) (s0.x .out) n k src (s0.x .mulSum) (s0.x .addSum) ∧
        ∀ a, ¬(s0.x .out ≤ a ∧ a < s0.x .out + (n * up8 k + 16 * groups n : Nat)) → memAfter s'.wr m a = m a := by
  -- the loop
  have h1 : Packing ok n src s0 0 0 (exec (machine f mem) p.init s0) := by
    refine ⟨?_, ?_, by rw [h.initRd]; exact hrd, h.initX _ (.inr (.inl rfl)), h.initX _ (.inr (.inr rfl)), ?_, ?_⟩
    · intro i hi j hj
      rw [h.initV i hi]
      show (0#8 ++ 0#8 : BitVec 16) = BitVec.ofNat 16 0
      decide
    · rw [h.initX _ (.inl rfl)]; simp
    · intro m a
      rw [if_neg (by omega), h.initWr]
    · intro okw h0 _
      rw [h.initWr]; exact h0
  -- the tail
  have h2 : ∀ s pos, P pos s → Packing ok n src s0 pos pos s → pos % 8 = 0 → pos + k % 8 = k →
      Packing ok n src s0 k (up8 k) (exec (machine f mem) p.left s) := by
    intro s pos hP hs hp hpk
    by_cases h0 : k % 8 = 0
    · rw [h.leftNil h0]
      have e1 : pos = k := by omega
      have e2 : up8 k = k := by unfold up8; omega
      rw [e2]; rw [e1] at hs; exact hs
    · have := hs.chunk hp (by omega) hn (h.last pos s hP (by omega) hpk)
      rw [hpk] at this
      rw [show up8 k = pos + 8 by unfold up8; omega]
      exact this
  have h3 : ∃ s, p.run (machine f mem) s0 = some (exec (machine f mem) p.red s) ∧
      Packing ok n src s0 k (up8 k) s := by
    unfold Prog.run
    dsimp only
    by_cases h0 : k < 8
    · have hlt : k % 8 = k := Nat.mod_eq_of_lt h0
      rw [if_pos (by
        rw [h.skip, h.initFlags (by omega), hc, hlt]; simp [hk]), p.tail_eq, exec_append]
      exact ⟨_, rfl, h2 _ 0 h.init h1 (by omega) (by omega)⟩
    · rw [if_neg (by
        rw [h.skip, Bool.and_eq_true, decide_eq_true_eq, decide_eq_true_eq]
        rintro ⟨hl, hz⟩
        rw [h.initFlags hl, hc] at hz
        omega)]
      obtain ⟨s', e, hP, hs⟩ := packLoop h hn (k / 8) 0 (((exec (machine f mem) p.init s0).x .count).toNat + 1) _ rfl
        (by omega) (by rw [h.initCount, hc]; omega) (by omega) (by rw [h.initCount, hc]; omega) h.init h1
      rw [e]
      refine ⟨_, ?_, h2 _ _ hP hs (by omega) (by omega)⟩
      show some (exec (machine f mem) p.tail s') = _
      rw [p.tail_eq, exec_append]
  obtain ⟨s, hrun, hs⟩ := h3
  obtain ⟨hr, w, hwr, hwin, hwm⟩ := h.red s
  refine ⟨_, hrun, by rw [hr]; exact hs.rd, ?_, ?_⟩
  · intro okw hok
    rw [hwr, writesIn_append, Bool.and_eq_true]
    constructor
    · apply hwin
      intro a h1 h2
      rw [hs.out] at h1 h2
      exact hok a (by omega) (by omega)
    · apply hs.wrIn
      · rw [hw0]; rfl
      · intro a h1 h2
        exact hok a h1 (by omega)
  · intro m
    obtain ⟨hout, hsum⟩ := hwm (memAfter s.wr m)
    rw [hwr]
    simp only [memAfter_append]
    refine ⟨⟨?_, ?_⟩, ?_⟩
    · intro t ht
      rw [hout _ (by rw [hs.out]; omega), hs.wr, if_pos (by omega)]
      dsimp only
      rw [show (s0.x .out + (t : Int) - s0.x .out).toNat = t by omega]
      rfl
    · intro i hi
      rw [← hs.mulSum, ← hs.addSum, ← sum8_eq (hs.sums i hi), ← hsum i hi, hs.out]
    · intro a ha
      rw [hout _ (by rw [hs.out]; omega), hs.wr, if_neg (by omega), hw0]
      rfl

end Gemmlowp.MetaAsm
