import Verif.Bench
import Mathlib.Data.Int.ModEq
import Mathlib.Tactic.Ring
/-!
# Symbolic execution of the benchmark's kernels

A lane is described by a sum of coefficients of the packed operands, products of them, accumulators and
contents of registers at some earlier time.  Lane and sum are equal modulo the size of the lane.
Widening needs more, that the sum is in the range of the narrow lane; this is checked with the ranges of
the operands.
-/
namespace Gemmlowp.Bench

/-- A summand: coefficient of the LHS or RHS (by its position after the current cells), a product, a lane
of a register at an earlier time, an accumulator. -/
inductive Mono
  | l (i : Nat)
  | r (i : Nat)
  | p (i j : Nat)
  | v (d i : Nat)
  | a (k : Nat)
  deriving DecidableEq, Repr

abbrev Poly := List Mono

/-- What a register holds: lanes of `n` bytes; `n = 0` is for a cleared register. -/
structure SV where
  n : Nat
  lanes : List Poly
  deriving DecidableEq, Repr

/-- Ranges of the operands, and of the lanes at an earlier time. -/
structure Rng where
  llo : Int
  lhi : Int
  rlo : Int
  rhi : Int
  v : Nat → Option (Int × Int)

/-- Least and greatest value of a summand. -/
def Mono.range (R : Rng) : Mono → Option (Int × Int)
  | .l _ => some (R.llo, R.lhi)
  | .r _ => some (R.rlo, R.rhi)
  | .p _ _ => some (min (min (R.llo * R.rlo) (R.llo * R.rhi)) (min (R.lhi * R.rlo) (R.lhi * R.rhi)),
      max (max (R.llo * R.rlo) (R.llo * R.rhi)) (max (R.lhi * R.rlo) (R.lhi * R.rhi)))
  | .v d _ => R.v d
  | .a _ => none

def polyRange (R : Rng) : Poly → Option (Int × Int)
  | [] => some (0, 0)
  | m :: p => match m.range R, polyRange R p with
    | some a, some b => some (a.1 + b.1, a.2 + b.2)
    | _, _ => none

/-- All values of the sum are in `[lo, hi]`. -/
def within (R : Rng) (p : Poly) (lo hi : Int) : Bool :=
  match polyRange R p with
  | some a => decide (lo ≤ a.1 ∧ a.2 ≤ hi)
  | none => false

/-- All values of the sum are those of a lane of `n` bytes. -/
def fits (R : Rng) (sg : Bool) (n : Nat) (p : Poly) : Bool :=
  if sg then within R p (-(256 ^ n / 2)) (256 ^ n / 2 - 1) else within R p 0 (256 ^ n - 1)

/-- Symbolic registers. -/
abbrev SRegs := Nat → Option SV

/-- Reading a lane as summand of a lane of `w` bytes. -/
def readSrc (R : Rng) (w : Nat) (x : SRegs) (s : Src) : Option Poly :=
  match x s.d with
  | none => none
  | some sv =>
    if sv.n = 0 then some []
    else if sv.n = s.n then
      match sv.lanes[s.i]? with
      | none => none
      | some p => if w ≤ s.n || fits R s.sg s.n p then some p else none
    else if sv.n = 1 ∧ s.n = 2 ∧ s.sg = false then
      match sv.lanes[2 * s.i]?, sv.lanes[2 * s.i + 1]? with
      | some p, some [] => if fits R false 1 p then some p else none
      | _, _ => none
    else none

def mulPoly : Poly → Poly → Option Poly
  | [], _ => some []
  | _, [] => some []
  | [.l i], [.r j] => some [.p i j]
  | [.r j], [.l i] => some [.p i j]
  | _, _ => none

def symTerm (R : Rng) (w : Nat) (x : SRegs) : Term → Option Poly
  | .src s => readSrc R w x s
  | .mul s t => match readSrc R w x s, readSrc R w x t with
    | some p, some q => mulPoly p q
    | _, _ => none
  | .acc k => if w = 4 then some [.a k] else none

def symTerms (R : Rng) (w : Nat) (x : SRegs) : List Term → Option Poly
  | [] => some []
  | t :: ts => match symTerm R w x t, symTerms R w x ts with
    | some p, some q => some (p ++ q)
    | _, _ => none

def symLanes (R : Rng) (w : Nat) (x : SRegs) : List (List Term) → Option (List Poly)
  | [] => some []
  | t :: ts => match symTerms R w x t, symLanes R w x ts with
    | some p, some q => some (p :: q)
    | _, _ => none

def symOut (R : Rng) (x : SRegs) (o : Out) : Option SV :=
  if o.n = 0 then none else (symLanes R o.n x o.lanes).map (fun l => ⟨o.n, l⟩)

def symWrites (R : Rng) (x0 : SRegs) : List Out → SRegs → SRegs
  | [], x => x
  | o :: os, x => symWrites R x0 os (upd x o.d (symOut R x0 o))

/-- Symbolic state: registers, distance of the pointers from the current cells, and how far the reads
went. -/
structure SSt where
  x : SRegs
  lp : Nat
  rp : Nat
  hl : Nat
  hr : Nat

def symStep (R : Rng) (i : Ins) (s : SSt) : SSt :=
  match i with
  | .ld .lhs off d => { s with
      x := upd s.x d (some ⟨1, (List.range 8).map (fun j => [.l (s.lp + off + j)])⟩)
      hl := max s.hl (s.lp + off + 8) }
  | .ld .rhs off d => { s with
      x := upd s.x d (some ⟨1, (List.range 8).map (fun j => [.r (s.rp + off + j)])⟩)
      hr := max s.hr (s.rp + off + 8) }
  | .ldb .lhs off d => { s with
      x := upd s.x d (some ⟨1, (List.range 8).map (fun j => if j = 0 then [.l (s.lp + off)] else [])⟩)
      hl := max s.hl (s.lp + off + 1) }
  | .ldb .rhs off d => { s with
      x := upd s.x d (some ⟨1, (List.range 8).map (fun j => if j = 0 then [.r (s.rp + off)] else [])⟩)
      hr := max s.hr (s.rp + off + 1) }
  | .adv .lhs n => { s with lp := s.lp + n }
  | .adv .rhs n => { s with rp := s.rp + n }
  | .zero d => { s with x := upd s.x d (some ⟨0, []⟩) }
  | .op outs => { s with x := symWrites R s.x outs s.x }

def sym (R : Rng) (l : List Ins) (s : SSt) : SSt := l.foldl (fun s i => symStep R i s) s

/-! ## Meaning -/

/-- What the summands stand for. -/
structure Env where
  l : Nat → Int
  r : Nat → Int
  v : Nat → Nat → Int
  a : Nat → Int

def Mono.eval (E : Env) : Mono → Int
  | .l i => E.l i
  | .r i => E.r i
  | .p i j => E.l i * E.r j
  | .v d i => E.v d i
  | .a k => E.a k

def eval (E : Env) : Poly → Int
  | [] => 0
  | m :: p => m.eval E + eval E p

theorem eval_append (E : Env) (p q : Poly) : eval E (p ++ q) = eval E p + eval E q := by
  induction p with
  | nil => simp [eval]
  | cons m p ih => simp only [List.cons_append, eval, ih]; ring

theorem eval_perm (E : Env) {p q : Poly} (h : p.Perm q) : eval E p = eval E q := by
  induction h with
  | nil => rfl
  | cons _ _ ih => simp only [eval, ih]
  | swap _ _ _ => simp only [eval]; ring
  | trans _ _ ih1 ih2 => exact ih1.trans ih2

/-- The operands and earlier lanes are in their ranges. -/
structure Env.In (E : Env) (R : Rng) : Prop where
  l : ∀ i, R.llo ≤ E.l i ∧ E.l i ≤ R.lhi
  r : ∀ i, R.rlo ≤ E.r i ∧ E.r i ≤ R.rhi
  v : ∀ d i a, R.v d = some a → a.1 ≤ E.v d i ∧ E.v d i ≤ a.2

theorem prod_in {a b c d x y : Int} (hx : a ≤ x ∧ x ≤ b) (hy : c ≤ y ∧ y ≤ d) :
    min (min (a * c) (a * d)) (min (b * c) (b * d)) ≤ x * y ∧
    x * y ≤ max (max (a * c) (a * d)) (max (b * c) (b * d)) := by
  have lower : ∀ z : Int, (z = a ∨ z = b) → min (z * c) (z * d) ≤ z * y ∧ z * y ≤ max (z * c) (z * d) := by
    intro z _
    rcases Int.le_total 0 z with h | h
    · exact ⟨le_trans (min_le_left _ _) (Int.mul_le_mul_of_nonneg_left hy.1 h),
        le_trans (Int.mul_le_mul_of_nonneg_left hy.2 h) (le_max_right _ _)⟩
    · exact ⟨le_trans (min_le_right _ _) (Int.mul_le_mul_of_nonpos_left h hy.2),
        le_trans (Int.mul_le_mul_of_nonpos_left h hy.1) (le_max_left _ _)⟩
  have la := lower a (.inl rfl)
  have lb := lower b (.inr rfl)
  rcases Int.le_total 0 y with h | h
  · exact ⟨le_trans (min_le_left _ _) (le_trans la.1 (Int.mul_le_mul_of_nonneg_right hx.1 h)),
      le_trans (Int.mul_le_mul_of_nonneg_right hx.2 h) (le_trans lb.2 (le_max_right _ _))⟩
  · exact ⟨le_trans (min_le_right _ _) (le_trans lb.1 (Int.mul_le_mul_of_nonpos_right hx.2 h)),
      le_trans (Int.mul_le_mul_of_nonpos_right hx.1 h) (le_trans la.2 (le_max_left _ _))⟩

theorem Mono.range_sound {R : Rng} {E : Env} (h : E.In R) {m : Mono} {a : Int × Int}
    (hm : m.range R = some a) : a.1 ≤ m.eval E ∧ m.eval E ≤ a.2 := by
  cases m with
  | l i => cases hm; exact h.l i
  | r i => cases hm; exact h.r i
  | p i j => cases hm; exact prod_in (h.l i) (h.r j)
  | v d i => exact h.v d i a hm
  | a k => cases hm

theorem polyRange_sound {R : Rng} {E : Env} (h : E.In R) {p : Poly} : ∀ {a : Int × Int},
    polyRange R p = some a → a.1 ≤ eval E p ∧ eval E p ≤ a.2 := by
  induction p with
  | nil => intro a ha; cases ha; simp [eval]
  | cons m p ih =>
    intro a ha
    simp only [polyRange] at ha
    cases hm : m.range R with
    | none => rw [hm] at ha; cases ha
    | some b =>
      cases hp : polyRange R p with
      | none => rw [hm, hp] at ha; cases ha
      | some c =>
        rw [hm, hp] at ha
        cases ha
        have h1 := Mono.range_sound h hm
        have h2 := ih hp
        simp only [eval]
        omega

theorem within_sound {R : Rng} {E : Env} (h : E.In R) {p : Poly} {lo hi : Int}
    (hw : within R p lo hi = true) : lo ≤ eval E p ∧ eval E p ≤ hi := by
  unfold within at hw
  cases hp : polyRange R p with
  | none => rw [hp] at hw; cases hw
  | some a =>
    rw [hp] at hw
    have h1 := polyRange_sound h hp
    have h2 := of_decide_eq_true hw
    omega

/-! ## Lanes -/

theorem mod_step (x : Int) (k : Nat) : x % 256 + 256 * (x / 256 % 256 ^ k) = x % 256 ^ (k + 1) := by
  have e : (256 : Int) ^ (k + 1) = 256 * 256 ^ k := by rw [pow_succ]; ring
  rw [e, Int.emod_def x (256 * 256 ^ k), Int.emod_def (x / 256), ← Int.ediv_ediv_of_nonneg (by omega),
    Int.emod_def x 256]
  ring

theorem laneAux_ofLanes {n : Nat} (f : Nat → Int) (i : Nat) : ∀ k b, b + k ≤ n →
    (laneAux (ofLanes n f) (n * i + b) k : Int) = f i / 256 ^ b % 256 ^ k := by
  intro k
  induction k with
  | zero => intro b _; simp [laneAux]
  | succ k ih =>
    intro b hb
    have e1 : (n * i + b) / n = i := by
      rw [Nat.mul_add_div (by omega), Nat.div_eq_of_lt (by omega), Nat.add_zero]
    have e2 : (n * i + b) % n = b := by rw [Nat.mul_add_mod, Nat.mod_eq_of_lt (by omega)]
    simp only [laneAux]
    push_cast
    rw [Nat.add_assoc, ih (b + 1) (by omega)]
    unfold ofLanes
    rw [e1, e2, pow_succ, ← Int.ediv_ediv_of_nonneg (Int.pow_nonneg (by omega)), ← mod_step]
    congr 1
    rw [BitVec.toNat_ofInt]
    omega

theorem lane_ofLanes {n : Nat} (f : Nat → Int) (i : Nat) : (lane n (ofLanes n f) i : Int) = f i % 256 ^ n := by
  have h := laneAux_ofLanes (n := n) f i n 0 (by omega)
  unfold lane
  rw [Nat.add_zero] at h
  rw [h, pow_zero, Int.ediv_one]

theorem laneAux_lt (v : DReg) : ∀ k p, laneAux v p k < 256 ^ k
  | 0, p => by simp [laneAux]
  | k + 1, p => by
    have := laneAux_lt v k (p + 1)
    have := (v p).isLt
    simp only [laneAux, Nat.pow_succ]
    omega

theorem lane_lt (n : Nat) (v : DReg) (i : Nat) : lane n v i < 256 ^ n := laneAux_lt v n _

theorem laneAux_zero {v : DReg} (h : ∀ j, v j = 0#8) : ∀ k p, laneAux v p k = 0
  | 0, _ => rfl
  | k + 1, p => by simp [laneAux, h, laneAux_zero h k (p + 1)]

theorem lane_one (v : DReg) (i : Nat) : lane 1 v i = (v i).toNat := by
  simp [lane, laneAux]

theorem lane_two (v : DReg) (i : Nat) : lane 2 v i = lane 1 v (2 * i) + 256 * lane 1 v (2 * i + 1) := by
  simp [lane, laneAux]

/-! ## Soundness -/

/-- The register holds what is said. -/
structure SVSat (E : Env) (v : DReg) (sv : SV) : Prop where
  zero : sv.n = 0 → ∀ j, v j = 0#8
  lane : sv.n ≠ 0 → ∀ i p, sv.lanes[i]? = some p → (lane sv.n v i : Int) ≡ eval E p [ZMOD 256 ^ sv.n]

def Sat (E : Env) (x : Nat → DReg) (S : SRegs) : Prop := ∀ d sv, S d = some sv → SVSat E (x d) sv

theorem eq_of_modEq {a b n lo : Int} (h : a ≡ b [ZMOD n]) (ha : lo ≤ a ∧ a < lo + n)
    (hb : lo ≤ b ∧ b < lo + n) : a = b := by
  have h1 : (a - lo) % n = (b - lo) % n := Int.ModEq.sub_right lo h
  rw [Int.emod_eq_of_lt (by omega) (by omega), Int.emod_eq_of_lt (by omega) (by omega)] at h1
  omega

theorem pow_half (n : Nat) (h : n ≠ 0) : (256 : Int) ^ n = 2 * (256 ^ n / 2) := by
  obtain ⟨k, rfl⟩ := Nat.exists_eq_succ_of_ne_zero h
  rw [Nat.succ_eq_add_one, pow_succ]
  omega

theorem Src.val_modEq (x : Nat → DReg) (s : Src) : s.val x ≡ (Bench.lane s.n (x s.d) s.i : Int) [ZMOD 256 ^ s.n] := by
  unfold Src.val
  split
  · exact (Int.modEq_iff_dvd).2 ⟨1, by ring⟩
  · rfl

theorem Src.val_range (x : Nat → DReg) (s : Src) (hn : s.n ≠ 0) :
    if s.sg then -(256 ^ s.n / 2) ≤ s.val x ∧ s.val x < -(256 ^ s.n / 2) + 256 ^ s.n
    else 0 ≤ s.val x ∧ s.val x < 0 + 256 ^ s.n := by
  have h := lane_lt s.n (x s.d) s.i
  have h2 := pow_half s.n hn
  have h' : (Bench.lane s.n (x s.d) s.i : Int) < 256 ^ s.n := by exact_mod_cast h
  unfold Src.val
  cases s.sg with
  | false => simp; exact h'
  | true =>
    simp only [true_and, if_true]
    split
    · rename_i h3
      have h3' : (256 : Int) ^ s.n ≤ 2 * (Bench.lane s.n (x s.d) s.i : Int) := by exact_mod_cast h3
      omega
    · rename_i h3
      have h3' : 2 * (Bench.lane s.n (x s.d) s.i : Int) < 256 ^ s.n := by
        have := Nat.lt_of_not_le h3
        exact_mod_cast this
      omega

theorem val_exact {R : Rng} {E : Env} (hE : E.In R) {x : Nat → DReg} {s : Src} {p : Poly} (hn : s.n ≠ 0)
    (hl : (Bench.lane s.n (x s.d) s.i : Int) ≡ eval E p [ZMOD 256 ^ s.n]) (hf : fits R s.sg s.n p = true) :
    s.val x = eval E p := by
  have h1 := (s.val_modEq x).trans hl
  have h2 := s.val_range x hn
  have h3 := pow_half s.n hn
  unfold fits at hf
  cases hs : s.sg with
  | true =>
    rw [hs] at h2 hf
    have := within_sound hE hf
    exact eq_of_modEq h1 h2 (by omega)
  | false =>
    rw [hs] at h2 hf
    have := within_sound hE hf
    exact eq_of_modEq h1 h2 (by omega)

theorem pow_dvd_of_le {w n : Nat} (h : w ≤ n) : (256 : Int) ^ w ∣ 256 ^ n := pow_dvd_pow 256 h

theorem readSrc_sound {R : Rng} {E : Env} (hE : E.In R) {w : Nat} {x : Nat → DReg} {S : SRegs} (hS : Sat E x S)
    {s : Src} {p : Poly} (h : readSrc R w S s = some p) : s.val x ≡ eval E p [ZMOD 256 ^ w] := by
  unfold readSrc at h
  cases hd : S s.d with
  | none => rw [hd] at h; cases h
  | some sv =>
    rw [hd] at h
    have hv := hS _ _ hd
    dsimp only at h
    split at h
    · rename_i h0
      cases h
      have e : Bench.lane s.n (x s.d) s.i = 0 := laneAux_zero (hv.zero h0) _ _
      unfold Src.val
      rw [e]
      have : ¬ (s.sg = true ∧ 256 ^ s.n ≤ 2 * 0) := by
        intro ⟨_, h⟩
        have := Nat.pow_pos (n := s.n) (show 0 < 256 by omega)
        omega
      rw [if_neg this]
      exact Int.ModEq.refl 0
    · rename_i h0
      split at h
      · rename_i hn
        have hn0 : s.n ≠ 0 := by rw [← hn]; exact h0
        cases hl : sv.lanes[s.i]? with
        | none => rw [hl] at h; cases h
        | some p' =>
          rw [hl] at h
          dsimp only at h
          have hl' := hv.lane h0 _ _ hl
          rw [hn] at hl'
          split at h
          · rename_i hc
            cases h
            rcases (Bool.or_eq_true _ _).mp hc with hc | hc
            · exact ((s.val_modEq x).trans hl').of_dvd (pow_dvd_of_le (of_decide_eq_true hc))
            · rw [val_exact hE hn0 hl' hc]
          · cases h
      · split at h
        · rename_i hn
          obtain ⟨n1, n2, n3⟩ := hn
          cases ha : sv.lanes[2 * s.i]? with
          | none => rw [ha] at h; cases h
          | some p' =>
            cases hb : sv.lanes[2 * s.i + 1]? with
            | none => rw [ha, hb] at h; cases h
            | some p'' =>
              rw [ha, hb] at h
              cases p'' with
              | cons _ _ => cases h
              | nil =>
                dsimp only at h
                split at h
                · rename_i hf
                  cases h
                  have h1 := hv.lane h0 _ _ ha
                  have h2 := hv.lane h0 _ _ hb
                  rw [n1] at h1 h2
                  have b1 := lane_lt 1 (x s.d) (2 * s.i)
                  have b2 := lane_lt 1 (x s.d) (2 * s.i + 1)
                  have w1 : 0 ≤ eval E p ∧ eval E p ≤ 256 ^ 1 - 1 := within_sound hE hf
                  have e1 := eq_of_modEq (lo := 0) h1 (by omega) (by omega)
                  have e2 := eq_of_modEq (lo := 0) (b := 0) h2 (by omega) (by omega)
                  unfold Src.val
                  rw [n2, n3, lane_two]
                  simp only [Bool.false_eq_true, false_and, if_false]
                  push_cast
                  rw [e1, e2]
                  simp
                · cases h
        · cases h

theorem mulPoly_sound (E : Env) {p q o : Poly} (h : mulPoly p q = some o) : eval E o = eval E p * eval E q := by
  unfold mulPoly at h
  split at h <;> (try cases h) <;> simp [eval, Mono.eval, Int.mul_comm]

theorem symTerm_sound {R : Rng} {E : Env} (hE : E.In R) {m : Mem} (hA : ∀ k, E.a k = ((m.acc k).toNat : Int))
    {w : Nat} {x : Nat → DReg} {S : SRegs} (hS : Sat E x S) {t : Term} {p : Poly}
    (h : symTerm R w S t = some p) : t.val m x ≡ eval E p [ZMOD 256 ^ w] := by
  cases t with
  | src s => exact readSrc_sound hE hS h
  | mul s t =>
    simp only [symTerm] at h
    cases h1 : readSrc R w S s with
    | none => rw [h1] at h; cases h
    | some p1 =>
      cases h2 : readSrc R w S t with
      | none => rw [h1, h2] at h; cases h
      | some p2 =>
        rw [h1, h2] at h
        rw [mulPoly_sound E h]
        exact (readSrc_sound hE hS h1).mul (readSrc_sound hE hS h2)
  | acc k =>
    simp only [symTerm] at h
    split at h
    · cases h
      simp [eval, Mono.eval, Term.val, hA]
    · cases h

theorem symTerms_sound {R : Rng} {E : Env} (hE : E.In R) {m : Mem} (hA : ∀ k, E.a k = ((m.acc k).toNat : Int))
    {w : Nat} {x : Nat → DReg} {S : SRegs} (hS : Sat E x S) : ∀ {ts : List Term} {p : Poly},
    symTerms R w S ts = some p → termsVal m x ts ≡ eval E p [ZMOD 256 ^ w]
  | [], p, h => by cases h; exact Int.ModEq.refl _
  | t :: ts, p, h => by
    simp only [symTerms] at h
    cases h1 : symTerm R w S t with
    | none => rw [h1] at h; cases h
    | some p1 =>
      cases h2 : symTerms R w S ts with
      | none => rw [h1, h2] at h; cases h
      | some p2 =>
        rw [h1, h2] at h
        cases h
        rw [eval_append]
        exact (symTerm_sound hE hA hS h1).add (symTerms_sound hE hA hS h2)

theorem symLanes_sound {R : Rng} {w : Nat} {S : SRegs} : ∀ {ts : List (List Term)} {ps : List Poly},
    symLanes R w S ts = some ps → ∀ (i : Nat) p, ps[i]? = some p → symTerms R w S (ts.getD i []) = some p
  | [], ps, h, i, p, hp => by cases h; simp at hp
  | t :: ts, ps, h, i, p, hp => by
    simp only [symLanes] at h
    cases h1 : symTerms R w S t with
    | none => rw [h1] at h; cases h
    | some p1 =>
      cases h2 : symLanes R w S ts with
      | none => rw [h1, h2] at h; cases h
      | some p2 =>
        rw [h1, h2] at h
        cases h
        cases i with
        | zero => simp at hp ⊢; rw [h1, hp]
        | succ i =>
          simp at hp ⊢
          have := symLanes_sound h2 i p hp
          simpa using this

theorem symOut_sound {R : Rng} {E : Env} (hE : E.In R) {m : Mem} (hA : ∀ k, E.a k = ((m.acc k).toNat : Int))
    {x : Nat → DReg} {S : SRegs} (hS : Sat E x S) {o : Out} {sv : SV} (h : symOut R S o = some sv) :
    SVSat E (o.val m x) sv := by
  unfold symOut at h
  split at h
  · cases h
  · rename_i h0
    cases hl : symLanes R o.n S o.lanes with
    | none => rw [hl] at h; cases h
    | some l =>
      rw [hl] at h
      cases h
      refine ⟨fun h => absurd h h0, fun _ i p hp => ?_⟩
      unfold Out.val
      rw [lane_ofLanes]
      exact (Int.mod_modEq _ _).trans (symTerms_sound hE hA hS (symLanes_sound hl i p hp))

theorem Sat.upd {E : Env} {x : Nat → DReg} {S : SRegs} (h : Sat E x S) {d : Nat} {v : DReg} {sv : Option SV}
    (hv : ∀ s, sv = some s → SVSat E v s) : Sat E (upd x d v) (upd S d sv) := by
  intro r s hs
  unfold Bench.upd at hs ⊢
  split at hs
  · rename_i e; rw [if_pos e]; exact hv s hs
  · rename_i e; rw [if_neg e]; exact h r s hs

theorem writes_sound {R : Rng} {E : Env} (hE : E.In R) {m : Mem} (hA : ∀ k, E.a k = ((m.acc k).toNat : Int))
    {x0 : Nat → DReg} {S0 : SRegs} (h0 : Sat E x0 S0) : ∀ (os : List Out) {x : Nat → DReg} {S : SRegs},
    Sat E x S → Sat E (writes m x0 os x) (symWrites R S0 os S)
  | [], _, _, h => h
  | _ :: os, _, _, h => writes_sound hE hA h0 os (h.upd (fun _ hs => symOut_sound hE hA h0 hs))

/-- Symbolic and real state agree: the current cells are at `bl` and `br`; `k0` says whether all was well
before. -/
structure Agrees (m : Mem) (E : Env) (bl br : Nat) (k0 : Bool) (s : St) (S : SSt) : Prop where
  x : Sat E s.x S.x
  lp : s.lp = bl + S.lp
  rp : s.rp = br + S.rp
  ok : s.ok = true ↔ k0 = true ∧ bl + S.hl ≤ m.lhs.size ∧ br + S.hr ≤ m.rhs.size

/-- The coefficients are those in memory. -/
structure Env.Of (E : Env) (F : KernelFormat) (m : Mem) (bl br : Nat) : Prop where
  l : ∀ i, E.l i = F.lhs.kval (m.lhs.get (bl + i))
  r : ∀ i, E.r i = F.rhs.kval (m.rhs.get (br + i))
  a : ∀ k, E.a k = ((m.acc k).toNat : Int)

theorem kval_modEq (f : SideFormat) (b : UInt8) : (b.toNat : Int) ≡ f.kval b [ZMOD 256] := by
  unfold SideFormat.kval
  cases f.scalar <;> dsimp only
  · rfl
  · split
    · rfl
    · exact (Int.modEq_iff_dvd).2 ⟨-1, by ring⟩
  · split
    · rfl
    · exact (Int.modEq_iff_dvd).2 ⟨-1, by ring⟩

theorem range8 {α : Type} {f : Nat → α} {i : Nat} {a : α} (h : ((List.range 8).map f)[i]? = some a) : a = f i := by
  rw [List.getElem?_map] at h
  cases hr : (List.range 8)[i]? with
  | none => rw [hr] at h; cases h
  | some j =>
    rw [hr] at h
    rw [List.getElem?_range (by
      by_contra hc
      rw [List.getElem?_eq_none (by simp; omega)] at hr
      cases hr)] at hr
    cases hr; cases h; rfl

theorem range8_lt {α : Type} {f : Nat → α} {i : Nat} {a : α} (h : ((List.range 8).map f)[i]? = some a) : i < 8 := by
  have := (List.getElem?_eq_some_iff.1 h).1
  simpa using this

theorem symStep_sound {R : Rng} {E : Env} (hE : E.In R) {F : KernelFormat} {m : Mem} {bl br : Nat}
    (hO : E.Of F m bl br) {k0 : Bool} {s : St} {S : SSt} (h : Agrees m E bl br k0 s S) (i : Ins) :
    Agrees m E bl br k0 (step m i s) (symStep R i S) := by
  obtain ⟨hx, hl, hr, hk⟩ := h
  cases i with
  | zero d =>
    exact ⟨hx.upd (fun s hs => by cases hs; exact ⟨fun _ _ => rfl, fun h => absurd rfl h⟩), hl, hr, hk⟩
  | op outs => exact ⟨writes_sound hE hO.a hx outs hx, hl, hr, hk⟩
  | adv p n =>
    cases p
    · exact ⟨hx, by show s.lp + n = bl + (S.lp + n); omega, hr, hk⟩
    · exact ⟨hx, hl, by show s.rp + n = br + (S.rp + n); omega, hk⟩
  | ld p off d =>
    cases p
    · refine ⟨hx.upd (fun v hv => ?_), hl, hr, ?_⟩
      · cases hv
        refine ⟨fun h => (by cases h), fun _ i p hp => ?_⟩
        rw [range8 (f := fun j => [Mono.l (S.lp + off + j)]) hp, lane_one]
        dsimp only
        rw [if_pos (range8_lt (f := fun j => [Mono.l (S.lp + off + j)]) hp)]
        simp only [eval, Mono.eval, hO.l, Int.add_zero, hl, pow_one]
        rw [show bl + S.lp + off + i = bl + (S.lp + off + i) by omega]
        exact kval_modEq F.lhs _
      · show (s.ok && decide (s.lp + off + 8 ≤ m.lhs.size)) = true ↔ k0 = true ∧
          bl + max S.hl (S.lp + off + 8) ≤ m.lhs.size ∧ br + S.hr ≤ m.rhs.size
        rw [Bool.and_eq_true, hk, decide_eq_true_eq, hl]
        exact ⟨fun ⟨⟨a, b, c⟩, d⟩ => ⟨a, by omega, by omega⟩, fun ⟨a, b, c⟩ => ⟨⟨a, by omega, by omega⟩, by omega⟩⟩
    · refine ⟨hx.upd (fun v hv => ?_), hl, hr, ?_⟩
      · cases hv
        refine ⟨fun h => (by cases h), fun _ i p hp => ?_⟩
        rw [range8 (f := fun j => [Mono.r (S.rp + off + j)]) hp, lane_one]
        dsimp only
        rw [if_pos (range8_lt (f := fun j => [Mono.r (S.rp + off + j)]) hp)]
        simp only [eval, Mono.eval, hO.r, Int.add_zero, hr, pow_one]
        rw [show br + S.rp + off + i = br + (S.rp + off + i) by omega]
        exact kval_modEq F.rhs _
      · show (s.ok && decide (s.rp + off + 8 ≤ m.rhs.size)) = true ↔ k0 = true ∧
          bl + S.hl ≤ m.lhs.size ∧ br + max S.hr (S.rp + off + 8) ≤ m.rhs.size
        rw [Bool.and_eq_true, hk, decide_eq_true_eq, hr]
        exact ⟨fun ⟨⟨a, b, c⟩, d⟩ => ⟨a, by omega, by omega⟩, fun ⟨a, b, c⟩ => ⟨⟨a, by omega, by omega⟩, by omega⟩⟩
  | ldb p off d =>
    cases p
    · refine ⟨hx.upd (fun v hv => ?_), hl, hr, ?_⟩
      · cases hv
        refine ⟨fun h => (by cases h), fun _ i p hp => ?_⟩
        rw [range8 (f := fun j => if j = 0 then [Mono.l (S.lp + off)] else []) hp, lane_one]
        by_cases h0 : i = 0
        · rw [if_pos h0, if_pos h0]
          simp only [eval, Mono.eval, hO.l, Int.add_zero, hl, pow_one]
          rw [show bl + S.lp + off = bl + (S.lp + off) by omega]
          exact kval_modEq F.lhs _
        · rw [if_neg h0, if_neg h0]; rfl
      · show (s.ok && decide (s.lp + off + 1 ≤ m.lhs.size)) = true ↔ k0 = true ∧
          bl + max S.hl (S.lp + off + 1) ≤ m.lhs.size ∧ br + S.hr ≤ m.rhs.size
        rw [Bool.and_eq_true, hk, decide_eq_true_eq, hl]
        exact ⟨fun ⟨⟨a, b, c⟩, d⟩ => ⟨a, by omega, by omega⟩, fun ⟨a, b, c⟩ => ⟨⟨a, by omega, by omega⟩, by omega⟩⟩
    · refine ⟨hx.upd (fun v hv => ?_), hl, hr, ?_⟩
      · cases hv
        refine ⟨fun h => (by cases h), fun _ i p hp => ?_⟩
        rw [range8 (f := fun j => if j = 0 then [Mono.r (S.rp + off)] else []) hp, lane_one]
        by_cases h0 : i = 0
        · rw [if_pos h0, if_pos h0]
          simp only [eval, Mono.eval, hO.r, Int.add_zero, hr, pow_one]
          rw [show br + S.rp + off = br + (S.rp + off) by omega]
          exact kval_modEq F.rhs _
        · rw [if_neg h0, if_neg h0]; rfl
      · show (s.ok && decide (s.rp + off + 1 ≤ m.rhs.size)) = true ↔ k0 = true ∧
          bl + S.hl ≤ m.lhs.size ∧ br + max S.hr (S.rp + off + 1) ≤ m.rhs.size
        rw [Bool.and_eq_true, hk, decide_eq_true_eq, hr]
        exact ⟨fun ⟨⟨a, b, c⟩, d⟩ => ⟨a, by omega, by omega⟩, fun ⟨a, b, c⟩ => ⟨⟨a, by omega, by omega⟩, by omega⟩⟩

theorem sym_sound {R : Rng} {E : Env} (hE : E.In R) {F : KernelFormat} {m : Mem} {bl br : Nat}
    (hO : E.Of F m bl br) {k0 : Bool} : ∀ (l : List Ins) {s : St} {S : SSt}, Agrees m E bl br k0 s S →
    Agrees m E bl br k0 (exec m l s) (sym R l S)
  | [], _, _, h => h
  | i :: l, _, _, h => sym_sound hE hO l (symStep_sound hE hO h i)

end Gemmlowp.Bench
