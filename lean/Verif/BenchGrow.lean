import Verif.BenchProof
/-!
# Loops whose accumulators grow

`Kern.check` wants one range for each accumulator, at every pass.  A kernel with 16-bit accumulators that are added to
32-bit ones only after some passes has none: the range grows from pass to pass.  Here the range may change with every
step.
-/
namespace Gemmlowp.Bench
namespace Kern
variable {K : Kern}

/-- `u` cells are behind, the accumulators in registers are in the ranges `R`, and what will be stored, `f`, is what it
has to be. -/
structure HeadR (K : Kern) (R : Rng) (f : Nat → Poly) (m : Mem) (u : Nat) (s : St) : Prop where
  env : ∃ E : Env, E.In R ∧ E.Of K.F m (u * K.gl) (u * K.gr) ∧ Agrees m E (u * K.gl) (u * K.gr) true s K.T ∧
    ∀ k, k < K.F.kRows * K.F.kCols →
      eval E (f k) = ((m.acc k).toNat : Int) + K.cellsSum m (k % K.F.kRows) (k / K.F.kRows) u

/-- The accumulators get from the ranges `R` into the ranges `R'`. -/
def rangesOk (K : Kern) (R R' : Rng) (S : SSt) : Bool :=
  decide ((R.llo, R.lhi, R.rlo, R.rhi) = (R'.llo, R'.lhi, R'.rlo, R'.rhi)) &&
  K.accs.all (fun a => match R'.v a.d with
    | none => true
    | some r => (List.range (8 / a.n)).all (fun i => match lanePoly S.x a.d a.n i with
      | none => true
      | some p => within R p r.1 r.2))

/-- The accumulators with a range change by `-b` to `b`. -/
def changesOk (K : Kern) (R : Rng) (b : Int) (S : SSt) : Bool :=
  K.accs.all (fun a => match R.v a.d with
    | none => true
    | some _ => (List.range (8 / a.n)).all (fun i => match lanePoly S.x a.d a.n i with
      | none => true
      | some p => decide (p.filter (fun m => !m.noV) = [.v a.d i]) && within R (p.filter Mono.noV) (-b) b))

/-- One step: `c` cells, and what will be stored becomes `before` and the products of these cells. -/
def growOk (K : Kern) (S : SSt) (c : Nat) (f before : Nat → Poly) : Bool :=
  K.moved S c && decide (S.hl ≤ c * K.gl) && decide (S.hr ≤ c * K.gr) &&
  (List.range (K.F.kRows * K.F.kCols)).all (fun k => K.grown S c 0 k (f k) (before k))

theorem next_inR {R R' : Rng} {E : Env} (hE : E.In R) {S : SSt} {c : Nat} (h : K.rangesOk R R' S = true)
    (hz : ∀ d r, R'.v d = some r → r.1 ≤ 0 ∧ 0 ≤ r.2) : (E.next K S.x c).In R' := by
  unfold rangesOk at h
  rw [Bool.and_eq_true, decide_eq_true_eq, List.all_eq_true] at h
  obtain ⟨h1, h2⟩ := h
  simp only [Prod.mk.injEq] at h1
  refine ⟨fun i => by rw [← h1.1, ← h1.2.1]; exact hE.l _, fun i => by rw [← h1.2.2.1, ← h1.2.2.2]; exact hE.r _,
    fun d i r hr => ?_⟩
  show r.1 ≤ lanesOf K E S.x d i ∧ lanesOf K E S.x d i ≤ r.2
  unfold lanesOf
  cases ha : K.acc? d with
  | none => exact hz d r hr
  | some a =>
    obtain ⟨hm, hd⟩ := acc?_mem ha
    dsimp only
    cases hl : lanePoly S.x d a.n i with
    | none => exact hz d r hr
    | some p =>
      dsimp only
      by_cases hi : i < 8 / a.n
      · rw [if_pos hi]
        have h3 := h2 a hm
        rw [hd, hr] at h3
        have h4 := List.all_eq_true.mp h3 i (List.mem_range.2 hi)
        rw [hl] at h4
        exact within_sound hE h4
      · rw [if_neg hi]; exact hz d r hr

theorem next_inC {R R0 R1 : Rng} {b : Int} {E : Env} (hE : E.In R) (hE0 : E.In R0) {S : SSt} {c : Nat}
    (h : K.changesOk R b S = true) (hl : (R.llo, R.lhi, R.rlo, R.rhi) = (R1.llo, R1.lhi, R1.rlo, R1.rhi))
    (hz : ∀ d r, R1.v d = some r → r.1 ≤ 0 ∧ 0 ≤ r.2)
    (hv : ∀ d r, R1.v d = some r → (R.v d).isSome = true ∧ ∃ r0, R0.v d = some r0 ∧ r.1 ≤ r0.1 - b ∧ r0.2 + b ≤ r.2) :
    (E.next K S.x c).In R1 := by
  unfold changesOk at h
  rw [List.all_eq_true] at h
  simp only [Prod.mk.injEq] at hl
  refine ⟨fun i => by rw [← hl.1, ← hl.2.1]; exact hE.l _, fun i => by rw [← hl.2.2.1, ← hl.2.2.2]; exact hE.r _,
    fun d i r hr => ?_⟩
  show r.1 ≤ lanesOf K E S.x d i ∧ lanesOf K E S.x d i ≤ r.2
  unfold lanesOf
  cases ha : K.acc? d with
  | none => exact hz d r hr
  | some a =>
    obtain ⟨hm, hd⟩ := acc?_mem ha
    dsimp only
    cases hl : lanePoly S.x d a.n i with
    | none => exact hz d r hr
    | some p =>
      dsimp only
      by_cases hi : i < 8 / a.n
      · rw [if_pos hi]
        obtain ⟨h1, r0, h2, h3, h4⟩ := hv d r hr
        obtain ⟨r1, h1⟩ := Option.isSome_iff_exists.1 h1
        have h5 := h a hm
        rw [hd, h1] at h5
        have h6 := List.all_eq_true.mp h5 i (List.mem_range.2 hi)
        rw [hl] at h6
        simp only [Bool.and_eq_true, decide_eq_true_eq] at h6
        have h7 := within_sound hE h6.2
        have h8 := hE0.v d i r0 h2
        rw [eval_filter, h6.1]
        have e : eval E [Mono.v d i] = E.v d i := Int.add_zero _
        rw [e]
        omega
      · rw [if_neg hi]; exact hz d r hr

theorem headR_next (hkd : 0 < K.F.kDepth) (hcd : K.F.rhs.cd = K.F.lhs.cd) (hcl : K.cl = 0) (hk : K.keepOk = true)
    {R' : Rng} {m : Mem} {u c : Nat} {s : St} {S : SSt} {E : Env} (hE : (E.next K S.x c).In R')
    (hO : E.Of K.F m (u * K.gl) (u * K.gr)) (hA : Agrees m E (u * K.gl) (u * K.gr) true s S)
    {f before : Nat → Poly} (hg : K.growOk S c f before = true)
    (hl : (u + c) * K.gl ≤ m.lhs.size) (hr : (u + c) * K.gr ≤ m.rhs.size)
    (hv : ∀ k, k < K.F.kRows * K.F.kCols →
      eval E (before k) = ((m.acc k).toNat : Int) + K.cellsSum m (k % K.F.kRows) (k / K.F.kRows) u) :
    HeadR K R' f m (u + c) s := by
  unfold growOk at hg
  simp only [Bool.and_eq_true, decide_eq_true_eq] at hg
  obtain ⟨⟨⟨g1, g2⟩, g3⟩, g5⟩ := hg
  have hM := moved_iff g1
  rw [Nat.add_mul] at hl hr
  have hok := ok_of hA (by omega) (by omega)
  refine ⟨E.next K S.x c, hE, ?_, ?_, fun k hk' => ?_⟩
  · have := Env.next_of hO S.x c
    rw [← Nat.add_mul, ← Nat.add_mul] at this
    exact this
  · have := agrees_next hA hM hk hl hr
    rw [← Nat.add_mul, ← Nat.add_mul, hok] at this
    exact this
  · rw [grown_sound (List.all_eq_true.mp g5 k (List.mem_range.2 hk')), hv k hk', hcl, Nat.zero_add]
    have := cellsSum_prods hkd hcd hO (k % K.F.kRows) (k / K.F.kRows) 0 c (Nat.zero_le _)
    rw [this, Nat.add_zero]
    ring

/-- The first step. -/
theorem headR_init (hkd : 0 < K.F.kDepth) (hcd : K.F.rhs.cd = K.F.lhs.cd) (hcl : K.cl = 0) (hk : K.keepOk = true)
    {R : Rng} (hz : ∀ d r, R.v d = some r → r.1 ≤ 0 ∧ 0 ≤ r.2) {m : Mem}
    (hlr : ∀ i, R.llo ≤ K.F.lhs.kval (m.lhs.get i) ∧ K.F.lhs.kval (m.lhs.get i) ≤ R.lhi)
    (hrr : ∀ i, R.rlo ≤ K.F.rhs.kval (m.rhs.get i) ∧ K.F.rhs.kval (m.rhs.get i) ≤ R.rhi)
    {b : List Ins} {f : Nat → Poly} (hg : K.growOk (sym R b init) 0 f (fun k => [.a k]) = true)
    (hR : K.rangesOk R R (sym R b init) = true) (x : Nat → DReg) :
    HeadR K R f m 0 (exec m b ⟨x, 0, 0, true⟩) := by
  let E : Env := ⟨fun i => K.F.lhs.kval (m.lhs.get i), fun i => K.F.rhs.kval (m.rhs.get i), fun _ _ => 0,
    fun k => ((m.acc k).toNat : Int)⟩
  have hE : E.In R := ⟨hlr, hrr, fun d i r hr => hz d r hr⟩
  have hO : E.Of K.F m (0 * K.gl) (0 * K.gr) := by
    rw [Nat.zero_mul, Nat.zero_mul]
    exact ⟨fun i => by rw [Nat.zero_add], fun i => by rw [Nat.zero_add], fun _ => rfl⟩
  have hA0 : Agrees m E (0 * K.gl) (0 * K.gr) true ⟨x, 0, 0, true⟩ init := by
    rw [Nat.zero_mul, Nat.zero_mul]
    exact ⟨fun d sv h => (by cases h), rfl, rfl, ⟨fun _ => ⟨rfl, Nat.zero_le _, Nat.zero_le _⟩, fun _ => rfl⟩⟩
  refine headR_next hkd hcd hcl hk (next_inR hE hR hz) hO (sym_sound hE hO b hA0) hg (by omega) (by omega) (fun k _ => ?_)
  show ((m.acc k).toNat : Int) + 0 = _ + 0
  rfl

/-- A step to other ranges. -/
theorem headR_step (hkd : 0 < K.F.kDepth) (hcd : K.F.rhs.cd = K.F.lhs.cd) (hcl : K.cl = 0) (hk : K.keepOk = true)
    {R R' : Rng} (hz : ∀ d r, R'.v d = some r → r.1 ≤ 0 ∧ 0 ≤ r.2) {m : Mem} {u c : Nat} {s : St} {b : List Ins}
    {f : Nat → Poly} (hg : K.growOk (sym R b K.T) c f f = true) (hR : K.rangesOk R R' (sym R b K.T) = true)
    (hH : HeadR K R f m u s)
    (hl : (u + c) * K.gl ≤ m.lhs.size) (hr : (u + c) * K.gr ≤ m.rhs.size) : HeadR K R' f m (u + c) (exec m b s) := by
  obtain ⟨E, hE, hO, hA, hv⟩ := hH.env
  exact headR_next hkd hcd hcl hk (next_inR hE hR hz) hO (sym_sound hE hO b hA) hg hl hr hv

/-- A step from the ranges `R0`, which are part of `R`, to ranges `R1` that are wider by `w`. -/
theorem headR_grow (hkd : 0 < K.F.kDepth) (hcd : K.F.rhs.cd = K.F.lhs.cd) (hcl : K.cl = 0) (hk : K.keepOk = true)
    {R R0 R1 : Rng} {w : Int} (hz : ∀ d r, R1.v d = some r → r.1 ≤ 0 ∧ 0 ≤ r.2)
    (hR0 : ∀ E : Env, E.In R0 → E.In R) (hll : (R.llo, R.lhi, R.rlo, R.rhi) = (R1.llo, R1.lhi, R1.rlo, R1.rhi))
    (hv : ∀ d r, R1.v d = some r → (R.v d).isSome = true ∧ ∃ r0, R0.v d = some r0 ∧ r.1 ≤ r0.1 - w ∧ r0.2 + w ≤ r.2)
    {m : Mem} {u c : Nat} {s : St} {b : List Ins}
    {f : Nat → Poly} (hg : K.growOk (sym R b K.T) c f f = true) (hC : K.changesOk R w (sym R b K.T) = true)
    (hH : HeadR K R0 f m u s)
    (hl : (u + c) * K.gl ≤ m.lhs.size) (hr : (u + c) * K.gr ≤ m.rhs.size) : HeadR K R1 f m (u + c) (exec m b s) := by
  obtain ⟨E, hE, hO, hA, he⟩ := hH.env
  exact headR_next hkd hcd hcl hk (next_inC (hR0 E hE) hE hC hll hz hv) hO (sym_sound (hR0 E hE) hO b hA) hg hl hr he

/-- The end. -/
theorem headR_last {R : Rng} {f : Nat → Poly} {m : Mem} {u : Nat} {s : St} {b : List Ins} (hH : HeadR K R f m u s)
    (hl : u * K.gl + (sym R b K.T).hl ≤ m.lhs.size) (hr : u * K.gr + (sym R b K.T).hr ≤ m.rhs.size) {k d i : Nat}
    (hk : k < K.F.kRows * K.F.kCols) (hf : lanePoly (sym R b K.T).x d 4 i = some (f k)) :
    (exec m b s).ok = true ∧ BitVec.ofNat 32 (lane 4 ((exec m b s).x d) i) =
      m.acc k + BitVec.ofInt 32 (K.cellsSum m (k % K.F.kRows) (k / K.F.kRows) u) := by
  obtain ⟨E, hE, hO, hA, hv⟩ := hH.env
  have hA' := sym_sound hE hO b hA
  refine ⟨ok_of hA' hl hr, ?_⟩
  have h4 := lanePoly_sound hA'.x hf
  rw [hv k hk] at h4
  generalize lane 4 ((exec m b s).x d) i = w at *
  generalize K.cellsSum m (k % K.F.kRows) (k / K.F.kRows) u = y at *
  apply BitVec.eq_of_toNat_eq
  have h5 : (w : Int) % 4294967296 = (((m.acc k).toNat : Int) + y) % 4294967296 := h4
  rw [BitVec.toNat_ofNat, BitVec.toNat_add, BitVec.toNat_ofInt]
  omega

end Kern
end Gemmlowp.Bench
