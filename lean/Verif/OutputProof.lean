import Verif.Output
import Verif.UnpackProof2
import Verif.FixedProof
/-!
# A pipeline acts on every entry separately, and transposes with the matrix
-/
namespace Gemmlowp

open Fx

/-- The value of a successful computation. -/
def okVal {α : Type} [Inhabited α] : M α → α
  | .ok a => a
  | .error _ => default

theorem bind_ok_val {α β : Type} [Inhabited α] {x : M α} {k : α → M β} {y : β}
    (h : (x >>= k) = .ok y) : x = .ok (okVal x) ∧ k (okVal x) = .ok y := by
  cases x with
  | error e => cases h
  | ok a => exact ⟨rfl, h⟩

/-- One entry: what a stage makes of the value `x` at `(r, c)`. -/
def Stage.scalar (m : OvMode) (s : Stage) (r c : Nat) (x : BitVec 32) : M (BitVec 32) :=
  match s with
  | .quantizeDown offset mult shift => quantizeDownReg m offset mult shift x
  | .quantizeDownPC sh offset mult shift => do
    let mu ← (mult.vec sh).read (posOf sh r c)
    let o ← (offset.vec sh).read (posOf sh r c)
    quantizeDownReg m o mu shift x
  | .byFixedPoint mult shift offset => byFixedPointReg m mult shift offset x
  | .byExponent mult exponent offset => do
    let ne ← Fx.neg m exponent
    byExponentReg m (max 0 exponent.toInt) (max 0 ne.toInt) mult offset x
  | .byExponentPC sh mult exponent offset => do
    let e ← (exponent.vec sh).read (posOf sh r c)
    let mu ← (mult.vec sh).read (posOf sh r c)
    let ne ← Fx.neg m e
    byExponentReg m (max32 e 0).toInt (max32 ne 0).toInt mu offset x
  | .bias v => do
    let b ← v.read (posOf v.shape r c)
    Fx.add m x b
  | .clamp lo hi => pure (min32 (max32 x lo) hi)
  | .tanh p => tanhReg m p x

/-- One entry through a list of stages. -/
def scalarStages (m : OvMode) : List Stage → Nat → Nat → BitVec 32 → M (BitVec 32)
  | [], _, _, x => pure x
  | s :: rest, r, c, x => do
    let y ← s.scalar m r c x
    scalarStages m rest r c y

/-- One entry through a pipeline. -/
def Pipeline.scalar (m : OvMode) (p : Pipeline) (r c : Nat) (x : BitVec 32) : M Int := do
  let y ← scalarStages m p.stages r c x
  pure (p.cast.reg y)

theorem RBlock.broadcast_full {α β : Type} {op : α → α → M β} {r : RBlock α} {R C : Nat}
    {f g : Nat → Nat → α} {out : Nat → Nat → β} (hR : 0 < R) (hC : 0 < C) (hr : r.Bc R C g)
    (h1 : ∀ i j, i < R → j < C → op (f i j) (g i j) = .ok (out i j)) :
    RBlock.broadcast op (RBlock.of R C f) r = .ok (RBlock.of R C out) := by
  obtain ⟨br, bc, k, rfl, b1, b2, b3⟩ := hr
  have hbr : br ≤ R := by omega
  have hbc : bc ≤ C := by omega
  have hflip : RBlock.shouldFlip (RBlock.of R C f) (RBlock.of br bc k) = false := by
    unfold RBlock.shouldFlip
    have e1 : (RBlock.of R C f).rows = R := rfl
    have e2 : (RBlock.of R C f).cols = C := rfl
    have e3 : (RBlock.of br bc k).rows = br := rfl
    have e4 : (RBlock.of br bc k).cols = bc := rfl
    rw [e1, e2, e3, e4]
    have := Nat.mul_le_mul hbr hbc
    rw [decide_eq_false (by omega), decide_eq_false (show ¬ R < br by omega)]
    simp
  unfold RBlock.broadcast
  rw [hflip]
  simp only [Bool.false_eq_true, if_false]
  unfold RBlock.broadcastImpl
  have e1 : (RBlock.of R C f).rows = R := rfl
  have e2 : (RBlock.of R C f).cols = C := rfl
  have e3 : (RBlock.of br bc k).rows = br := rfl
  have e4 : (RBlock.of br bc k).cols = bc := rfl
  simp only [e1, e2, e3, e4]
  rw [Nat.max_eq_left hbr, Nat.max_eq_left hbc, decide_eq_true (show R = R ∨ R = 1 by omega),
    decide_eq_true (show C = C ∨ C = 1 by omega), decide_eq_true b1, decide_eq_true b2]
  simp only [assertM_true, ok_bind, if_true]
  apply RBlock.build_ok
  intro i j hi hj
  rw [RBlock.at_of hi hj, ok_bind, RBlock.at_of (by split <;> omega) (by split <;> omega), ok_bind,
    ← b3 i j hi hj]
  exact h1 i j hi hj

/-- Loading a vector for broadcasting gives each entry its own element. -/
theorem loadBc {v : OffsetVec} {R C row col : Nat} {f : Nat → Nat → BitVec 32} (hR : 0 < R)
    (hC : 0 < C)
    (h : ∀ i j, i < R → j < C → v.read (posOf v.shape (row + i) (col + j)) = .ok (f i j)) :
    ∃ b, RBlock.loadForBroadcasting R C v (posOf v.shape row col) = .ok b ∧ b.Bc R C f := by
  cases v with
  | map s d b n =>
    cases s with
    | col =>
      simp only [OffsetVec.shape, posOf, RBlock.loadForBroadcasting] at h ⊢
      refine ⟨_, RBlock.build_ok (g := fun r _ => f r 0) ?_, ?_⟩
      · intro i j hi hj; exact h i 0 hi hC
      · refine ⟨R, 1, _, rfl, Or.inl rfl, Or.inr rfl, ?_⟩
        intro i j hi hj
        have h1 := h i j hi hj
        rw [h i 0 hi hC] at h1
        rw [if_pos rfl]
        exact (Except.ok.inj h1).symm
    | row =>
      simp only [OffsetVec.shape, posOf, RBlock.loadForBroadcasting] at h ⊢
      refine ⟨_, RBlock.build_ok (g := fun _ c => f 0 c) ?_, ?_⟩
      · intro i j hi hj; exact h 0 j hR hj
      · refine ⟨1, C, _, rfl, Or.inr rfl, Or.inl rfl, ?_⟩
        intro i j hi hj
        have h1 := h i j hi hj
        rw [h 0 j hR hj] at h1
        rw [if_pos rfl]
        exact (Except.ok.inj h1).symm
  | dup s x n =>
    simp only [RBlock.loadForBroadcasting]
    refine ⟨_, RBlock.build_ok (g := fun _ _ => x) ?_, ?_⟩
    · intro i j hi hj; rfl
    · refine ⟨1, 1, _, rfl, Or.inr rfl, Or.inr rfl, ?_⟩
      intro i j hi hj
      exact (Except.ok.inj (h i j hi hj)).symm

theorem max32_toInt (a b : BitVec 32) : (max32 a b).toInt = max a.toInt b.toInt := by
  unfold max32
  by_cases h : b.toInt < a.toInt
  · rw [if_pos (by simpa [BitVec.slt] using h)]; omega
  · rw [if_neg (by simpa [BitVec.slt] using h)]; omega

theorem min32_toInt (a b : BitVec 32) : (min32 a b).toInt = min a.toInt b.toInt := by
  unfold min32
  by_cases h : a.toInt < b.toInt
  · rw [if_pos (by simpa [BitVec.slt] using h)]; omega
  · rw [if_neg (by simpa [BitVec.slt] using h)]; omega

theorem stage_eval_ok (m : OvMode) (s : Stage) {R C : Nat} {f g : Nat → Nat → BitVec 32}
    {row col : Nat} (hR : 0 < R) (hC : 0 < C)
    (h : ∀ i j, i < R → j < C → s.scalar m (row + i) (col + j) (f i j) = .ok (g i j)) :
    s.eval m (RBlock.of R C f) row col = .ok (RBlock.of R C g) := by
  have er : (RBlock.of R C f).rows = R := rfl
  have ec : (RBlock.of R C f).cols = C := rfl
  cases s with
  | quantizeDown o mu sh => exact RBlock.mapM'_of h
  | byFixedPoint mu sh o => exact RBlock.mapM'_of h
  | clamp lo hi => exact RBlock.mapM'_of h
  | tanh p => exact RBlock.mapM'_of h
  | byExponent mu e o =>
    simp only [Stage.eval, Stage.scalar] at h ⊢
    have h0 := bind_ok_val (h 0 0 hR hC)
    rw [h0.1, ok_bind]
    apply RBlock.mapM'_of
    intro i j hi hj
    have := h i j hi hj
    rw [h0.1, ok_bind] at this
    exact this
  | bias v =>
    simp only [Stage.eval, Stage.scalar, er, ec] at h ⊢
    obtain ⟨b, e1, e2⟩ := loadBc (v := v) (row := row) (col := col)
      (f := fun i j => okVal (v.read (posOf v.shape (row + i) (col + j)))) hR hC
      (fun i j hi hj => (bind_ok_val (h i j hi hj)).1)
    rw [e1, ok_bind]
    exact RBlock.broadcast_full hR hC e2 (fun i j hi hj => (bind_ok_val (h i j hi hj)).2)
  | quantizeDownPC sh o mu shift =>
    simp only [Stage.eval, Stage.scalar, er, ec, quantizeDownReg] at h ⊢
    have hmu := fun i j hi hj => bind_ok_val (h i j hi hj)
    have ho := fun i j hi hj => bind_ok_val (hmu i j hi hj).2
    have ha := fun i j hi hj => bind_ok_val (ho i j hi hj).2
    have hm := fun i j hi hj => bind_ok_val (ha i j hi hj).2
    obtain ⟨b1, e1, k1⟩ := loadBc (v := mu.vec sh) hR hC (fun i j hi hj => (hmu i j hi hj).1)
    obtain ⟨b2, e2, k2⟩ := loadBc (v := o.vec sh) hR hC (fun i j hi hj => (ho i j hi hj).1)
    have e1' : RBlock.loadForBroadcasting R C (mu.vec sh) (posOf sh row col) = .ok b1 := e1
    have e2' : RBlock.loadForBroadcasting R C (o.vec sh) (posOf sh row col) = .ok b2 := e2
    rw [e1', ok_bind, e2', ok_bind,
      RBlock.broadcast_full hR hC k2 (fun i j hi hj => (ha i j hi hj).1), ok_bind,
      RBlock.broadcast_full hR hC k1 (fun i j hi hj => (hm i j hi hj).1), ok_bind]
    exact RBlock.mapM'_of fun i j hi hj => (hm i j hi hj).2
  | byExponentPC sh mu e o =>
    simp only [Stage.eval, Stage.scalar, er, ec, byExponentReg] at h ⊢
    have he := fun i j hi hj => bind_ok_val (h i j hi hj)
    have hmu := fun i j hi hj => bind_ok_val (he i j hi hj).2
    have hne := fun i j hi hj => bind_ok_val (hmu i j hi hj).2
    have hl := fun i j hi hj => bind_ok_val (hne i j hi hj).2
    have hq := fun i j hi hj => bind_ok_val (hl i j hi hj).2
    obtain ⟨b1, e1, k1⟩ := loadBc (v := e.vec sh) hR hC (fun i j hi hj => (he i j hi hj).1)
    obtain ⟨b2, e2, k2⟩ := loadBc (v := mu.vec sh) hR hC (fun i j hi hj => (hmu i j hi hj).1)
    have e1' : RBlock.loadForBroadcasting R C (e.vec sh) (posOf sh row col) = .ok b1 := e1
    have e2' : RBlock.loadForBroadcasting R C (mu.vec sh) (posOf sh row col) = .ok b2 := e2
    obtain ⟨b3, e3, k3⟩ := k1.map hR hC (op := fun e => (pure (max32 e 0) : M (BitVec 32)))
      (g := fun i j => max32 (okVal ((e.vec sh).read (posOf sh (row + i) (col + j)))) 0)
      (fun i j hi hj => rfl)
    obtain ⟨b4, e4, k4⟩ := k1.map hR hC (op := fun e => (do
        let ne ← Fx.neg m e
        pure (max32 ne 0) : M (BitVec 32)))
      (g := fun i j => max32 (okVal (Fx.neg m
        (okVal ((e.vec sh).read (posOf sh (row + i) (col + j)))))) 0)
      (fun i j hi hj => by
        have q := (hne i j hi hj).1
        show (Fx.neg m (okVal ((e.vec sh).read (posOf sh (row + i) (col + j)))) >>= fun ne =>
          pure (max32 ne 0)) = _
        rw [q, ok_bind]; rfl)
    rw [e1', ok_bind, ok_bind, e2', ok_bind, e3, ok_bind, e4, ok_bind,
      RBlock.broadcast_full hR hC k3 (fun i j hi hj => (hl i j hi hj).1), ok_bind,
      RBlock.broadcast_full (op := fun x y => (.ok (srdhm x y) : M (BitVec 32))) hR hC k2
        (fun i j hi hj => rfl), ok_bind,
      RBlock.broadcast_full hR hC k4 (fun i j hi hj => (hq i j hi hj).1), ok_bind]
    exact RBlock.mapM'_of fun i j hi hj => (hq i j hi hj).2

theorem evalStages_ok (m : OvMode) (l : List Stage) : ∀ {R C : Nat} {f g : Nat → Nat → BitVec 32}
    {row col : Nat}, 0 < R → 0 < C →
    (∀ i j, i < R → j < C → scalarStages m l (row + i) (col + j) (f i j) = .ok (g i j)) →
    evalStages m l (RBlock.of R C f) row col = .ok (RBlock.of R C g) := by
  induction l with
  | nil =>
    intro R C f g row col hR hC h
    simp only [evalStages, scalarStages, pure_ok] at h ⊢
    congr 1
    exact RBlock.of_congr fun i j hi hj => Except.ok.inj (h i j hi hj)
  | cons s l ih =>
    intro R C f g row col hR hC h
    simp only [evalStages, scalarStages] at h ⊢
    have hs := fun i j hi hj => bind_ok_val (h i j hi hj)
    rw [stage_eval_ok m s hR hC (fun i j hi hj => (hs i j hi hj).1), ok_bind]
    exact ih hR hC fun i j hi hj => (hs i j hi hj).2

/-- A pipeline evaluates every entry of a block by itself. -/
theorem pipeline_ok (m : OvMode) (p : Pipeline) : PipeOk (p.eval m) (p.scalar m) := by
  intro R C f g row col hR hC h
  simp only [Pipeline.eval, Pipeline.scalar] at h ⊢
  have hs := fun i j hi hj => bind_ok_val (h i j hi hj)
  rw [evalStages_ok m p.stages hR hC (fun i j hi hj => (hs i j hi hj).1), ok_bind]
  exact RBlock.mapM'_of fun i j hi hj => (hs i j hi hj).2

theorem posOf_transpose (sh : VectorShape) (r c : Nat) : posOf sh.transpose r c = posOf sh c r := by
  cases sh <;> rfl

theorem stage_transpose (m : OvMode) (s : Stage) (r c : Nat) (x : BitVec 32) :
    s.transpose.scalar m r c x = s.scalar m c r x := by
  cases s with
  | bias v =>
    cases v with
    | map sh d b n => simp only [Stage.transpose, Stage.scalar, OffsetVec.transpose, OffsetVec.shape,
        posOf_transpose]; rfl
    | dup sh v n => rfl
  | quantizeDownPC sh o mu s =>
    simp only [Stage.transpose, Stage.scalar, posOf_transpose]; rfl
  | byExponentPC sh mu e o =>
    simp only [Stage.transpose, Stage.scalar, posOf_transpose]; rfl
  | _ => rfl

/-- Transposing a pipeline exchanges the roles of rows and columns. -/
theorem pipeline_transpose (m : OvMode) (p : Pipeline) (r c : Nat) (x : BitVec 32) :
    p.transpose.scalar m r c x = p.scalar m c r x := by
  have key : ∀ (l : List Stage) x, scalarStages m (l.map Stage.transpose) r c x =
      scalarStages m l c r x := by
    intro l
    induction l with
    | nil => intro x; rfl
    | cons s l ih =>
      intro x
      simp only [List.map_cons, scalarStages, stage_transpose]
      cases s.scalar m c r x with
      | error e => rfl
      | ok y => simp only [ok_bind]; exact ih y
  simp only [Pipeline.scalar, Pipeline.transpose, key]

end Gemmlowp
