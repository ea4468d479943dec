import Verif.OutStore
import Verif.OutputProof
import Verif.PropsSimd
import Verif.PropsSimdTrans
/-!
# The vector code of unpacking, lane by lane: arithmetic
-/
namespace Gemmlowp.OutSimd

open Isa

/-! ## The result of a scalar operation that does not overflow -/

theorem retW_val {m : OvMode} {w : Nat} {x : Int} {c : BitVec w} (h : retW m w x = .ok c) :
    c = BitVec.ofInt w x := by
  unfold retW at h
  split at h
  · cases h
  · exact (Except.ok.inj h).symm

theorem retW_to_wrap {m : OvMode} {w : Nat} {x : Int} {c : BitVec w} (h : retW m w x = .ok c) :
    retW .wrap w x = .ok c := by
  rw [retW_val h]; exact retW_wrap

theorem ofInt_add' (a b : BitVec 32) : BitVec.ofInt 32 (a.toInt + b.toInt) = a + b := by
  rw [BitVec.ofInt_add, BitVec.ofInt_toInt, BitVec.ofInt_toInt]
theorem ofInt_mul' (a b : BitVec 32) : BitVec.ofInt 32 (a.toInt * b.toInt) = a * b := by
  rw [BitVec.ofInt_mul, BitVec.ofInt_toInt, BitVec.ofInt_toInt]

theorem fxadd_val {m : OvMode} {a b c : BitVec 32} (h : Fx.add m a b = .ok c) : c = a + b := by
  rw [retW_val h, ofInt_add']
theorem fxmul_val {m : OvMode} {a b c : BitVec 32} (h : Fx.mul m a b = .ok c) : c = a * b := by
  rw [retW_val h, ofInt_mul']

theorem ret32_val {m : OvMode} {x : Int} {c : BitVec 32} (h : ret32 m x = .ok c) :
    c = BitVec.ofInt 32 x := by
  unfold ret32 at h
  split at h
  · cases h
  · exact (Except.ok.inj h).symm

theorem add32_val {m : OvMode} {a b c : BitVec 32} (h : add32 m a b = .ok c) : c = a + b := by
  rw [ret32_val h, ofInt_add']
theorem mul32_val {m : OvMode} {a b c : BitVec 32} (h : mul32 m a b = .ok c) : c = a * b := by
  rw [ret32_val h, ofInt_mul']

theorem mulAdd_val {m : OvMode} {a b c d : BitVec 32} (h : UnpackCtx.mulAdd m a b c = .ok d) :
    mul32 m a b = .ok (a * b) ∧ d = c + a * b := by
  unfold UnpackCtx.mulAdd at h
  obtain ⟨h1, h2⟩ := bind_ok_val h
  have e := mul32_val h1
  rw [e] at h1 h2
  exact ⟨h1, add32_val h2⟩

theorem rdpot_to_wrap {m : OvMode} {x y : BitVec 32} {e : Int} (h : Fx.rdpot m x e = .ok y) :
    Fx.rdpot .wrap x e = .ok y := by
  unfold Fx.rdpot at h ⊢
  obtain ⟨h1, h⟩ := bind_ok_val h
  obtain ⟨h2, h⟩ := bind_ok_val h
  dsimp only at h
  obtain ⟨h3, h⟩ := bind_ok_val h
  obtain ⟨h4, h⟩ := bind_ok_val h
  obtain ⟨h5, h⟩ := bind_ok_val h
  rw [h1, ok_bind, h2, ok_bind]; dsimp only
  rw [h3, ok_bind]
  rw [show Fx.add .wrap _ _ = _ from retW_to_wrap h4, ok_bind, h5, ok_bind]
  exact retW_to_wrap h

theorem rdpot_range {m : OvMode} {x y : BitVec 32} {e : Int} (h : Fx.rdpot m x e = .ok y) :
    0 ≤ e ∧ e ≤ 31 := by
  unfold Fx.rdpot at h
  obtain ⟨h1, h⟩ := bind_ok_val h
  obtain ⟨h2, _⟩ := bind_ok_val h
  constructor
  · by_cases hh : e ≥ 0
    · exact hh
    · rw [decide_eq_false hh] at h1; cases h1
  · by_cases hh : e ≤ 31
    · exact hh
    · rw [decide_eq_false hh] at h2; cases h2

/-! ## Contract of the wrapper functions -/

/-- What the wrapper functions do in each lane. -/
structure WrapOk (W : Wrap) : Prop where
  lanes : Spec.Lanes W.O
  dupLane : ∀ a k i, k < 4 → W.dupLane a k i = rd a k
  mulS : ∀ a b i, W.mulS a b i = a i * b
  min : ∀ a b i, W.min a b i = min32 (a i) (b i)
  max : ∀ a b i, W.max a b i = max32 (a i) (b i)
  srdhmS : ∀ a b i, W.srdhmS a b i = W.O.srdhm a (W.O.dup b) i
  mulByLane : ∀ a b k i, k < 4 → W.mulByLane a b k i = a i * rd b k
  mulAddS : ∀ l r acc i, W.mulAddS l r acc i = acc i + l i * r
  mulAddByLane : ∀ l r k acc i, k < 4 → W.mulAddByLane l r k acc i = acc i + l i * rd r k

namespace WrapOk
variable {W : Wrap}

theorem dup (h : WrapOk W) (x i) : W.O.dup x i = x := h.lanes.dup x i
theorem add (h : WrapOk W) (a b i) : W.O.add a b i = a i + b i := fxadd_val (h.lanes.add a b i)
theorem mul (h : WrapOk W) (a b i) : W.O.mul a b i = a i * b i := fxmul_val (h.lanes.mul a b i)
theorem sub (h : WrapOk W) (a b i) : W.O.sub a b i = BitVec.ofInt 32 ((a i).toInt - (b i).toInt) :=
  retW_val (h.lanes.sub a b i)
theorem neg (h : WrapOk W) (a i) : W.O.neg a i = BitVec.ofInt 32 (-(a i).toInt) :=
  retW_val (h.lanes.neg a i)
end WrapOk

theorem neonLane_rd (a : Reg 4 32) {k : Nat} (hk : k < 4) : neonLane a k = rd a k := by
  match k, hk with
  | 0, _ => rfl
  | 1, _ => rfl
  | 2, _ => rfl
  | 3, _ => rfl

theorem sse_wrap : WrapOk sseWrap where
  lanes := Simd.sse_ops32
  dupLane _ _ _ _ := rfl
  mulS _ _ _ := rfl
  min _ _ _ := rfl
  max _ _ _ := rfl
  srdhmS _ _ _ := rfl
  mulByLane _ _ _ _ _ := rfl
  mulAddS _ _ _ _ := rfl
  mulAddByLane _ _ _ _ _ _ := rfl

theorem neon_wrap : WrapOk neonWrap where
  lanes := Simd.neon_ops32
  dupLane a k i hk := neonLane_rd a hk
  mulS _ _ _ := rfl
  min _ _ _ := rfl
  max _ _ _ := rfl
  srdhmS _ _ _ := rfl
  mulByLane a b k i hk := by
    show a i * neonLane b k = _
    rw [neonLane_rd b hk]
  mulAddS _ _ _ _ := rfl
  mulAddByLane l r k acc i hk := by
    show acc i + l i * neonLane r k = _
    rw [neonLane_rd r hk]

theorem msa_wrap : WrapOk msaWrap where
  lanes := Simd.msa_ops32
  dupLane _ _ _ _ := rfl
  mulS _ _ _ := rfl
  min _ _ _ := rfl
  max _ _ _ := rfl
  srdhmS _ _ _ := rfl
  mulByLane _ _ _ _ _ := rfl
  mulAddS _ _ _ _ := rfl
  mulAddByLane _ _ _ _ _ _ := rfl

theorem wrapOk : ∀ A : VArch, WrapOk A.wrap
  | .sse => sse_wrap
  | .neon => neon_wrap
  | .msa => msa_wrap

/-! ## Blocks given by their entries -/

/-- Register `k` of a block of `R` rows with entries `f`. -/
def laneReg (R : Nat) (f : Nat → Nat → BitVec 32) (k : Nat) : Reg 4 32 :=
  fun l => f ((4 * k + l) % R) ((4 * k + l) / R)

/-- The block of `R × C` entries `f`: in vectors if there are at least four, else in scalars. -/
def lanes (R C : Nat) (f : Nat → Nat → BitVec 32) : RBlock IReg where
  rows := R
  cols := C
  reg := if 4 ≤ R * C then (List.range (R * C / 4)).map fun k => .v (laneReg R f k)
    else (List.range (R * C)).map fun i => .s (f (i % R) (i / R))

/-- The shapes of register blocks. -/
def Shape (R C : Nat) : Prop := (R = 8 ∨ R = 4 ∨ R = 1) ∧ (C = 4 ∨ C = 1)

section
variable {R C : Nat} {f g : Nat → Nat → BitVec 32}

theorem lane_lt {k : Nat} (hk : k < R * C / 4) (l : Fin 4) :
    (4 * k + l) % R < R ∧ (4 * k + l) / R < C := by
  refine RBlock.ix_lt ?_
  have := l.isLt
  have := Nat.div_mul_le_self (R * C) 4
  generalize R * C / 4 = n at *
  omega

theorem vec_lanes (h4 : 4 ≤ R * C) {k : Nat} (hk : k < R * C / 4) :
    vec (lanes R C f) k = .ok (laneReg R f k) := by
  unfold vec RBlock.regAt lanes
  simp only [if_pos h4, List.getElem?_map, List.getElem?_range hk, Option.map_some, ok_bind]

theorem rows_lanes : (lanes R C f).rows = R := rfl
theorem cols_lanes : (lanes R C f).cols = C := rfl

theorem sca_lanes : sca (lanes 1 1 f) 0 = .ok (f 0 0) := rfl

theorem lanes_congr (h : ∀ i j, i < R → j < C → f i j = g i j) : lanes R C f = lanes R C g := by
  unfold lanes
  congr 1
  split
  · apply List.map_congr_left
    intro k hk
    congr 1
    funext l
    exact h _ _ (lane_lt (List.mem_range.1 hk) l).1 (lane_lt (List.mem_range.1 hk) l).2
  · apply List.map_congr_left
    intro i hi
    congr 1
    exact h _ _ (RBlock.ix_lt (List.mem_range.1 hi)).1 (RBlock.ix_lt (List.mem_range.1 hi)).2

theorem each_lanes {F : Nat → Reg 4 32 → M (Reg 4 32)} (h4 : 4 ≤ R * C)
    (h : ∀ k, k < R * C / 4 → F k (laneReg R f k) = .ok (laneReg R g k)) :
    each (lanes R C f) F = .ok (lanes R C g) := by
  unfold each
  have hlen : (lanes R C f).reg.length = R * C / 4 := by
    unfold lanes; simp [if_pos h4]
  rw [hlen, RBlock.mapM_ok (g := fun k => IReg.v (laneReg R g k))]
  · unfold lanes; simp only [if_pos h4]; rfl
  · intro k hk
    have hk' := List.mem_range.1 hk
    rw [vec_lanes h4 hk', ok_bind, h k hk', ok_bind]; rfl

/-- The code `fs` on scalars and `fv` on vectors does `S` in every entry. -/
structure Lift (fs : BitVec 32 → M (BitVec 32)) (fv : Reg 4 32 → M (Reg 4 32))
    (S : BitVec 32 → BitVec 32 → Prop) : Prop where
  s : ∀ x y, S x y → fs x = .ok y
  v : ∀ a c : Reg 4 32, (∀ i, S (a i) (c i)) → fv a = .ok c

theorem map_lanes {fs : BitVec 32 → M (BitVec 32)} {fv : Reg 4 32 → M (Reg 4 32)}
    {S : BitVec 32 → BitVec 32 → Prop} (hL : Lift fs fv S)
    (h : ∀ i j, i < R → j < C → S (f i j) (g i j)) :
    (lanes R C f).mapM' (onReg fs fv) = .ok (lanes R C g) := by
  unfold RBlock.mapM' lanes
  by_cases h4 : 4 ≤ R * C
  · simp only [if_pos h4]
    rw [List.mapM_map, RBlock.mapM_ok (g := fun k => IReg.v (laneReg R g k))]
    · rfl
    · intro k hk
      show (fv (laneReg R f k) >>= fun y => pure (IReg.v y)) = _
      rw [hL.v _ (laneReg R g k), ok_bind]
      · rfl
      · intro l
        exact h _ _ (lane_lt (List.mem_range.1 hk) l).1 (lane_lt (List.mem_range.1 hk) l).2
  · simp only [if_neg h4]
    rw [List.mapM_map, RBlock.mapM_ok (g := fun i => IReg.s (g (i % R) (i / R)))]
    · rfl
    · intro k hk
      show (fs (f (k % R) (k / R)) >>= fun y => pure (IReg.s y)) = _
      rw [hL.s _ (g (k % R) (k / R)), ok_bind]
      · rfl
      · exact h _ _ (RBlock.ix_lt (List.mem_range.1 hk)).1 (RBlock.ix_lt (List.mem_range.1 hk)).2

/-- The binary operation `fs` on scalars and `fv` on vectors does `S` in every entry. -/
structure Lift2 (fs : BitVec 32 → BitVec 32 → M (BitVec 32))
    (fv : Reg 4 32 → Reg 4 32 → M (Reg 4 32)) (S : BitVec 32 → BitVec 32 → BitVec 32 → Prop) :
    Prop where
  s : ∀ x y z, S x y z → fs x y = .ok z
  v : ∀ a b c : Reg 4 32, (∀ i, S (a i) (b i) (c i)) → fv a b = .ok c

/-- `b` is the block of a vector for the rows: one column, or one entry for all. -/
def BcCol (b : RBlock IReg) (R : Nat) (g : Nat → BitVec 32) : Prop :=
  b = lanes R 1 (fun i _ => g i) ∨ (b = lanes 1 1 (fun _ _ => g 0) ∧ ∀ i, i < R → g i = g 0)

/-- `b` is the block of a vector for the columns: one row, or one entry for all. -/
def BcRow (b : RBlock IReg) (C : Nat) (g : Nat → BitVec 32) : Prop :=
  b = lanes 1 C (fun _ j => g j) ∨ (b = lanes 1 1 (fun _ _ => g 0) ∧ ∀ j, j < C → g j = g 0)

end

/-! ## Broadcasting operations -/

section
variable {W : Wrap} {fs : BitVec 32 → BitVec 32 → M (BitVec 32)}
  {fv : Reg 4 32 → Reg 4 32 → M (Reg 4 32)} {S : BitVec 32 → BitVec 32 → BitVec 32 → Prop}
  {R C : Nat} {f o : Nat → Nat → BitVec 32} {g : Nat → BitVec 32}

theorem rd_laneReg {k q : Nat} (hk : k < 4) :
    rd (laneReg R f q) k = f ((4 * q + k) % R) ((4 * q + k) / R) := by
  unfold rd; rw [dif_pos hk]; rfl

/-- One register of the result. -/
theorem step2 (hL : Lift2 fs fv S) {k : Nat} (hk : k < R * C / 4) {g : Nat → Nat → BitVec 32} {b : Reg 4 32}
    (hb : ∀ l : Fin 4, b l = g ((4 * k + l) % R) ((4 * k + l) / R))
    (h : ∀ i j, i < R → j < C → S (f i j) (g i j) (o i j)) :
    fv (laneReg R f k) b = .ok (laneReg R o k) := by
  refine hL.v _ _ _ fun l => ?_
  rw [hb l]
  exact h _ _ (lane_lt hk l).1 (lane_lt hk l).2

theorem bcast_col (hW : WrapOk W) (hL : Lift2 fs fv S) (hsh : Shape R C)
    (h : ∀ i j, i < R → j < C → S (f i j) (g i) (o i j)) :
    bcast W fs fv (lanes R C f) (lanes R 1 fun i _ => g i) = .ok (lanes R C o) := by
  obtain ⟨rfl | rfl | rfl, rfl | rfl⟩ := hsh
  · have e : bcast W fs fv (lanes 8 4 f) (lanes 8 1 fun i _ => g i) =
        each (lanes 8 4 f) (fun i a => vec (lanes 8 1 fun i _ => g i) (i % 2) >>= fun b => fv a b) := rfl
    rw [e]
    refine each_lanes (by decide) fun k hk => ?_
    rw [vec_lanes (by decide) (by omega), ok_bind]
    refine step2 hL hk (g := fun i _ => g i) (fun l => ?_) h
    show g _ = g _
    congr 1
    omega
  · have e : bcast W fs fv (lanes 8 1 f) (lanes 8 1 fun i _ => g i) =
        each (lanes 8 1 f) (fun i a => vec (lanes 8 1 fun i _ => g i) i >>= fun b => fv a b) := rfl
    rw [e]
    refine each_lanes (by decide) fun k hk => ?_
    rw [vec_lanes (by decide) hk, ok_bind]
    exact step2 hL hk (g := fun i _ => g i) (fun l => rfl) h
  · have e : bcast W fs fv (lanes 4 4 f) (lanes 4 1 fun i _ => g i) =
        (vec (lanes 4 1 fun i _ => g i) 0 >>= fun b => each (lanes 4 4 f) fun _ a => fv a b) := rfl
    rw [e, vec_lanes (by decide) (by decide), ok_bind]
    refine each_lanes (by decide) fun k hk => ?_
    refine step2 hL hk (g := fun i _ => g i) (fun l => ?_) h
    show g _ = g _
    congr 1
    omega
  · have e : bcast W fs fv (lanes 4 1 f) (lanes 4 1 fun i _ => g i) =
        each (lanes 4 1 f) (fun i a => vec (lanes 4 1 fun i _ => g i) i >>= fun b => fv a b) := rfl
    rw [e]
    refine each_lanes (by decide) fun k hk => ?_
    rw [vec_lanes (by decide) hk, ok_bind]
    exact step2 hL hk (g := fun i _ => g i) (fun l => rfl) h
  · have e : bcast W fs fv (lanes 1 4 f) (lanes 1 1 fun i _ => g i) =
        each (lanes 1 4 f) (fun _ a => fv a (W.O.dup (g 0))) := rfl
    rw [e]
    refine each_lanes (by decide) fun k hk => ?_
    refine step2 hL hk (g := fun i _ => g i) (fun l => ?_) h
    rw [hW.dup, Nat.mod_one]
  · have e : bcast W fs fv (lanes 1 1 f) (lanes 1 1 fun i _ => g i) =
        (fs (f 0 0) (g 0) >>= fun c => pure { rows := 1, cols := 1, reg := [.s c] }) := rfl
    rw [e, hL.s _ _ _ (h 0 0 (by omega) (by omega)), ok_bind]; rfl

theorem bcast_row (hW : WrapOk W) (hL : Lift2 fs fv S) (hsh : Shape R C)
    (h : ∀ i j, i < R → j < C → S (f i j) (g j) (o i j)) :
    bcast W fs fv (lanes R C f) (lanes 1 C fun _ j => g j) = .ok (lanes R C o) := by
  obtain ⟨rfl | rfl | rfl, rfl | rfl⟩ := hsh
  · have e : bcast W fs fv (lanes 8 4 f) (lanes 1 4 fun _ j => g j) =
        (vec (lanes 1 4 fun _ j => g j) 0 >>= fun b => each (lanes 8 4 f)
          fun i a => fv a (W.dupLane b (i / 2))) := rfl
    rw [e, vec_lanes (by decide) (by decide), ok_bind]
    refine each_lanes (by decide) fun k hk => ?_
    refine step2 hL hk (g := fun _ j => g j) (fun l => ?_) h
    rw [hW.dupLane _ _ _ (by omega), rd_laneReg (by omega)]
    congr 1
    omega
  · have e : bcast W fs fv (lanes 8 1 f) (lanes 1 1 fun _ j => g j) =
        each (lanes 8 1 f) (fun _ a => fv a (W.O.dup (g 0))) := rfl
    rw [e]
    refine each_lanes (by decide) fun k hk => ?_
    refine step2 hL hk (g := fun _ j => g j) (fun l => ?_) h
    rw [hW.dup]
    congr 1
    omega
  · have e : bcast W fs fv (lanes 4 4 f) (lanes 1 4 fun _ j => g j) =
        (vec (lanes 1 4 fun _ j => g j) 0 >>= fun b => each (lanes 4 4 f)
          fun i a => fv a (W.dupLane b i)) := rfl
    rw [e, vec_lanes (by decide) (by decide), ok_bind]
    refine each_lanes (by decide) fun k hk => ?_
    refine step2 hL hk (g := fun _ j => g j) (fun l => ?_) h
    rw [hW.dupLane _ _ _ (by omega), rd_laneReg (by omega)]
    congr 1
    omega
  · have e : bcast W fs fv (lanes 4 1 f) (lanes 1 1 fun _ j => g j) =
        each (lanes 4 1 f) (fun _ a => fv a (W.O.dup (g 0))) := rfl
    rw [e]
    refine each_lanes (by decide) fun k hk => ?_
    refine step2 hL hk (g := fun _ j => g j) (fun l => ?_) h
    rw [hW.dup]
    congr 1
    omega
  · have e : bcast W fs fv (lanes 1 4 f) (lanes 1 4 fun _ j => g j) =
        each (lanes 1 4 f) (fun i a => vec (lanes 1 4 fun _ j => g j) i >>= fun b => fv a b) := rfl
    rw [e]
    refine each_lanes (by decide) fun k hk => ?_
    rw [vec_lanes (by decide) hk, ok_bind]
    exact step2 hL hk (g := fun _ j => g j) (fun l => rfl) h
  · have e : bcast W fs fv (lanes 1 1 f) (lanes 1 1 fun _ j => g j) =
        (fs (f 0 0) (g 0) >>= fun c => pure { rows := 1, cols := 1, reg := [.s c] }) := rfl
    rw [e, hL.s _ _ _ (h 0 0 (by omega) (by omega)), ok_bind]; rfl

/-- The same for the multiplication of internal/simd_wrappers_common_neon_sse.h:557-690. -/
theorem bcastMul_col (hW : WrapOk W) {m : OvMode} (hsh : Shape R C)
    (h : ∀ i j, i < R → j < C → Fx.mul m (f i j) (g i) = .ok (o i j)) :
    bcastMul W m (lanes R C f) (lanes R 1 fun i _ => g i) = .ok (lanes R C o) := by
  have hv : ∀ i j, i < R → j < C → o i j = f i j * g i := fun i j hi hj => fxmul_val (h i j hi hj)
  obtain ⟨rfl | rfl | rfl, rfl | rfl⟩ := hsh
  · have e : bcastMul W m (lanes 8 4 f) (lanes 8 1 fun i _ => g i) =
        each (lanes 8 4 f) (fun i a => vec (lanes 8 1 fun i _ => g i) (i % 2) >>= fun b =>
          pure (W.O.mul a b)) := rfl
    rw [e]
    refine each_lanes (by decide) fun k hk => ?_
    rw [vec_lanes (by decide) (by omega), ok_bind, pure_ok]
    congr 1
    funext l
    rw [hW.mul]
    refine Eq.trans ?_ (hv _ _ (lane_lt hk l).1 (lane_lt hk l).2).symm
    show _ * g _ = _ * g _
    congr 2
    omega
  · have e : bcastMul W m (lanes 8 1 f) (lanes 8 1 fun i _ => g i) =
        each (lanes 8 1 f) (fun i a => vec (lanes 8 1 fun i _ => g i) i >>= fun b =>
          pure (W.O.mul a b)) := rfl
    rw [e]
    refine each_lanes (by decide) fun k hk => ?_
    rw [vec_lanes (by decide) hk, ok_bind, pure_ok]
    congr 1
    funext l
    rw [hW.mul]
    exact (hv _ _ (lane_lt hk l).1 (lane_lt hk l).2).symm
  · have e : bcastMul W m (lanes 4 4 f) (lanes 4 1 fun i _ => g i) =
        (vec (lanes 4 1 fun i _ => g i) 0 >>= fun b => each (lanes 4 4 f)
          fun _ a => .ok (W.O.mul a b)) := rfl
    rw [e, vec_lanes (by decide) (by decide), ok_bind]
    refine each_lanes (by decide) fun k hk => ?_
    congr 1
    funext l
    rw [hW.mul]
    refine Eq.trans ?_ (hv _ _ (lane_lt hk l).1 (lane_lt hk l).2).symm
    show _ * g _ = _ * g _
    congr 2
    omega
  · have e : bcastMul W m (lanes 4 1 f) (lanes 4 1 fun i _ => g i) =
        each (lanes 4 1 f) (fun i a => vec (lanes 4 1 fun i _ => g i) i >>= fun b =>
          pure (W.O.mul a b)) := rfl
    rw [e]
    refine each_lanes (by decide) fun k hk => ?_
    rw [vec_lanes (by decide) hk, ok_bind, pure_ok]
    congr 1
    funext l
    rw [hW.mul]
    exact (hv _ _ (lane_lt hk l).1 (lane_lt hk l).2).symm
  · have e : bcastMul W m (lanes 1 4 f) (lanes 1 1 fun i _ => g i) =
        each (lanes 1 4 f) (fun _ a => .ok (W.mulS a (g 0))) := rfl
    rw [e]
    refine each_lanes (by decide) fun k hk => ?_
    congr 1
    funext l
    rw [hW.mulS]
    refine Eq.trans ?_ (hv _ _ (lane_lt hk l).1 (lane_lt hk l).2).symm
    show _ * g _ = _ * g _
    congr 2
    omega
  · have e : bcastMul W m (lanes 1 1 f) (lanes 1 1 fun i _ => g i) =
        (Fx.mul m (f 0 0) (g 0) >>= fun c => pure { rows := 1, cols := 1, reg := [.s c] }) := rfl
    rw [e, h 0 0 (by omega) (by omega), ok_bind]; rfl

theorem bcastMul_row (hW : WrapOk W) {m : OvMode} (hsh : Shape R C)
    (h : ∀ i j, i < R → j < C → Fx.mul m (f i j) (g j) = .ok (o i j)) :
    bcastMul W m (lanes R C f) (lanes 1 C fun _ j => g j) = .ok (lanes R C o) := by
  have hv : ∀ i j, i < R → j < C → o i j = f i j * g j := fun i j hi hj => fxmul_val (h i j hi hj)
  obtain ⟨rfl | rfl | rfl, rfl | rfl⟩ := hsh
  · have e : bcastMul W m (lanes 8 4 f) (lanes 1 4 fun _ j => g j) =
        (vec (lanes 1 4 fun _ j => g j) 0 >>= fun b => each (lanes 8 4 f)
          fun i a => .ok (W.mulByLane a b (i / 2))) := rfl
    rw [e, vec_lanes (by decide) (by decide), ok_bind]
    refine each_lanes (by decide) fun k hk => ?_
    congr 1
    funext l
    rw [hW.mulByLane _ _ _ _ (by omega), rd_laneReg (by omega)]
    refine Eq.trans ?_ (hv _ _ (lane_lt hk l).1 (lane_lt hk l).2).symm
    show _ * g _ = _ * g _
    congr 2
    omega
  · have e : bcastMul W m (lanes 8 1 f) (lanes 1 1 fun _ j => g j) =
        each (lanes 8 1 f) (fun _ a => .ok (W.mulS a (g 0))) := rfl
    rw [e]
    refine each_lanes (by decide) fun k hk => ?_
    congr 1
    funext l
    rw [hW.mulS]
    refine Eq.trans ?_ (hv _ _ (lane_lt hk l).1 (lane_lt hk l).2).symm
    show _ * g _ = _ * g _
    congr 2
    omega
  · have e : bcastMul W m (lanes 4 4 f) (lanes 1 4 fun _ j => g j) =
        (vec (lanes 1 4 fun _ j => g j) 0 >>= fun b => each (lanes 4 4 f)
          fun i a => .ok (W.mulByLane a b i)) := rfl
    rw [e, vec_lanes (by decide) (by decide), ok_bind]
    refine each_lanes (by decide) fun k hk => ?_
    congr 1
    funext l
    rw [hW.mulByLane _ _ _ _ (by omega), rd_laneReg (by omega)]
    refine Eq.trans ?_ (hv _ _ (lane_lt hk l).1 (lane_lt hk l).2).symm
    show _ * g _ = _ * g _
    congr 2
    omega
  · have e : bcastMul W m (lanes 4 1 f) (lanes 1 1 fun _ j => g j) =
        each (lanes 4 1 f) (fun _ a => .ok (W.O.mul a (W.O.dup (g 0)))) := rfl
    rw [e]
    refine each_lanes (by decide) fun k hk => ?_
    congr 1
    funext l
    rw [hW.mul, hW.dup]
    refine Eq.trans ?_ (hv _ _ (lane_lt hk l).1 (lane_lt hk l).2).symm
    show _ * g _ = _ * g _
    congr 2
    omega
  · have e : bcastMul W m (lanes 1 4 f) (lanes 1 4 fun _ j => g j) =
        each (lanes 1 4 f) (fun i a => vec (lanes 1 4 fun _ j => g j) i >>= fun b =>
          pure (W.O.mul a b)) := rfl
    rw [e]
    refine each_lanes (by decide) fun k hk => ?_
    rw [vec_lanes (by decide) hk, ok_bind, pure_ok]
    congr 1
    funext l
    rw [hW.mul]
    exact (hv _ _ (lane_lt hk l).1 (lane_lt hk l).2).symm
  · have e : bcastMul W m (lanes 1 1 f) (lanes 1 1 fun _ j => g j) =
        (Fx.mul m (f 0 0) (g 0) >>= fun c => pure { rows := 1, cols := 1, reg := [.s c] }) := rfl
    rw [e, h 0 0 (by omega) (by omega), ok_bind]; rfl

/-! ## Multiply and accumulate -/

/-- The entries of `acc + l * r`, scalar arithmetic, with the factors in either order. -/
def MulAdds (m : OvMode) (R C : Nat) (gl gr a o : Nat → Nat → BitVec 32) : Prop :=
  ∀ i j, i < R → j < C → UnpackCtx.mulAdd m (gl i j) (gr i j) (a i j) = .ok (o i j) ∧
    UnpackCtx.mulAdd m (gr i j) (gl i j) (a i j) = .ok (o i j)

theorem MulAdds.symm {m : OvMode} {gl gr a o : Nat → Nat → BitVec 32} (h : MulAdds m R C gl gr a o) :
    MulAdds m R C gr gl a o := fun i j hi hj => ⟨(h i j hi hj).2, (h i j hi hj).1⟩

theorem MulAdds.val {m : OvMode} {gl gr a o : Nat → Nat → BitVec 32} (h : MulAdds m R C gl gr a o)
    {i j : Nat} (hi : i < R) (hj : j < C) : o i j = a i j + gl i j * gr i j :=
  (mulAdd_val (h i j hi hj).1).2

/-- One register of the accumulators. -/
theorem MulAdds.reg {m : OvMode} {gl gr a o : Nat → Nat → BitVec 32} (h : MulAdds m R C gl gr a o)
    {k : Nat} (hk : k < R * C / 4) {x : Reg 4 32}
    (hx : ∀ l : Fin 4, x l = a ((4 * k + l) % R) ((4 * k + l) / R) +
      gl ((4 * k + l) % R) ((4 * k + l) / R) * gr ((4 * k + l) % R) ((4 * k + l) / R)) :
    (.ok x : M (Reg 4 32)) = .ok (laneReg R o k) := by
  congr 1
  funext l
  rw [hx l, ← h.val (lane_lt hk l).1 (lane_lt hk l).2]
  rfl

variable {m : OvMode} {gl gr : Nat → BitVec 32} {a : Nat → Nat → BitVec 32}

theorem mulAdd_colrow (hW : WrapOk W) (hsh : Shape R C)
    (h : MulAdds m R C (fun i _ => gl i) (fun _ j => gr j) a o) :
    bcastMulAdd W m (lanes R 1 fun i _ => gl i) (lanes 1 C fun _ j => gr j) (lanes R C a) =
      .ok (lanes R C o) := by
  obtain ⟨rfl | rfl | rfl, rfl | rfl⟩ := hsh
  · have e : bcastMulAdd W m (lanes 8 1 fun i _ => gl i) (lanes 1 4 fun _ j => gr j) (lanes 8 4 a) =
        (vec (lanes 1 4 fun _ j => gr j) 0 >>= fun b => each (lanes 8 4 a) fun k c =>
          vec (lanes 8 1 fun i _ => gl i) (k % ((lanes 8 4 a).rows / 4)) >>= fun x =>
            pure (W.mulAddByLane x b (k / ((lanes 8 4 a).rows / 4)) c)) := rfl
    simp only [rows_lanes, Nat.reduceDiv] at e
    rw [e, vec_lanes (by decide) (by decide), ok_bind]
    refine each_lanes (by decide) fun k hk => ?_
    rw [vec_lanes (by decide) (by omega), ok_bind, pure_ok]
    refine h.reg hk fun l => ?_
    rw [hW.mulAddByLane _ _ _ _ _ (by omega), rd_laneReg (by omega)]
    show _ + gl _ * gr _ = _ + gl _ * gr _
    congr 3 <;> omega
  · have e : bcastMulAdd W m (lanes 8 1 fun i _ => gl i) (lanes 1 1 fun _ j => gr j) (lanes 8 1 a) =
        (each (lanes 8 1 a) fun k c => vec (lanes 8 1 fun i _ => gl i) k >>= fun x =>
          pure (W.mulAddS x (gr 0) c)) := rfl
    rw [e]
    refine each_lanes (by decide) fun k hk => ?_
    rw [vec_lanes (by decide) hk, ok_bind, pure_ok]
    refine h.reg hk fun l => ?_
    rw [hW.mulAddS]
    show _ + gl _ * gr _ = _ + gl _ * gr _
    congr 3; omega
  · have e : bcastMulAdd W m (lanes 4 1 fun i _ => gl i) (lanes 1 4 fun _ j => gr j) (lanes 4 4 a) =
        (vec (lanes 1 4 fun _ j => gr j) 0 >>= fun b => each (lanes 4 4 a) fun k c =>
          vec (lanes 4 1 fun i _ => gl i) (k % ((lanes 4 4 a).rows / 4)) >>= fun x =>
            pure (W.mulAddByLane x b (k / ((lanes 4 4 a).rows / 4)) c)) := rfl
    simp only [rows_lanes, Nat.reduceDiv] at e
    rw [e, vec_lanes (by decide) (by decide), ok_bind]
    refine each_lanes (by decide) fun k hk => ?_
    rw [vec_lanes (by decide) (by omega), ok_bind, pure_ok]
    refine h.reg hk fun l => ?_
    rw [hW.mulAddByLane _ _ _ _ _ (by omega), rd_laneReg (by omega)]
    show _ + gl _ * gr _ = _ + gl _ * gr _
    congr 3 <;> omega
  · have e : bcastMulAdd W m (lanes 4 1 fun i _ => gl i) (lanes 1 1 fun _ j => gr j) (lanes 4 1 a) =
        (each (lanes 4 1 a) fun k c => vec (lanes 4 1 fun i _ => gl i) k >>= fun x =>
          pure (W.mulAddS x (gr 0) c)) := rfl
    rw [e]
    refine each_lanes (by decide) fun k hk => ?_
    rw [vec_lanes (by decide) hk, ok_bind, pure_ok]
    refine h.reg hk fun l => ?_
    rw [hW.mulAddS]
    show _ + gl _ * gr _ = _ + gl _ * gr _
    congr 3; omega
  · have e : bcastMulAdd W m (lanes 1 1 fun i _ => gl i) (lanes 1 4 fun _ j => gr j) (lanes 1 4 a) =
        (each (lanes 1 4 a) fun k c => vec (lanes 1 4 fun _ j => gr j) k >>= fun x =>
          pure (W.mulAddS x (gl 0) c)) := rfl
    rw [e]
    refine each_lanes (by decide) fun k hk => ?_
    rw [vec_lanes (by decide) hk, ok_bind, pure_ok]
    refine h.reg hk fun l => ?_
    rw [hW.mulAddS, BitVec.mul_comm]
    show _ + gl _ * gr _ = _ + gl _ * gr _
    congr 3; omega
  · have e : bcastMulAdd W m (lanes 1 1 fun i _ => gl i) (lanes 1 1 fun _ j => gr j) (lanes 1 1 a) =
        (UnpackCtx.mulAdd m (gl 0) (gr 0) (a 0 0) >>= fun d =>
          pure { rows := 1, cols := 1, reg := [.s d] }) := rfl
    rw [e, (h 0 0 (by omega) (by omega)).1, ok_bind]; rfl

theorem mulAdd_colone (hW : WrapOk W) (hsh : Shape R C) {x : BitVec 32}
    (h : MulAdds m R C (fun i _ => gl i) (fun _ _ => x) a o) :
    bcastMulAdd W m (lanes R 1 fun i _ => gl i) (lanes 1 1 fun _ _ => x) (lanes R C a) =
      .ok (lanes R C o) := by
  rcases hsh with ⟨hR, rfl | rfl⟩
  · rcases hR with rfl | rfl | rfl
    · have e : bcastMulAdd W m (lanes 8 1 fun i _ => gl i) (lanes 1 1 fun _ _ => x) (lanes 8 4 a) =
          (each (lanes 8 4 a) fun k c => vec (lanes 8 1 fun i _ => gl i) (k % ((lanes 8 4 a).rows / 4)) >>= fun y =>
            pure (W.O.add c (W.mulS y x))) := rfl
      simp only [rows_lanes, Nat.reduceDiv] at e
      rw [e]
      refine each_lanes (by decide) fun k hk => ?_
      rw [vec_lanes (by decide) (by omega), ok_bind, pure_ok]
      refine h.reg hk fun l => ?_
      rw [hW.add, hW.mulS]
      show _ + gl _ * x = _ + gl _ * x
      congr 3; omega
    · have e : bcastMulAdd W m (lanes 4 1 fun i _ => gl i) (lanes 1 1 fun _ _ => x) (lanes 4 4 a) =
          (vec (lanes 4 1 fun i _ => gl i) 0 >>= fun y => each (lanes 4 4 a) fun _ c =>
            .ok (W.O.add (W.mulS y x) c)) := rfl
      rw [e, vec_lanes (by decide) (by decide), ok_bind]
      refine each_lanes (by decide) fun k hk => ?_
      refine h.reg hk fun l => ?_
      rw [hW.add, hW.mulS, BitVec.add_comm]
      show _ + gl _ * x = _ + gl _ * x
      congr 3; omega
    · have e : bcastMulAdd W m (lanes 1 1 fun i _ => gl i) (lanes 1 1 fun _ _ => x) (lanes 1 4 a) =
          (mul32 m (gl 0) x >>= fun p => each (lanes 1 4 a) fun _ c => .ok (W.O.add c (W.O.dup p))) := rfl
      rw [e, (mulAdd_val (h 0 0 (by omega) (by omega)).1).1, ok_bind]
      refine each_lanes (by decide) fun k hk => ?_
      refine h.reg hk fun l => ?_
      rw [hW.add, hW.dup]
      show _ + gl _ * x = _ + gl _ * x
      congr 3; omega
  · exact mulAdd_colrow (gr := fun _ => x) hW ⟨hR, Or.inr rfl⟩ h

theorem mulAdd_onerow (hW : WrapOk W) (hsh : Shape R C) {x : BitVec 32}
    (h : MulAdds m R C (fun _ _ => x) (fun _ j => gr j) a o) :
    bcastMulAdd W m (lanes 1 1 fun _ _ => x) (lanes 1 C fun _ j => gr j) (lanes R C a) =
      .ok (lanes R C o) := by
  rcases hsh with ⟨rfl | rfl | rfl, rfl | rfl⟩
  · have e : bcastMulAdd W m (lanes 1 1 fun _ _ => x) (lanes 1 4 fun _ j => gr j) (lanes 8 4 a) =
        (vec (lanes 1 4 fun _ j => gr j) 0 >>= fun y => each (lanes 8 4 a) fun k c =>
          .ok (W.O.add (W.dupLane (W.mulS y x) (k / ((lanes 8 4 a).rows / 4))) c)) := rfl
    simp only [rows_lanes, Nat.reduceDiv] at e
    rw [e, vec_lanes (by decide) (by decide), ok_bind]
    refine each_lanes (by decide) fun k hk => ?_
    refine h.reg hk fun l => ?_
    rw [hW.add, hW.dupLane _ _ _ (by omega), BitVec.add_comm]
    unfold rd
    rw [dif_pos (by omega), hW.mulS, BitVec.mul_comm]
    show _ + x * gr _ = _ + x * gr _
    congr 3
    show (4 * 0 + k / 2) / 1 = _
    omega
  · have e : bcastMulAdd W m (lanes 1 1 fun _ _ => x) (lanes 1 1 fun _ j => gr j) (lanes 8 1 a) =
        (mul32 m x (gr 0) >>= fun p => each (lanes 8 1 a) fun _ c => .ok (W.O.add c (W.O.dup p))) := rfl
    rw [e, (mulAdd_val (h 0 0 (by omega) (by omega)).1).1, ok_bind]
    refine each_lanes (by decide) fun k hk => ?_
    refine h.reg hk fun l => ?_
    rw [hW.add, hW.dup]
    show _ + x * gr _ = _ + x * gr _
    congr 3; omega
  · have e : bcastMulAdd W m (lanes 1 1 fun _ _ => x) (lanes 1 4 fun _ j => gr j) (lanes 4 4 a) =
        (vec (lanes 1 4 fun _ j => gr j) 0 >>= fun y => each (lanes 4 4 a) fun k c =>
          .ok (W.O.add (W.dupLane (W.mulS y x) (k / ((lanes 4 4 a).rows / 4))) c)) := rfl
    simp only [rows_lanes, Nat.reduceDiv] at e
    rw [e, vec_lanes (by decide) (by decide), ok_bind]
    refine each_lanes (by decide) fun k hk => ?_
    refine h.reg hk fun l => ?_
    rw [hW.add, hW.dupLane _ _ _ (by omega), BitVec.add_comm]
    unfold rd
    rw [dif_pos (by omega), hW.mulS, BitVec.mul_comm]
    show _ + x * gr _ = _ + x * gr _
    congr 3
    show (4 * 0 + k / 1) / 1 = _
    omega
  · have e : bcastMulAdd W m (lanes 1 1 fun _ _ => x) (lanes 1 1 fun _ j => gr j) (lanes 4 1 a) =
        (mul32 m x (gr 0) >>= fun p => each (lanes 4 1 a) fun _ c => .ok (W.O.add c (W.O.dup p))) := rfl
    rw [e, (mulAdd_val (h 0 0 (by omega) (by omega)).1).1, ok_bind]
    refine each_lanes (by decide) fun k hk => ?_
    refine h.reg hk fun l => ?_
    rw [hW.add, hW.dup]
    show _ + x * gr _ = _ + x * gr _
    congr 3; omega
  · exact mulAdd_colrow (R := 1) (gl := fun _ => x) hW ⟨by omega, by omega⟩ h
  · exact mulAdd_colrow (R := 1) (gl := fun _ => x) hW ⟨by omega, by omega⟩ h

theorem mulAdd_oneone (hW : WrapOk W) (hsh : Shape R C) {x y : BitVec 32}
    (h : MulAdds m R C (fun _ _ => x) (fun _ _ => y) a o) :
    bcastMulAdd W m (lanes 1 1 fun _ _ => x) (lanes 1 1 fun _ _ => y) (lanes R C a) =
      .ok (lanes R C o) := by
  have key : ¬ (R = 1 ∧ C = 1) → 4 ≤ R * C → bcastMulAdd W m (lanes 1 1 fun _ _ => x)
      (lanes 1 1 fun _ _ => y) (lanes R C a) = .ok (lanes R C o) := by
    intro h1 h4
    have hRC : 0 < R ∧ 0 < C := by
      obtain ⟨hR, hC⟩ := hsh
      omega
    have e : bcastMulAdd W m (lanes 1 1 fun _ _ => x) (lanes 1 1 fun _ _ => y) (lanes R C a) =
        (mul32 m x y >>= fun p => each (lanes R C a) fun _ c => .ok (W.O.add c (W.O.dup p))) := by
      unfold bcastMulAdd
      rw [show RBlock.shouldFlip (lanes 1 1 _) (lanes 1 1 _) = false from rfl, if_neg (by decide)]
      unfold bcastMulAddImpl
      dsimp only
      rw [if_pos (show shapes _ _ = ((1, 1), (1, 1)) from rfl),
        if_neg (show ¬ ((lanes R C a).rows = 1 ∧ (lanes R C a).cols = 1) from h1)]
      rfl
    rw [e, (mulAdd_val (h 0 0 hRC.1 hRC.2).1).1, ok_bind]
    refine each_lanes h4 fun k hk => ?_
    refine h.reg hk fun l => ?_
    rw [hW.add, hW.dup]; rfl
  rcases hsh with ⟨rfl | rfl | rfl, rfl | rfl⟩
  · exact key (by decide) (by decide)
  · exact key (by decide) (by decide)
  · exact key (by decide) (by decide)
  · exact key (by decide) (by decide)
  · exact key (by decide) (by decide)
  · exact mulAdd_colrow (R := 1) (C := 1) (gl := fun _ => x) (gr := fun _ => y) hW ⟨by omega, by omega⟩ h

/-- The order of the factors does not matter. -/
theorem mulAdd_flip {l r acc : RBlock IReg} (h1 : RBlock.shouldFlip l r = true)
    (h2 : RBlock.shouldFlip r l = false) : bcastMulAdd W m l r acc = bcastMulAdd W m r l acc := by
  unfold bcastMulAdd
  rw [h1, h2, if_pos rfl, if_neg (by decide)]

/-- `acc += l * r`, with `l` for the rows and `r` for the columns. -/
theorem mulAdd_ok (hW : WrapOk W) (hsh : Shape R C) {l r : RBlock IReg} (hl : BcCol l R gl)
    (hr : BcRow r C gr) (h : MulAdds m R C (fun i _ => gl i) (fun _ j => gr j) a o) :
    bcastMulAdd W m l r (lanes R C a) = .ok (lanes R C o) ∧
    bcastMulAdd W m r l (lanes R C a) = .ok (lanes R C o) := by
  have h1 : ∀ {x : BitVec 32}, (∀ j, j < C → gr j = x) →
      MulAdds m R C (fun i _ => gl i) (fun _ _ => x) a o := fun hx i j hi hj => by
    have := h i j hi hj
    dsimp only at this ⊢
    rwa [hx j hj] at this
  have h2 : ∀ {x : BitVec 32}, (∀ i, i < R → gl i = x) →
      MulAdds m R C (fun _ _ => x) (fun _ j => gr j) a o := fun hx i j hi hj => by
    have := h i j hi hj
    dsimp only at this ⊢
    rwa [hx i hi] at this
  have h3 : ∀ {x y : BitVec 32}, (∀ i, i < R → gl i = x) → (∀ j, j < C → gr j = y) →
      MulAdds m R C (fun _ _ => x) (fun _ _ => y) a o := fun hx hy i j hi hj => by
    have := h i j hi hj
    dsimp only at this ⊢
    rwa [hx i hi, hy j hj] at this
  rcases hl with rfl | ⟨rfl, hl⟩ <;> rcases hr with rfl | ⟨rfl, hr⟩
  · refine ⟨mulAdd_colrow hW hsh h, ?_⟩
    rcases hsh with ⟨rfl | rfl | rfl, rfl | rfl⟩
    · rw [mulAdd_flip rfl rfl]; exact mulAdd_colrow hW ⟨by omega, by omega⟩ h
    · rw [mulAdd_flip rfl rfl]; exact mulAdd_colrow hW ⟨by omega, by omega⟩ h
    · rw [mulAdd_flip rfl rfl]; exact mulAdd_colrow hW ⟨by omega, by omega⟩ h
    · rw [mulAdd_flip rfl rfl]; exact mulAdd_colrow hW ⟨by omega, by omega⟩ h
    · rw [← mulAdd_flip rfl rfl]; exact mulAdd_colrow hW ⟨by omega, by omega⟩ h
    · exact mulAdd_oneone hW ⟨by omega, by omega⟩ (x := gr 0) (y := gl 0) (h3 (fun i hi => by
        rw [show i = 0 by omega]) (fun i hi => by rw [show i = 0 by omega])).symm
  · refine ⟨mulAdd_colone hW hsh (h1 hr), ?_⟩
    have hsh' := hsh
    rcases hsh with ⟨rfl | rfl | rfl, hC⟩
    · rw [mulAdd_flip rfl rfl]; exact mulAdd_colone hW hsh' (h1 hr)
    · rw [mulAdd_flip rfl rfl]; exact mulAdd_colone hW hsh' (h1 hr)
    · exact mulAdd_oneone hW hsh' (x := gr 0) (y := gl 0) (h3 (fun i hi => by
        rw [show i = 0 by omega]) hr).symm
  · refine ⟨mulAdd_onerow hW hsh (h2 hl), ?_⟩
    have hsh' := hsh
    rcases hsh with ⟨hR, rfl | rfl⟩
    · rw [← mulAdd_flip rfl rfl]; exact mulAdd_onerow hW hsh' (h2 hl)
    · exact mulAdd_oneone hW hsh' (x := gr 0) (y := gl 0) (h3 hl (fun i hi => by
        rw [show i = 0 by omega])).symm
  · exact ⟨mulAdd_oneone hW hsh (h3 hl hr), mulAdd_oneone hW hsh (h3 hl hr).symm⟩

end

/-! ## Loading -/

theorem load4_ok {read : Nat → M (BitVec 32)} {a : Nat} {v : Reg 4 32}
    (h : ∀ l : Fin 4, read (a + l) = .ok (v l)) : load4 read a = .ok v := by
  unfold load4
  have h0 := h 0
  rw [show read a = .ok (v 0) from h0, ok_bind, show read (a + 1) = .ok (v 1) from h 1, ok_bind,
    show read (a + 2) = .ok (v 2) from h 2, ok_bind, show read (a + 3) = .ok (v 3) from h 3, ok_bind, pure_ok]
  congr 1
  funext l
  match l with
  | 0 => rfl
  | 1 => rfl
  | 2 => rfl
  | 3 => rfl

theorem loadRegs_ok {read : Nat → M (BitVec 32)} {n : Nat} {A : Nat → Nat} {v : Nat → Reg 4 32}
    (h : ∀ k, k < n → ∀ l : Fin 4, read (A k + l) = .ok (v k l)) :
    loadRegs read ((List.range n).map A) = .ok ((List.range n).map fun k => .v (v k)) := by
  unfold loadRegs
  rw [List.mapM_map, RBlock.mapM_ok (g := fun k => IReg.v (v k))]
  intro k hk
  show (load4 read (A k) >>= fun x => pure (IReg.v x)) = _
  rw [load4_ok (h k (List.mem_range.1 hk)), ok_bind]; rfl

theorem loadMatrix_ok {R C : Nat} (hsh : Shape R C) {mem : Buf (BitVec 32)} {m : MatrixMap}
    {row col : Nat} {f : Nat → Nat → BitVec 32} (ho : m.order = .colMajor)
    (h : ∀ i j, i < R → j < C → mem.read (m.addr (row + i) (col + j)) = .ok (f i j)) :
    loadMatrix R C mem m row col = .ok (lanes R C f) := by
  have hadd : ∀ i j l, m.addr i j + l = m.addr (i + l) j := by
    intro i j l
    simp only [MatrixMap.addr, MatrixMap.rowsStride, MatrixMap.colsStride, ho]
    omega
  rcases hsh with ⟨rfl | rfl | rfl, hC⟩
  · unfold loadMatrix
    rw [if_neg (by decide), if_pos rfl]
    have e : 8 * C / 4 = 2 * C := by omega
    rw [loadRegs_ok (v := laneReg 8 f), ok_bind, pure_ok]
    · unfold lanes; rw [if_pos (by omega), e]
    · intro k hk l
      rw [hadd, show row + 4 * (k % 2) + (l : Nat) = row + (4 * k + l) % 8 by omega,
        show k / 2 = (4 * k + l) / 8 by omega]
      exact h _ _ (by omega) (by omega)
  · unfold loadMatrix
    rw [if_pos rfl]
    have e : 4 * C / 4 = C := by omega
    rw [loadRegs_ok (v := laneReg 4 f), ok_bind, pure_ok]
    · unfold lanes; rw [if_pos (by omega), e]
    · intro k hk l
      rw [hadd]
      have := h ((4 * k + l) % 4) ((4 * k + l) / 4) (by omega) (by omega)
      rw [show row + (l : Nat) = row + (4 * k + l) % 4 by omega]
      show mem.read (m.addr _ (col + k)) = _
      rw [show col + k = col + (4 * k + l) / 4 by omega]
      exact this
  · rcases hC with rfl | rfl
    · unfold loadMatrix
      rw [if_neg (by decide), if_neg (by decide), if_pos (by decide)]
      have h' := fun j hj => h 0 j (by omega) hj
      simp only [Nat.add_zero] at h'
      rw [h' 0 (by omega), ok_bind, h' 1 (by omega), ok_bind, h' 2 (by omega), ok_bind,
        h' 3 (by omega), ok_bind, pure_ok]
      unfold lanes
      rw [if_pos (by decide)]
      show _ = Except.ok (RBlock.mk 1 4 [IReg.v _])
      congr 4
      funext l
      match l with
      | 0 => rfl
      | 1 => rfl
      | 2 => rfl
      | 3 => rfl
    · unfold loadMatrix
      rw [if_neg (by decide), if_neg (by decide), if_neg (by decide), if_pos (by decide)]
      have h' := h 0 0 (by omega) (by omega)
      simp only [Nat.add_zero] at h'
      rw [h', ok_bind, pure_ok]; rfl

theorem loadCol_ok {R C : Nat} (hR : R = 8 ∨ R = 4 ∨ R = 1) {d : Nat → Option (BitVec 32)} {b n pos : Nat}
    {g : Nat → BitVec 32}
    (h : ∀ i, i < R → (OffsetVec.map .col d b n).read (pos + i) = .ok (g i)) :
    loadForBroadcasting R C (.map .col d b n) pos = .ok (lanes R 1 fun i _ => g i) := by
  rcases hR with rfl | rfl | rfl
  · show (loadRegs (OffsetVec.map .col d b n).read ((List.range 2).map fun k => pos + 4 * k) >>= fun reg =>
      pure ({ rows := 8, cols := 1, reg } : RBlock IReg)) = _
    rw [loadRegs_ok (v := laneReg 8 fun i _ => g i), ok_bind, pure_ok]
    · rfl
    · intro k hk l
      rw [Nat.add_assoc]
      show _ = Except.ok (g _)
      rw [show (4 * k + (l : Nat)) % 8 = 4 * k + l by omega]
      exact h _ (by omega)
  · show (loadRegs (OffsetVec.map .col d b n).read ((List.range 1).map fun k => pos + 4 * k) >>= fun reg =>
      pure ({ rows := 4, cols := 1, reg } : RBlock IReg)) = _
    rw [loadRegs_ok (v := laneReg 4 fun i _ => g i), ok_bind, pure_ok]
    · rfl
    · intro k hk l
      rw [Nat.add_assoc]
      show _ = Except.ok (g _)
      rw [show (4 * k + (l : Nat)) % 4 = 4 * k + l by omega]
      exact h _ (by omega)
  · show ((OffsetVec.map .col d b n).read pos >>= fun x =>
      pure ({ rows := 1, cols := 1, reg := [.s x] } : RBlock IReg)) = _
    have := h 0 (by omega)
    rw [Nat.add_zero] at this
    rw [this, ok_bind, pure_ok]; rfl

theorem loadRow_ok {R C : Nat} (hC : C = 4 ∨ C = 1) {d : Nat → Option (BitVec 32)} {b n pos : Nat}
    {g : Nat → BitVec 32}
    (h : ∀ j, j < C → (OffsetVec.map .row d b n).read (pos + j) = .ok (g j)) :
    loadForBroadcasting R C (.map .row d b n) pos = .ok (lanes 1 C fun _ j => g j) := by
  rcases hC with rfl | rfl
  · show (loadRegs (OffsetVec.map .row d b n).read ((List.range 1).map fun k => pos + 4 * k) >>= fun reg =>
      pure ({ rows := 1, cols := 4, reg } : RBlock IReg)) = _
    rw [loadRegs_ok (v := laneReg 1 fun _ j => g j), ok_bind, pure_ok]
    · rfl
    · intro k hk l
      rw [Nat.add_assoc]
      show _ = Except.ok (g _)
      rw [show (4 * k + (l : Nat)) / 1 = 4 * k + l by omega]
      exact h _ (by omega)
  · show ((OffsetVec.map .row d b n).read pos >>= fun x =>
      pure ({ rows := 1, cols := 1, reg := [.s x] } : RBlock IReg)) = _
    have := h 0 (by omega)
    rw [Nat.add_zero] at this
    rw [this, ok_bind, pure_ok]; rfl

theorem loadCol_is {R C : Nat} (hR : R = 8 ∨ R = 4 ∨ R = 1) {v : OffsetVec} {n : Nat} {f : Nat → BitVec 32}
    (h : v.Is .col n f) {pos : Nat} (hp : pos + R ≤ n) :
    ∃ b, loadForBroadcasting R C v pos = .ok b ∧ BcCol b R (fun i => f (pos + i)) := by
  obtain ⟨hs, hn, hf⟩ := h
  cases v with
  | map s d b m =>
    simp only [OffsetVec.ShapeOk] at hs; subst hs
    exact ⟨_, loadCol_ok hR fun i hi => hf _ (by omega), Or.inl rfl⟩
  | dup s x m =>
    have hx : ∀ i, i < R → x = f (pos + i) := fun i hi => Except.ok.inj (hf (pos + i) (by omega))
    refine ⟨lanes 1 1 fun _ _ => x, rfl, Or.inr ⟨?_, fun i hi => ?_⟩⟩
    · rw [hx 0 (by omega)]
    · show f (pos + i) = f (pos + 0)
      rw [← hx i hi, ← hx 0 (by omega)]

theorem loadRow_is {R C : Nat} (hC : C = 4 ∨ C = 1) {v : OffsetVec} {n : Nat} {f : Nat → BitVec 32}
    (h : v.Is .row n f) {pos : Nat} (hp : pos + C ≤ n) :
    ∃ b, loadForBroadcasting R C v pos = .ok b ∧ BcRow b C (fun j => f (pos + j)) := by
  obtain ⟨hs, hn, hf⟩ := h
  cases v with
  | map s d b m =>
    simp only [OffsetVec.ShapeOk] at hs; subst hs
    exact ⟨_, loadRow_ok hC fun i hi => hf _ (by omega), Or.inl rfl⟩
  | dup s x m =>
    have hx : ∀ i, i < C → x = f (pos + i) := fun i hi => Except.ok.inj (hf (pos + i) (by omega))
    refine ⟨lanes 1 1 fun _ _ => x, rfl, Or.inr ⟨?_, fun i hi => ?_⟩⟩
    · rw [hx 0 (by omega)]
    · show f (pos + i) = f (pos + 0)
      rw [← hx i hi, ← hx 0 (by omega)]

/-! ## The corrected accumulators -/

theorem BcCol.map {b : RBlock IReg} {R : Nat} {g o : Nat → BitVec 32} (hR : 0 < R) (hb : BcCol b R g)
    {fs : BitVec 32 → M (BitVec 32)} {fv : Reg 4 32 → M (Reg 4 32)} {S : BitVec 32 → BitVec 32 → Prop}
    (hL : Lift fs fv S) (h : ∀ i, i < R → S (g i) (o i)) (hf : ∀ i, i < R → g i = g 0 → o i = o 0) :
    ∃ b', b.mapM' (onReg fs fv) = .ok b' ∧ BcCol b' R o := by
  rcases hb with rfl | ⟨rfl, hc⟩
  · exact ⟨_, map_lanes hL (g := fun i _ => o i) fun i j hi hj => h i hi, Or.inl rfl⟩
  · exact ⟨_, map_lanes hL (g := fun _ _ => o 0) fun i j hi hj => h 0 hR,
      Or.inr ⟨rfl, fun i hi => hf i hi (hc i hi)⟩⟩

theorem BcRow.map {b : RBlock IReg} {C : Nat} {g o : Nat → BitVec 32} (hC : 0 < C) (hb : BcRow b C g)
    {fs : BitVec 32 → M (BitVec 32)} {fv : Reg 4 32 → M (Reg 4 32)} {S : BitVec 32 → BitVec 32 → Prop}
    (hL : Lift fs fv S) (h : ∀ i, i < C → S (g i) (o i)) (hf : ∀ i, i < C → g i = g 0 → o i = o 0) :
    ∃ b', b.mapM' (onReg fs fv) = .ok b' ∧ BcRow b' C o := by
  rcases hb with rfl | ⟨rfl, hc⟩
  · exact ⟨_, map_lanes hL (g := fun _ i => o i) fun i j hi hj => h j hj, Or.inl rfl⟩
  · exact ⟨_, map_lanes hL (g := fun _ _ => o 0) fun i j hi hj => h 0 hC,
      Or.inr ⟨rfl, fun i hi => hf i hi (hc i hi)⟩⟩

section
variable {W : Wrap} {m : OvMode}

theorem lift_add32 (hW : WrapOk W) (c : BitVec 32) :
    Lift (fun v => add32 m v c) (fun v => .ok (W.O.add v (W.O.dup c)))
      (fun x y => add32 m x c = .ok y) where
  s x y h := h
  v a c' h := by
    congr 1
    funext l
    rw [hW.add, hW.dup, add32_val (h l)]

theorem lift_mulS (hW : WrapOk W) (c : BitVec 32) :
    Lift (fun v => mul32 m v c) (fun v => .ok (W.mulS v c)) (fun x y => mul32 m x c = .ok y) where
  s x y h := h
  v a c' h := by
    congr 1
    funext l
    rw [hW.mulS, mul32_val (h l)]

theorem lift2_add32 (hW : WrapOk W) :
    Lift2 (add32 m) (fun a b => .ok (W.O.add a b)) (fun x y z => add32 m x y = .ok z) where
  s x y z h := h
  v a b c h := by
    congr 1
    funext l
    rw [hW.add, add32_val (h l)]

theorem addConstant_col (hW : WrapOk W) {R : Nat} (hR : 0 < R) {z : Nat} {b : RBlock IReg} {f : Nat → Int}
    (hb : BcCol b R fun i => BitVec.ofInt 32 (f i)) (hz : InI32 (z : Int))
    (h : m = .trap → ∀ i, i < R → InI32 (f i) ∧ InI32 (f i + z)) :
    ∃ b', addConstant W m z b = .ok b' ∧ BcCol b' R fun i => BitVec.ofInt 32 (f i + z) := by
  unfold addConstant
  by_cases h0 : (z : Int) = 0
  · rw [if_pos h0, h0]
    exact ⟨b, rfl, by simpa using hb⟩
  · rw [if_neg h0]
    refine hb.map hR (lift_add32 hW _) (fun i hi => add32_ofInt fun hm => ⟨(h hm i hi).1, hz, (h hm i hi).2⟩) ?_
    intro i hi he
    rw [BitVec.ofInt_add, he, ← BitVec.ofInt_add]

theorem addConstant_row (hW : WrapOk W) {C : Nat} (hC : 0 < C) {z : Nat} {b : RBlock IReg} {f : Nat → Int}
    (hb : BcRow b C fun i => BitVec.ofInt 32 (f i)) (hz : InI32 (z : Int))
    (h : m = .trap → ∀ i, i < C → InI32 (f i) ∧ InI32 (f i + z)) :
    ∃ b', addConstant W m z b = .ok b' ∧ BcRow b' C fun i => BitVec.ofInt 32 (f i + z) := by
  unfold addConstant
  by_cases h0 : (z : Int) = 0
  · rw [if_pos h0, h0]
    exact ⟨b, rfl, by simpa using hb⟩
  · rw [if_neg h0]
    refine hb.map hC (lift_add32 hW _) (fun i hi => add32_ofInt fun hm => ⟨(h hm i hi).1, hz, (h hm i hi).2⟩) ?_
    intro i hi he
    rw [BitVec.ofInt_add, he, ← BitVec.ofInt_add]

/-- The sum of two vectors for the columns. -/
theorem addRow_ok (hW : WrapOk W) {C : Nat} (hC : C = 4 ∨ C = 1) {l r : RBlock IReg} {p q o : Nat → BitVec 32}
    (hl : BcRow l C p) (hr : BcRow r C q)
    (h1 : ∀ j, j < C → add32 m (p j) (q j) = .ok (o j))
    (h2 : ∀ j, j < C → add32 m (q j) (p j) = .ok (o j)) :
    ∃ b, bcast W (add32 m) (fun a b => .ok (W.O.add a b)) l r = .ok b ∧ BcRow b C o := by
  have hL := lift2_add32 (m := m) hW
  have hsh : Shape 1 C := ⟨by omega, hC⟩
  rcases hl with rfl | ⟨rfl, hl⟩ <;> rcases hr with rfl | ⟨rfl, hr⟩
  · exact ⟨_, bcast_row hW hL hsh (o := fun _ j => o j) fun i j hi hj => h1 j hj, Or.inl rfl⟩
  · refine ⟨_, bcast_col hW hL hsh (g := fun _ => q 0) (o := fun _ j => o j) fun i j hi hj => ?_, Or.inl rfl⟩
    rw [← hr j hj]; exact h1 j hj
  · rcases hC with rfl | rfl
    · refine ⟨lanes 1 4 fun _ j => o j, ?_, Or.inl rfl⟩
      have e : bcast W (add32 m) (fun a b => .ok (W.O.add a b)) (lanes 1 1 fun _ _ => p 0)
          (lanes 1 4 fun _ j => q j) = bcast W (add32 m) (fun a b => .ok (W.O.add a b))
          (lanes 1 4 fun _ j => q j) (lanes 1 1 fun _ _ => p 0) := by
        unfold bcast
        rw [show RBlock.shouldFlip (lanes 1 1 _) (lanes 1 4 _) = true from rfl, if_pos rfl,
          show RBlock.shouldFlip (lanes 1 4 _) (lanes 1 1 _) = false from rfl, if_neg (by decide)]
      rw [e]
      refine bcast_col hW hL hsh (g := fun _ => p 0) (o := fun _ j => o j) fun i j hi hj => ?_
      rw [← hl j hj]; exact h2 j hj
    · exact ⟨_, bcast_col hW hL hsh (f := fun _ _ => p 0) (g := fun _ => q 0) (o := fun _ j => o j)
        fun i j hi hj => by rw [show j = 0 by omega]; exact h1 0 (by omega), Or.inl rfl⟩
  · have hC' : 0 < C := by omega
    refine ⟨_, bcast_col hW hL (R := 1) (C := 1) ⟨by omega, by omega⟩ (f := fun _ _ => p 0)
      (g := fun _ => q 0) (o := fun _ _ => o 0) fun i j hi hj => h1 0 hC', Or.inr ⟨rfl, fun j hj => ?_⟩⟩
    rw [add32_val (h1 j hj), add32_val (h1 0 hC'), hl j hj, hr j hj]

theorem accBlock_ok (hW : WrapOk W) {x : UnpackCtx} {rows cols : Nat} {A : Nat → Nat → Int}
    {SL SR LO RO : Nat → Int} (h : x.Holds rows cols A SL SR LO RO) {R C r c : Nat} (hsh : Shape R C)
    (hr : r + R ≤ rows) (hc : c + C ≤ cols) :
    accBlock W x R C r c = .ok (lanes R C fun i j => BitVec.ofInt 32
      (corrected x.depth (A (r + i) (c + j)) (SL (r + i)) (SR (c + j)) (LO (r + i) + x.k.lhs.zp)
        (RO (c + j) + x.k.rhs.zp))) := by
  have hR0 : 0 < R := by rcases hsh.1 with h | h | h <;> omega
  have hC0 : 0 < C := by rcases hsh.2 with h | h <;> omega
  unfold accBlock
  have hload : loadMatrix R C x.src x.srcMap r c =
      .ok (lanes R C fun i j => BitVec.ofInt 32 (A (r + i) (c + j))) := by
    refine loadMatrix_ok hsh h.order fun i j hi hj => ?_
    have := h.src (r + i) (c + j) (by omega) (by omega)
    rw [Buf.read_ok this.1, this.2]
  obtain ⟨bls, e1, b1⟩ := loadCol_is (C := C) hsh.1 h.lsum hr
  obtain ⟨brs, e2, b2⟩ := loadRow_is (R := R) hsh.2 h.rsum hc
  obtain ⟨blo, e3, b3⟩ := loadCol_is (C := C) hsh.1 h.loff hr
  obtain ⟨bro, e4, b4⟩ := loadRow_is (R := R) hsh.2 h.roff hc
  have fits : x.mode = .trap → ∀ i j, i < R → j < C → _ := fun hm i j hi hj =>
    h.fits hm (r + i) (c + j) (by omega) (by omega)
  obtain ⟨blo', e5, b5⟩ := addConstant_col hW (m := x.mode) hR0 (z := x.k.lhs.zp)
    (f := fun i => LO (r + i)) b3 (UnpackCtx.inI32_zp _)
    (fun hm i hi => ⟨(fits hm i 0 hi hC0).hlo0, (fits hm i 0 hi hC0).hlo⟩)
  obtain ⟨bro', e6, b6⟩ := addConstant_row hW (m := x.mode) hC0 (z := x.k.rhs.zp)
    (f := fun j => RO (c + j)) b4 (UnpackCtx.inI32_zp _)
    (fun hm j hj => ⟨(fits hm 0 j hR0 hj).hro0, (fits hm 0 j hR0 hj).hro⟩)
  have e7 := (mulAdd_ok (m := x.mode) hW hsh b1 b6
    (a := fun i j => BitVec.ofInt 32 (A (r + i) (c + j)))
    (o := fun i j => BitVec.ofInt 32 (A (r + i) (c + j) + SL (r + i) * (RO (c + j) + x.k.rhs.zp)))
    (fun i j hi hj => ⟨UnpackCtx.mulAdd_ofInt fun hm => by
      have q := fits hm i j hi hj
      exact ⟨q.hsl, q.hro, q.p1, q.ha, q.s1⟩, by
        dsimp only
        rw [Int.mul_comm (SL (r + i))]
        exact UnpackCtx.mulAdd_ofInt fun hm => by
          have q := fits hm i j hi hj
          exact ⟨q.hro, q.hsl, by rw [Int.mul_comm]; exact q.p1, q.ha, by rw [Int.mul_comm]; exact q.s1⟩⟩)).1
  obtain ⟨bro'', e8, b8⟩ := b6.map hC0 (lift_mulS (m := x.mode) hW (BitVec.ofInt 32 x.depth))
    (o := fun j => BitVec.ofInt 32 ((RO (c + j) + x.k.rhs.zp) * x.depth))
    (fun j hj => mul32_ofInt fun hm => by
      have q := fits hm 0 j hR0 hj
      exact ⟨q.hro, q.d, q.p2⟩)
    (fun j hj he => by rw [BitVec.ofInt_mul, he, ← BitVec.ofInt_mul])
  obtain ⟨bs, e9, b9⟩ := addRow_ok (m := x.mode) hW hsh.2 b2 b8
    (o := fun j => BitVec.ofInt 32 (SR (c + j) + (RO (c + j) + x.k.rhs.zp) * x.depth))
    (fun j hj => add32_ofInt fun hm => by
      have q := fits hm 0 j hR0 hj
      exact ⟨q.hsr, q.p2, q.s2⟩)
    (fun j hj => by
      rw [Int.add_comm (SR (c + j))]
      exact add32_ofInt fun hm => by
        have q := fits hm 0 j hR0 hj
        exact ⟨q.p2, q.hsr, by rw [Int.add_comm]; exact q.s2⟩)
  have e10 := (mulAdd_ok (m := x.mode) hW hsh b5 b9
    (a := fun i j => BitVec.ofInt 32 (A (r + i) (c + j) + SL (r + i) * (RO (c + j) + x.k.rhs.zp)))
    (o := fun i j => BitVec.ofInt 32 (corrected x.depth (A (r + i) (c + j)) (SL (r + i))
      (SR (c + j)) (LO (r + i) + x.k.lhs.zp) (RO (c + j) + x.k.rhs.zp)))
    (fun i j hi hj => ⟨by
      unfold corrected
      dsimp only
      rw [Int.mul_comm (SR (c + j) + _)]
      exact UnpackCtx.mulAdd_ofInt fun hm => by
        have q := fits hm i j hi hj
        exact ⟨q.hlo, q.s2, by rw [Int.mul_comm]; exact q.p3, q.s1, by
          rw [Int.mul_comm (LO _ + _)]; exact q.out⟩, by
      unfold corrected
      exact UnpackCtx.mulAdd_ofInt fun hm => by
        have q := fits hm i j hi hj
        exact ⟨q.s2, q.hlo, q.p3, q.s1, q.out⟩⟩)).2
  rw [hload, ok_bind, e1, ok_bind, e2, ok_bind, e3, ok_bind, e4, ok_bind, e5, ok_bind, e6, ok_bind,
    e7, ok_bind, e8, ok_bind, e9, ok_bind, e10]

end

end Gemmlowp.OutSimd
