import Verif.Map
/-!
# internal/simd_wrappers.h: register blocks, scalar code path

A register block is a small column-major matrix.  Only the generic code (one scalar per
register) is modelled here; the NEON/SSE specialisations are not.
-/
namespace Gemmlowp

/-- internal/simd_wrappers.h:61-73 `RegisterBlock<Scalar, rows, cols>` with
`kRegisterLanes == 1`: `rows * cols` scalars. -/
structure RBlock (α : Type) where
  rows : Nat
  cols : Nat
  reg : List α

namespace RBlock

variable {α β : Type}

/-- `blk.buf.reg[i]` -/
def regAt (b : RBlock α) (i : Nat) : M α :=
  match b.reg[i]? with
  | some v => .ok v
  | none => .error .oob

/-- The loop `for c < cols, for r < rows: result.buf.reg[r + c * rows] = f r c`, common to all
functions of internal/simd_wrappers.h that produce a block. -/
def build (rows cols : Nat) (f : Nat → Nat → M α) : M (RBlock α) := do
  let reg ← (List.range (rows * cols)).mapM (fun i => f (i % rows) (i / rows))
  pure { rows, cols, reg }

/-- The block with entries `f r c` (specification only). -/
def of (rows cols : Nat) (f : Nat → Nat → α) : RBlock α :=
  { rows, cols, reg := (List.range (rows * cols)).map (fun i => f (i % rows) (i / rows)) }

/-- internal/simd_wrappers.h:93-99 `ShouldFlipLhsRhs`. -/
def shouldFlip (l r : RBlock α) : Bool :=
  decide (l.rows * l.cols < r.rows * r.cols) ||
    (decide (l.rows * l.cols = r.rows * r.cols) && decide (l.rows < r.rows))

/-- internal/simd_wrappers.h:150-184 `BroadcastAddImpl::Run` and the identical loops of
245-279 etc., with the scalar operation as a parameter.  The `static_assert`s on the shapes
are modelled as assertions. -/
def broadcastImpl (op : α → α → M β) (l r : RBlock α) : M (RBlock β) := do
  let rows := max l.rows r.rows
  let cols := max l.cols r.cols
  assertM (decide (l.rows = rows ∨ l.rows = 1))
  assertM (decide (r.rows = rows ∨ r.rows = 1))
  assertM (decide (l.cols = cols ∨ l.cols = 1))
  assertM (decide (r.cols = cols ∨ r.cols = 1))
  build rows cols (fun i j => do
    let a ← l.regAt ((if l.rows = rows then i else 0) + (if l.cols = cols then j else 0) * l.rows)
    let b ← r.regAt ((if r.rows = rows then i else 0) + (if r.cols = cols then j else 0) * r.rows)
    op a b)

/-- internal/simd_wrappers.h:186-196 `BroadcastAdd` and the other two-operand broadcasts, which
all swap their operands when the right one is larger (101-132 `FlipLhsRhs`). -/
def broadcast (op : α → α → M β) (l r : RBlock α) : M (RBlock β) :=
  if shouldFlip l r then broadcastImpl op r l else broadcastImpl op l r

/-- internal/simd_wrappers.h:388-421 `BroadcastMulAddImpl::Run`; `fma a b c` is
`MulAdd(a, b, &c)`. -/
def broadcastMulAddImpl (fma : α → α → β → M β) (l r : RBlock α) (acc : RBlock β) :
    M (RBlock β) := do
  assertM (decide (l.rows = acc.rows ∨ l.rows = 1))
  assertM (decide (r.rows = acc.rows ∨ r.rows = 1))
  assertM (decide (l.cols = acc.cols ∨ l.cols = 1))
  assertM (decide (r.cols = acc.cols ∨ r.cols = 1))
  build acc.rows acc.cols (fun i j => do
    let a ← l.regAt ((if l.rows = acc.rows then i else 0) + (if l.cols = acc.cols then j else 0) * l.rows)
    let b ← r.regAt ((if r.rows = acc.rows then i else 0) + (if r.cols = acc.cols then j else 0) * r.rows)
    let c ← acc.regAt (i + j * acc.rows)
    fma a b c)

/-- internal/simd_wrappers.h:423-431 `BroadcastMulAdd`. -/
def broadcastMulAdd (fma : α → α → β → M β) (l r : RBlock α) (acc : RBlock β) : M (RBlock β) :=
  if shouldFlip l r then broadcastMulAddImpl fma r l acc else broadcastMulAddImpl fma l r acc

/-- The loop `for i < kRegisterCount: reg[i] = f(reg[i])`. -/
def mapM' (b : RBlock α) (f : α → M β) : M (RBlock β) := do
  let reg ← b.reg.mapM f
  pure { rows := b.rows, cols := b.cols, reg }

/-- internal/simd_wrappers.h:439-455 `Load` from a column-major matrix map. -/
def loadMatrix (rows cols : Nat) (mem : Buf α) (m : MatrixMap) (row col : Nat) : M (RBlock α) :=
  build rows cols (fun r c => mem.read (m.addr row (col + c) + r))

/-- internal/simd_wrappers.h:521-600 `LoadForBroadcasting` of a vector at position `pos`, for a
result block of `rows × cols`: a `VectorMap` of shape `Col` gives a `rows × 1` block, one of
shape `Row` a `1 × cols` block, a `VectorDup` a `1 × 1` block. -/
def loadForBroadcasting (rows cols : Nat) (v : OffsetVec) (pos : Nat) : M (RBlock (BitVec 32)) :=
  match v with
  | .map .col _ _ _ => build rows 1 (fun r _ => v.read (pos + r))
  | .map .row _ _ _ => build 1 cols (fun _ c => v.read (pos + c))
  | .dup _ _ _ => build 1 1 (fun _ _ => v.read 0)

/-! ## Equations on blocks given by their entries -/

theorem mapM_ok {γ δ : Type} {l : List γ} {f : γ → M δ} {g : γ → δ}
    (h : ∀ x, x ∈ l → f x = .ok (g x)) : l.mapM f = .ok (l.map g) := by
  induction l with
  | nil => rfl
  | cons a l ih =>
    rw [List.mapM_cons, h a (by simp), ok_bind, ih (fun x hx => h x (by simp [hx])), ok_bind]
    rfl

theorem ix_lt {n m i : Nat} (hi : i < n * m) : i % n < n ∧ i / n < m := by
  have hn : 0 < n := by
    rcases Nat.eq_zero_or_pos n with h | h
    · subst h; simp at hi
    · exact h
  exact ⟨Nat.mod_lt _ hn, (Nat.div_lt_iff_lt_mul hn).2 (by rwa [Nat.mul_comm] at hi)⟩

theorem build_ok {rows cols : Nat} {f : Nat → Nat → M α} {g : Nat → Nat → α}
    (h : ∀ r c, r < rows → c < cols → f r c = .ok (g r c)) :
    build rows cols f = .ok (of rows cols g) := by
  unfold build
  rw [mapM_ok (g := fun i => g (i % rows) (i / rows))]
  · rfl
  · intro i hi
    have := ix_lt (List.mem_range.1 hi)
    exact h _ _ this.1 this.2

theorem of_congr {rows cols : Nat} {f g : Nat → Nat → α}
    (h : ∀ r c, r < rows → c < cols → f r c = g r c) : of rows cols f = of rows cols g := by
  unfold of
  congr 1
  apply List.map_congr_left
  intro i hi
  have := ix_lt (List.mem_range.1 hi)
  exact h _ _ this.1 this.2

theorem at_of {rows cols : Nat} {f : Nat → Nat → α} {r c : Nat} (hr : r < rows) (hc : c < cols) :
    (of rows cols f).regAt (r + c * rows) = .ok (f r c) := by
  have hlt : r + c * rows < rows * cols := by
    have : (c + 1) * rows ≤ cols * rows := Nat.mul_le_mul_right _ hc
    rw [Nat.add_mul, Nat.mul_comm cols] at this; omega
  have hm : (r + c * rows) % rows = r := by
    rw [Nat.add_mul_mod_self_right]; exact Nat.mod_eq_of_lt hr
  have hd : (r + c * rows) / rows = c := by
    rw [Nat.add_mul_div_right _ _ (by omega), Nat.div_eq_of_lt hr, Nat.zero_add]
  unfold regAt of
  simp only [List.getElem?_map, List.getElem?_range hlt, Option.map_some, hm, hd]

theorem mapM'_of {rows cols : Nat} {f : Nat → Nat → α} {g : α → M β} {h : Nat → Nat → β}
    (hg : ∀ r c, r < rows → c < cols → g (f r c) = .ok (h r c)) :
    (of rows cols f).mapM' g = .ok (of rows cols h) := by
  unfold mapM' of
  dsimp only
  have : (List.map (fun i => f (i % rows) (i / rows)) (List.range (rows * cols))).mapM g =
      .ok ((List.range (rows * cols)).map (fun i => h (i % rows) (i / rows))) := by
    rw [List.mapM_map]
    apply mapM_ok
    intro i hi
    have := ix_lt (List.mem_range.1 hi)
    exact hg _ _ this.1 this.2
  rw [this]; rfl

/-- `b` broadcast to a `rows × cols` result has the entries `f r c`: each dimension of `b` is
either full or 1. -/
def Bc (b : RBlock α) (rows cols : Nat) (f : Nat → Nat → α) : Prop :=
  ∃ (br bc : Nat) (g : Nat → Nat → α), b = of br bc g ∧ (br = rows ∨ br = 1) ∧
    (bc = cols ∨ bc = 1) ∧
    ∀ r c, r < rows → c < cols → f r c = g (if br = rows then r else 0) (if bc = cols then c else 0)

theorem Bc.read {b : RBlock α} {rows cols : Nat} {f : Nat → Nat → α} (h : b.Bc rows cols f)
    {r c : Nat} (hr : r < rows) (hc : c < cols) :
    b.regAt ((if b.rows = rows then r else 0) + (if b.cols = cols then c else 0) * b.rows) =
      .ok (f r c) := by
  obtain ⟨br, bc, g, rfl, h1, h2, h3⟩ := h
  rw [h3 r c hr hc]
  refine at_of ?_ ?_
  · show (if br = rows then r else 0) < br
    split <;> omega
  · show (if bc = cols then c else 0) < bc
    split <;> omega

theorem Bc.rows_or {b : RBlock α} {rows cols : Nat} {f : Nat → Nat → α} (h : b.Bc rows cols f) :
    (b.rows = rows ∨ b.rows = 1) ∧ (b.cols = cols ∨ b.cols = 1) := by
  obtain ⟨br, bc, g, rfl, h1, h2, h3⟩ := h
  exact ⟨h1, h2⟩

theorem Bc.full {rows cols : Nat} (f : Nat → Nat → α) : (of rows cols f).Bc rows cols f :=
  ⟨rows, cols, f, rfl, Or.inl rfl, Or.inl rfl, by intros; simp⟩

theorem Bc.map {b : RBlock α} {rows cols : Nat} {f : Nat → Nat → α} (h : b.Bc rows cols f)
    (hr : 0 < rows) (hc : 0 < cols)
    {op : α → M β} {g : Nat → Nat → β}
    (hop : ∀ r c, r < rows → c < cols → op (f r c) = .ok (g r c)) :
    ∃ b', b.mapM' op = .ok b' ∧ b'.Bc rows cols g := by
  obtain ⟨br, bc, k, rfl, h1, h2, h3⟩ := h
  -- entry (r, c) of the small block is the value at (r, c) of the large one
  have hk : ∀ r c, r < br → c < bc → op (k r c) = .ok (g r c) := by
    intro r c hr' hc'
    have := hop r c (by omega) (by omega)
    rw [h3 r c (by omega) (by omega)] at this
    have e1 : (if br = rows then r else 0) = r := by split <;> omega
    have e2 : (if bc = cols then c else 0) = c := by split <;> omega
    rwa [e1, e2] at this
  refine ⟨of br bc g, mapM'_of hk, br, bc, g, rfl, h1, h2, ?_⟩
  intro r c hr' hc'
  have a1 := hop r c hr' hc'
  rw [h3 r c hr' hc'] at a1
  rw [hk _ _ (by split <;> omega) (by split <;> omega)] at a1
  exact (Except.ok.inj a1).symm

theorem broadcastMulAdd_of {fma : α → α → β → M β} {l r : RBlock α} {rows cols : Nat}
    {f g : Nat → Nat → α} {acc out : Nat → Nat → β}
    (hl : l.Bc rows cols f) (hr : r.Bc rows cols g)
    (h1 : ∀ i j, i < rows → j < cols → fma (f i j) (g i j) (acc i j) = .ok (out i j))
    (h2 : ∀ i j, i < rows → j < cols → fma (g i j) (f i j) (acc i j) = .ok (out i j)) :
    broadcastMulAdd fma l r (of rows cols acc) = .ok (of rows cols out) := by
  have key : ∀ {a b : RBlock α} {p q : Nat → Nat → α}, a.Bc rows cols p → b.Bc rows cols q →
      (∀ i j, i < rows → j < cols → fma (p i j) (q i j) (acc i j) = .ok (out i j)) →
      broadcastMulAddImpl fma a b (of rows cols acc) = .ok (of rows cols out) := by
    intro a b p q ha hb hf
    unfold broadcastMulAddImpl
    have ra := ha.rows_or
    have rb := hb.rows_or
    have q1 : (of rows cols acc).rows = rows := rfl
    have q2 : (of rows cols acc).cols = cols := rfl
    simp only [q1, q2]
    rw [decide_eq_true ra.1, decide_eq_true ra.2, decide_eq_true rb.1, decide_eq_true rb.2]
    simp only [assertM_true, ok_bind]
    apply build_ok
    intro i j hi hj
    rw [ha.read hi hj, ok_bind, hb.read hi hj, ok_bind, at_of hi hj, ok_bind, hf i j hi hj]
  unfold broadcastMulAdd
  split
  · exact key hr hl h2
  · exact key hl hr h1

theorem broadcast_of {op : α → α → M β} {l r : RBlock α} {rows cols : Nat}
    {f g : Nat → Nat → α} {out : Nat → Nat → β} (hrows : 0 < rows) (hcols : 0 < cols)
    (hl : l.Bc rows cols f) (hr : r.Bc rows cols g)
    (h1 : ∀ i j, i < rows → j < cols → op (f i j) (g i j) = .ok (out i j))
    (h2 : ∀ i j, i < rows → j < cols → op (g i j) (f i j) = .ok (out i j)) :
    ∃ b, broadcast op l r = .ok b ∧ b.Bc rows cols out := by
  have key : ∀ {a b : RBlock α} {p q : Nat → Nat → α}, a.Bc rows cols p → b.Bc rows cols q →
      (∀ i j, i < rows → j < cols → op (p i j) (q i j) = .ok (out i j)) →
      ∃ x, broadcastImpl op a b = .ok x ∧ x.Bc rows cols out := by
    intro a b p q ha hb hf
    obtain ⟨ar, ac, ga, rfl, a1, a2, a3⟩ := ha
    obtain ⟨br, bc, gb, rfl, b1, b2, b3⟩ := hb
    have entry : ∀ r c, r < max ar br → c < max ac bc →
        op (ga (if ar = max ar br then r else 0) (if ac = max ac bc then c else 0))
          (gb (if br = max ar br then r else 0) (if bc = max ac bc then c else 0)) =
        .ok (out r c) := by
      intro r c hr hc
      have hr' : r < rows := by omega
      have hc' : c < cols := by omega
      have := hf r c hr' hc'
      rw [a3 r c hr' hc', b3 r c hr' hc'] at this
      have e1 : (if ar = max ar br then r else 0) = (if ar = rows then r else 0) := by
        split <;> split <;> omega
      have e2 : (if ac = max ac bc then c else 0) = (if ac = cols then c else 0) := by
        split <;> split <;> omega
      have e3 : (if br = max ar br then r else 0) = (if br = rows then r else 0) := by
        split <;> split <;> omega
      have e4 : (if bc = max ac bc then c else 0) = (if bc = cols then c else 0) := by
        split <;> split <;> omega
      rw [e1, e2, e3, e4]; exact this
    refine ⟨of (max ar br) (max ac bc) out, ?_, max ar br, max ac bc, out, rfl, by omega,
      by omega, ?_⟩
    · unfold broadcastImpl
      have q1 : (of ar ac ga).rows = ar := rfl
      have q2 : (of ar ac ga).cols = ac := rfl
      have q3 : (of br bc gb).rows = br := rfl
      have q4 : (of br bc gb).cols = bc := rfl
      simp only [q1, q2, q3, q4]
      rw [decide_eq_true (show ar = max ar br ∨ ar = 1 by omega),
        decide_eq_true (show br = max ar br ∨ br = 1 by omega),
        decide_eq_true (show ac = max ac bc ∨ ac = 1 by omega),
        decide_eq_true (show bc = max ac bc ∨ bc = 1 by omega)]
      simp only [assertM_true, ok_bind]
      apply build_ok
      intro i j hi hj
      rw [at_of (by split <;> omega) (by split <;> omega), ok_bind,
        at_of (by split <;> omega) (by split <;> omega), ok_bind, entry i j hi hj]
    · intro r c hr hc
      -- both sides are the value the operation gives at `(r, c)`
      have v1 := hf r c hr hc
      rw [a3 r c hr hc, b3 r c hr hc] at v1
      have v2 := entry (if max ar br = rows then r else 0) (if max ac bc = cols then c else 0)
        (by split <;> omega) (by split <;> omega)
      have e1 : (if ar = max ar br then (if max ar br = rows then r else 0) else 0) =
          (if ar = rows then r else 0) := by (repeat' split) <;> omega
      have e2 : (if ac = max ac bc then (if max ac bc = cols then c else 0) else 0) =
          (if ac = cols then c else 0) := by (repeat' split) <;> omega
      have e3 : (if br = max ar br then (if max ar br = rows then r else 0) else 0) =
          (if br = rows then r else 0) := by (repeat' split) <;> omega
      have e4 : (if bc = max ac bc then (if max ac bc = cols then c else 0) else 0) =
          (if bc = cols then c else 0) := by (repeat' split) <;> omega
      rw [e1, e2, e3, e4, v1] at v2
      exact Except.ok.inj v2
  unfold broadcast
  split
  · exact key hr hl h2
  · exact key hl hr h1

theorem loadMatrix_ok {rows cols : Nat} {mem : Buf α} {m : MatrixMap} {row col : Nat}
    (h : ∀ r c, r < rows → c < cols → m.addr row (col + c) + r < mem.size) :
    loadMatrix rows cols mem m row col =
      .ok (of rows cols fun r c => mem.get (m.addr row (col + c) + r)) :=
  build_ok fun r c hr hc => Buf.read_ok (h r c hr hc)

theorem loadForBroadcasting_col {rows cols : Nat} {v : OffsetVec} {n : Nat} {f : Nat → BitVec 32}
    (h : v.Is .col n f) {pos : Nat} (hp : pos + rows ≤ n) (hr : 0 < rows) :
    ∃ b, loadForBroadcasting rows cols v pos = .ok b ∧
      b.Bc rows cols (fun r _ => f (pos + r)) := by
  obtain ⟨hs, hn, hf⟩ := h
  cases v with
  | map s d b m =>
    simp only [OffsetVec.ShapeOk] at hs; subst hs
    simp only [loadForBroadcasting]
    refine ⟨_, build_ok (g := fun r _ => f (pos + r)) ?_, ?_⟩
    · intro r c hr hc; exact hf _ (by omega)
    · exact ⟨rows, 1, _, rfl, Or.inl rfl, Or.inr rfl, by intros; simp⟩
  | dup s x m =>
    simp only [loadForBroadcasting]
    refine ⟨_, build_ok (g := fun _ _ => x) ?_, ?_⟩
    · intro r c hr hc; rfl
    · refine ⟨1, 1, _, rfl, Or.inr rfl, Or.inr rfl, ?_⟩
      intro r c hr hc
      have := hf (pos + r) (by omega)
      exact (Except.ok.inj this).symm

theorem loadForBroadcasting_row {rows cols : Nat} {v : OffsetVec} {n : Nat} {f : Nat → BitVec 32}
    (h : v.Is .row n f) {pos : Nat} (hp : pos + cols ≤ n) (hc : 0 < cols) :
    ∃ b, loadForBroadcasting rows cols v pos = .ok b ∧
      b.Bc rows cols (fun _ c => f (pos + c)) := by
  obtain ⟨hs, hn, hf⟩ := h
  cases v with
  | map s d b m =>
    simp only [OffsetVec.ShapeOk] at hs; subst hs
    simp only [loadForBroadcasting]
    refine ⟨_, build_ok (g := fun _ c => f (pos + c)) ?_, ?_⟩
    · intro r c hr hc; exact hf _ (by omega)
    · exact ⟨1, cols, _, rfl, Or.inr rfl, Or.inl rfl, by intros; simp⟩
  | dup s x m =>
    simp only [loadForBroadcasting]
    refine ⟨_, build_ok (g := fun _ _ => x) ?_, ?_⟩
    · intro r c hr hc; rfl
    · refine ⟨1, 1, _, rfl, Or.inr rfl, Or.inr rfl, ?_⟩
      intro r c hr hc
      have := hf (pos + c) (by omega)
      exact (Except.ok.inj this).symm

end RBlock
end Gemmlowp
