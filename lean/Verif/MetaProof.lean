import Verif.Meta
import Mathlib.Tactic.Ring

/-!
# What the executors of meta/single_thread_gemm.h do, given what the generated code does
-/

namespace Gemmlowp
namespace Meta

/-- From one lane of an operand to the next in memory. -/
def StreamParams.laneStep (p : StreamParams) : Nat :=
  match p.kind with
  | .rowMajor | .rowMajorWithSum => p.stride
  | .columnMajorWithSum => 1

/-- What the memory contents mean: `L s addr lanes src` says that at `addr` the scratch memory holds the
packed form of `lanes` lanes of the left operand, the first one at `src`; `R` likewise for the right operand.
`readL` and `readR` say that a lane at some place can be read.  `val l r` is the entry of the result that the
lanes at `l` and `r` give. -/
structure Contract (σ β : Type) where
  L : σ → Nat → Nat → Nat → Prop
  R : σ → Nat → Nat → Nat → Prop
  readL : Nat → Prop
  readR : Nat → Prop
  val : Nat → Nat → β

/-- Two regions do not overlap. -/
def Apart (a n b m : Nat) : Prop := a + n ≤ b ∨ b + m ≤ a

/-- An entry of a block of the result. -/
def Entry {β : Type} (val : Nat → Nat → β) (res rowStep colStep ls rs lstep rstep rows cols : Nat)
    (x : Nat × β) : Prop :=
  ∃ a b, a < rows ∧ b < cols ∧
    x = (res + a * rowStep + b * colStep, val (ls + a * lstep) (rs + b * rstep))

/-- The generated code does what it is there for, for the streams of `p` and scratch memory from `base` to
`cap`: packing writes the packed form to the region of that size at the destination and leaves the rest of
the scratch memory alone; a multiplication stores the entries of its block. -/
structure MetaOps.Meets {σ β : Type} (ops : MetaOps σ β) (c : Contract σ β) (left right out : StreamParams)
    (outSize : Nat) (t : Tile) (base cap : Nat) : Prop where
  packLeft : ∀ lanes src dst s, 0 < lanes → lanes ≤ t.m →
    (∀ i, i < lanes → c.readL (src + i * left.laneStep)) →
    (∃ q, dst = base + 32 * q) → dst + left.packedStride 1 lanes t.k ≤ cap →
    ∃ s', ops.packLeft lanes t.kLeft src dst s = .ok s' ∧ c.L s' dst lanes src ∧
      (∀ a n x, Apart dst (left.packedStride 1 lanes t.k) a (left.packedStride 1 n t.k) →
        c.L s a n x → c.L s' a n x) ∧
      (∀ a n x, Apart dst (left.packedStride 1 lanes t.k) a (right.packedStride 1 n t.k) →
        c.R s a n x → c.R s' a n x)
  packRight : ∀ lanes src dst s, 0 < lanes → lanes ≤ t.n →
    (∀ i, i < lanes → c.readR (src + i * right.laneStep)) →
    (∃ q, dst = base + 32 * q) → dst + right.packedStride 1 lanes t.k ≤ cap →
    ∃ s', ops.packRight lanes t.kLeft src dst s = .ok s' ∧ c.R s' dst lanes src ∧
      (∀ a n x, Apart dst (right.packedStride 1 lanes t.k) a (left.packedStride 1 n t.k) →
        c.L s a n x → c.L s' a n x) ∧
      (∀ a n x, Apart dst (right.packedStride 1 lanes t.k) a (right.packedStride 1 n t.k) →
        c.R s a n x → c.R s' a n x)
  mul : ∀ mm nn pl pr res ls rs s, 0 < mm → mm ≤ t.m → 0 < nn → nn ≤ t.n →
    c.L s pl mm ls → c.R s pr nn rs →
    ∃ l, ops.mul mm nn pl pr res s = .ok l ∧
      ∀ x, x ∈ l ↔ Entry c.val res out.stride outSize ls rs left.laneStep right.laneStep mm nn x

/-! ## Sizes -/

theorem alignTo_dvd (a v : Nat) : ∃ q, alignTo a v = a * q :=
  ⟨(v + a - 1) / a, by unfold alignTo; rw [Nat.mul_comm]⟩

theorem alignTo_mono (a : Nat) {v w : Nat} (h : v ≤ w) : alignTo a v ≤ alignTo a w := by
  unfold alignTo
  exact Nat.mul_le_mul_right _ (Nat.div_le_div_right (by omega))

theorem le_alignTo {a : Nat} (ha : 0 < a) (v : Nat) : v ≤ alignTo a v := by
  unfold alignTo
  have := Nat.div_add_mod (v + a - 1) a
  have := Nat.mod_lt (v + a - 1) ha
  rw [Nat.mul_comm]; omega

theorem packedStride_dvd (p : StreamParams) (z lanes pack : Nat) : ∃ q, p.packedStride z lanes pack = 32 * q := by
  unfold StreamParams.packedStride
  split
  · exact alignTo_dvd _ _
  · obtain ⟨q, hq⟩ := alignTo_dvd 32 (z * lanes * alignTo pack p.count)
    exact ⟨1 + q, by omega⟩
  · obtain ⟨q, hq⟩ := alignTo_dvd 32 (z * lanes * alignTo pack p.count)
    exact ⟨1 + q, by omega⟩

theorem packedStride_mono (p : StreamParams) (z pack : Nat) {l l' : Nat} (h : l ≤ l') :
    p.packedStride z l pack ≤ p.packedStride z l' pack := by
  unfold StreamParams.packedStride
  split
  · exact alignTo_mono _ (Nat.mul_le_mul_right _ h)
  · exact Nat.add_le_add_left (alignTo_mono _ (Nat.mul_le_mul_right _ (Nat.mul_le_mul_left _ h))) _
  · exact Nat.add_le_add_left (alignTo_mono _ (Nat.mul_le_mul_right _ (Nat.mul_le_mul_left _ h))) _

theorem unpackedStride_eq (p : StreamParams) (lanes : Nat) : p.unpackedStride 1 lanes = lanes * p.laneStep := by
  unfold StreamParams.unpackedStride StreamParams.laneStep
  split <;> rename_i h <;> simp [h]

/-! ## Blocks of entries -/

section
variable {β : Type} {val : Nat → Nat → β} {res rowStep colStep ls rs lstep rstep rows cols : Nat} {x : Nat × β}

theorem entry_rows_zero : ¬ Entry val res rowStep colStep ls rs lstep rstep 0 cols x := by
  rintro ⟨a, b, ha, -, -⟩; omega

theorem entry_cols_zero : ¬ Entry val res rowStep colStep ls rs lstep rstep rows 0 x := by
  rintro ⟨a, b, -, hb, -⟩; omega

/-- Blocks side by side. -/
theorem entry_cols (N q r : Nat) (hN : 0 < N) :
    ((∃ j, j < q ∧ Entry val (res + j * (N * colStep)) rowStep colStep ls (rs + j * (N * rstep)) lstep rstep rows N x) ∨
      Entry val (res + q * (N * colStep)) rowStep colStep ls (rs + q * (N * rstep)) lstep rstep rows r x) ↔
    Entry val res rowStep colStep ls rs lstep rstep rows (q * N + r) x := by
  have e1 : ∀ j a b, res + j * (N * colStep) + a * rowStep + b * colStep = res + a * rowStep + (j * N + b) * colStep := by
    intro j a b; ring
  have e2 : ∀ j b, rs + j * (N * rstep) + b * rstep = rs + (j * N + b) * rstep := by intro j b; ring
  constructor
  · rintro (⟨j, hj, a, b, ha, hb, rfl⟩ | ⟨a, b, ha, hb, rfl⟩)
    · refine ⟨a, j * N + b, ha, ?_, by rw [e1, e2]⟩
      have : (j + 1) * N ≤ q * N := Nat.mul_le_mul_right _ hj
      rw [Nat.add_mul] at this; omega
    · exact ⟨a, q * N + b, ha, by omega, by rw [e1, e2]⟩
  · rintro ⟨a, b, ha, hb, rfl⟩
    by_cases h : b < q * N
    · refine .inl ⟨b / N, (Nat.div_lt_iff_lt_mul hN).2 h, a, b % N, ha, Nat.mod_lt _ hN, ?_⟩
      rw [e1, e2, Nat.mul_comm (b / N) N, Nat.div_add_mod]
    · refine .inr ⟨a, b - q * N, ha, by omega, ?_⟩
      rw [e1, e2, show q * N + (b - q * N) = b by omega]

/-- Blocks below each other. -/
theorem entry_rows (N q r : Nat) (hN : 0 < N) :
    ((∃ j, j < q ∧ Entry val (res + j * (N * rowStep)) rowStep colStep (ls + j * (N * lstep)) rs lstep rstep N cols x) ∨
      Entry val (res + q * (N * rowStep)) rowStep colStep (ls + q * (N * lstep)) rs lstep rstep r cols x) ↔
    Entry val res rowStep colStep ls rs lstep rstep (q * N + r) cols x := by
  have e1 : ∀ j a b, res + j * (N * rowStep) + a * rowStep + b * colStep = res + (j * N + a) * rowStep + b * colStep := by
    intro j a b; ring
  have e2 : ∀ j b, ls + j * (N * lstep) + b * lstep = ls + (j * N + b) * lstep := by intro j b; ring
  constructor
  · rintro (⟨j, hj, a, b, ha, hb, rfl⟩ | ⟨a, b, ha, hb, rfl⟩)
    · refine ⟨j * N + a, b, ?_, hb, by rw [e1, e2]⟩
      have : (j + 1) * N ≤ q * N := Nat.mul_le_mul_right _ hj
      rw [Nat.add_mul] at this; omega
    · exact ⟨q * N + a, b, by omega, hb, by rw [e1, e2]⟩
  · rintro ⟨a, b, ha, hb, rfl⟩
    by_cases h : a < q * N
    · refine .inl ⟨a / N, (Nat.div_lt_iff_lt_mul hN).2 h, a % N, b, Nat.mod_lt _ hN, hb, ?_⟩
      rw [e1, e2, Nat.mul_comm (a / N) N, Nat.div_add_mod]
    · refine .inr ⟨a - q * N, b, by omega, hb, ?_⟩
      rw [e1, e2, show q * N + (a - q * N) = a by omega]

end

/-! ## The loops -/

/-- The products of one strip. -/
theorem strip_spec {σ β : Type} {mulF mulL : Nat → Nat → σ → M (List (Nat × β))}
    {chunks chunkSize resSize packed res : Nat} {s : σ} {F : Nat → Nat × β → Prop} {G : Nat × β → Prop}
    (hF : ∀ i, i < chunks → ∃ l, mulF (packed + i * chunkSize) (res + i * resSize) s = .ok l ∧ ∀ x, x ∈ l ↔ F i x)
    (hG : ∃ l, mulL (packed + chunks * chunkSize) (res + chunks * resSize) s = .ok l ∧ ∀ x, x ∈ l ↔ G x) :
    ∃ l, strip mulF mulL chunks chunkSize resSize packed res s = .ok l ∧
      ∀ x, x ∈ l ↔ (∃ i, i < chunks ∧ F i x) ∨ G x := by
  obtain ⟨r, hr, h1, h2, h3⟩ := forLoop_inv1 (hi := chunks)
    (f := fun _ (st : Nat × Nat × List (Nat × β)) => do
      let t ← mulF st.1 st.2.1 s
      pure (st.1 + chunkSize, st.2.1 + resSize, st.2.2 ++ t)) (s := (packed, res, []))
    (fun i st => st.1 = packed + i * chunkSize ∧ st.2.1 = res + i * resSize ∧
      ∀ x, x ∈ st.2.2 ↔ ∃ j, j < i ∧ F j x)
    ⟨by simp, by simp, by simp⟩
    (by
      rintro i ⟨a, b, l⟩ hi ⟨h1, h2, h3⟩
      simp only at h1 h2 h3
      obtain ⟨t, ht, hx⟩ := hF i hi
      subst h1 h2
      refine ⟨_, by simp only [ht, ok_bind]; rfl, by simp only; ring, by simp only; ring, ?_⟩
      intro x
      simp only [List.mem_append, h3, hx]
      constructor
      · rintro (⟨j, hj, h⟩ | h)
        · exact ⟨j, by omega, h⟩
        · exact ⟨i, by omega, h⟩
      · rintro ⟨j, hj, h⟩
        by_cases e : j = i
        · subst e; exact .inr h
        · exact .inl ⟨j, by omega, h⟩)
  obtain ⟨l, hl, hx⟩ := hG
  refine ⟨r.2.2 ++ l, ?_, ?_⟩
  · unfold strip
    rw [hr, ok_bind, h1, h2, hl]; rfl
  · intro x; rw [List.mem_append, h3, hx]

/-- Packing a whole side.  `P s' i` says that chunk `i` is in place. -/
theorem packSide_spec {σ : Type} {packF packL : Nat → Nat → σ → M σ}
    {chunks chunkSize packedSize src dst : Nat} {s : σ} (P : σ → Nat → Prop) (Q : σ → Prop)
    (hF : ∀ i s, i < chunks → ∃ s', packF (src + i * chunkSize) (dst + i * packedSize) s = .ok s' ∧
      P s' i ∧ ∀ j, j < i → P s j → P s' j)
    (hL : ∀ s, ∃ s', packL (src + chunks * chunkSize) (dst + chunks * packedSize) s = .ok s' ∧
      Q s' ∧ ∀ j, j < chunks → P s j → P s' j) :
    ∃ s', packSide packF packL chunks chunkSize packedSize src dst s = .ok s' ∧ Q s' ∧
      ∀ j, j < chunks → P s' j := by
  obtain ⟨r, hr, h1, h2, h3⟩ := forLoop_inv1 (hi := chunks)
    (f := fun _ (st : Nat × Nat × σ) => do
      let s' ← packF st.1 st.2.1 st.2.2
      pure (st.1 + chunkSize, st.2.1 + packedSize, s')) (s := (src, dst, s))
    (fun i st => st.1 = src + i * chunkSize ∧ st.2.1 = dst + i * packedSize ∧ ∀ j, j < i → P st.2.2 j)
    ⟨by simp, by simp, by simp⟩
    (by
      rintro i ⟨a, b, s⟩ hi ⟨h1, h2, h3⟩
      simp only at h1 h2 h3
      obtain ⟨s', hs', hp, hq⟩ := hF i s hi
      subst h1 h2
      refine ⟨_, by simp only [hs', ok_bind]; rfl, by simp only; ring, by simp only; ring, ?_⟩
      intro j hj
      by_cases e : j = i
      · subst e; exact hp
      · exact hq j (by omega) (h3 j (by omega)))
  obtain ⟨s', hs', hq, hp⟩ := hL r.2.2
  refine ⟨s', ?_, hq, fun j hj => hp j hj (h3 j hj)⟩
  unfold packSide
  rw [hr, ok_bind, h1, h2, hs']

/-! ## The executors -/

theorem packLeftOrSkip {σ β : Type} {ops : MetaOps σ β} {c : Contract σ β} {left right out : StreamParams}
    {z : Nat} {t : Tile} {base cap : Nat} (hm : ops.Meets c left right out z t base cap) {lanes src dst : Nat}
    (s : σ) (h2 : lanes ≤ t.m)
    (h3 : ∀ i, i < lanes → c.readL (src + i * left.laneStep)) (h4 : ∃ q, dst = base + 32 * q)
    (h5 : 0 < lanes → dst + left.packedStride 1 lanes t.k ≤ cap) :
    ∃ s', packOrSkip ops.packLeft lanes t.kLeft src dst s = .ok s' ∧ (0 < lanes → c.L s' dst lanes src) ∧
      (∀ a n x, Apart dst (left.packedStride 1 lanes t.k) a (left.packedStride 1 n t.k) →
        c.L s a n x → c.L s' a n x) ∧
      (∀ a n x, Apart dst (left.packedStride 1 lanes t.k) a (right.packedStride 1 n t.k) →
        c.R s a n x → c.R s' a n x) := by
  unfold packOrSkip
  by_cases h : lanes = 0
  · rw [if_pos h]
    exact ⟨s, rfl, fun h' => absurd h (by omega), fun _ _ _ _ h => h, fun _ _ _ _ h => h⟩
  · rw [if_neg h]
    obtain ⟨s', e1, e2, e3, e4⟩ := hm.packLeft lanes src dst s (by omega) h2 h3 h4 (h5 (by omega))
    exact ⟨s', e1, fun _ => e2, e3, e4⟩

theorem packRightOrSkip {σ β : Type} {ops : MetaOps σ β} {c : Contract σ β} {left right out : StreamParams}
    {z : Nat} {t : Tile} {base cap : Nat} (hm : ops.Meets c left right out z t base cap) {lanes src dst : Nat}
    (s : σ) (h2 : lanes ≤ t.n)
    (h3 : ∀ i, i < lanes → c.readR (src + i * right.laneStep)) (h4 : ∃ q, dst = base + 32 * q)
    (h5 : 0 < lanes → dst + right.packedStride 1 lanes t.k ≤ cap) :
    ∃ s', packOrSkip ops.packRight lanes t.kLeft src dst s = .ok s' ∧ (0 < lanes → c.R s' dst lanes src) ∧
      (∀ a n x, Apart dst (right.packedStride 1 lanes t.k) a (left.packedStride 1 n t.k) →
        c.L s a n x → c.L s' a n x) ∧
      (∀ a n x, Apart dst (right.packedStride 1 lanes t.k) a (right.packedStride 1 n t.k) →
        c.R s a n x → c.R s' a n x) := by
  unfold packOrSkip
  by_cases h : lanes = 0
  · rw [if_pos h]
    exact ⟨s, rfl, fun h' => absurd h (by omega), fun _ _ _ _ h => h, fun _ _ _ _ h => h⟩
  · rw [if_neg h]
    obtain ⟨s', e1, e2, e3, e4⟩ := hm.packRight lanes src dst s (by omega) h2 h3 h4 (h5 (by omega))
    exact ⟨s', e1, fun _ => e2, e3, e4⟩

theorem mulOrSkip_spec {σ β : Type} {ops : MetaOps σ β} {c : Contract σ β} {left right out : StreamParams}
    {z : Nat} {t : Tile} {base cap : Nat} (hm : ops.Meets c left right out z t base cap)
    {mm nn pl pr ls rs : Nat} (res : Nat) {s : σ} (h1 : mm ≤ t.m) (h2 : nn ≤ t.n)
    (hL : 0 < mm → c.L s pl mm ls) (hR : 0 < nn → c.R s pr nn rs) :
    ∃ l, mulOrSkip ops.mul mm nn pl pr res s = .ok l ∧
      ∀ x, x ∈ l ↔ Entry c.val res out.stride z ls rs left.laneStep right.laneStep mm nn x := by
  unfold mulOrSkip
  by_cases h : mm = 0 ∨ nn = 0
  · rw [if_pos h]
    refine ⟨[], rfl, fun x => ⟨fun h => absurd h (by simp), fun h' => ?_⟩⟩
    rcases h with rfl | rfl
    · exact absurd h' entry_rows_zero
    · exact absurd h' entry_cols_zero
  · rw [if_neg h]
    have := (not_or.1 h)
    exact hm.mul mm nn pl pr res ls rs s (by omega) h1 (by omega) h2 (hL (by omega)) (hR (by omega))

/-- The scratch memory that packing one side as a whole and one chunk of the other takes. -/
def neededScratch (one whole : StreamParams) (dim oneLanes wholeLanes pack : Nat) : Nat :=
  one.packedStride 1 oneLanes pack + dim / wholeLanes * whole.packedStride 1 wholeLanes pack +
    (if dim % wholeLanes = 0 then 0 else whole.packedStride 1 (dim % wholeLanes) pack)

/-- The loop over the strips and the leftover strip after it. -/
theorem strips_spec {σ β : Type} {body : Nat → Nat × Nat × σ × List (Nat × β) → M (Nat × Nat × σ × List (Nat × β))}
    {last : Nat × Nat × σ × List (Nat × β) → M (σ × List (Nat × β))}
    {chunks srcStep resStep src res left : Nat} {s : σ} (I : σ → Prop) (hs : I s)
    {F : Nat → Nat × β → Prop} {G : Nat × β → Prop}
    (hF : ∀ i s l, i < chunks → I s → ∃ s' l', body i (src + i * srcStep, res + i * resStep, s, l) =
      .ok (src + i * srcStep + srcStep, res + i * resStep + resStep, s', l ++ l') ∧ I s' ∧ ∀ x, x ∈ l' ↔ F i x)
    (hG0 : left = 0 → ∀ x, ¬ G x)
    (hG : ∀ s l, 0 < left → I s → ∃ s' l', last (src + chunks * srcStep, res + chunks * resStep, s, l) =
      .ok (s', l ++ l') ∧ ∀ x, x ∈ l' ↔ G x) :
    ∃ s' l, (do
      let r ← forLoop 0 chunks 1 body (src, res, s, [])
      if left > 0 then last r else pure (r.2.2.1, r.2.2.2)) = .ok (s', l) ∧
      ∀ x, x ∈ l ↔ (∃ i, i < chunks ∧ F i x) ∨ G x := by
  obtain ⟨⟨a, b, s1, l1⟩, hr, h1, h2, h3, h4⟩ := forLoop_inv1 (hi := chunks) (f := body) (s := (src, res, s, []))
    (fun i st => st.1 = src + i * srcStep ∧ st.2.1 = res + i * resStep ∧ I st.2.2.1 ∧
      ∀ x, x ∈ st.2.2.2 ↔ ∃ j, j < i ∧ F j x)
    ⟨by simp, by simp, hs, by simp⟩
    (by
      rintro i ⟨a, b, s, l⟩ hi ⟨h1, h2, h3, h4⟩
      simp only at h1 h2 h3 h4
      obtain ⟨s', l', e1, e2, e3⟩ := hF i s l hi h3
      subst h1 h2
      refine ⟨_, e1, by simp only; ring, by simp only; ring, e2, ?_⟩
      intro x
      simp only [List.mem_append, h4, e3]
      constructor
      · rintro (⟨j, hj, h⟩ | h)
        · exact ⟨j, by omega, h⟩
        · exact ⟨i, by omega, h⟩
      · rintro ⟨j, hj, h⟩
        by_cases e : j = i
        · subst e; exact .inr h
        · exact .inl ⟨j, by omega, h⟩)
  simp only at h1 h2 h3 h4
  subst h1 h2
  rw [hr, ok_bind]
  by_cases h : left = 0
  · refine ⟨s1, l1, by rw [if_neg (by omega)]; rfl, fun x => ?_⟩
    rw [h4]
    exact ⟨.inl, fun h' => h'.elim id fun g => absurd g (hG0 h x)⟩
  · obtain ⟨s', l', e1, e2⟩ := hG s1 l1 (by omega) h3
    refine ⟨s', l1 ++ l', by rw [if_pos (by omega), e1], fun x => ?_⟩
    rw [List.mem_append, h4, e2]

/-- `GemmExecutorPackRHS` stores the entries of the result, all of them and nothing else, and stays within
the scratch memory. -/
theorem executePackRHS_spec {σ β : Type} {ops : MetaOps σ β} {c : Contract σ β} {t : Tile} {p : GemmParams}
    {base cap : Nat} (hm : ops.Meets c p.left p.right p.out p.outSize t base cap)
    (ho : p.out.kind = .rowMajor) (hM : 0 < t.m) (hN : 0 < t.n)
    (hml : t.mLeft = p.m % t.m) (hnl : t.nLeft = p.n % t.n)
    (hL : ∀ i, i < p.m → c.readL (p.lhs + i * p.left.laneStep))
    (hR : ∀ i, i < p.n → c.readR (p.rhs + i * p.right.laneStep))
    (hb : ∃ q, p.scratch = base + 32 * q)
    (hcap : p.scratch + neededScratch p.left p.right p.n t.m t.n t.k ≤ cap) (s : σ) :
    ∃ s' l, executePackRHS ops t p s = .ok (s', l) ∧
      ∀ x, x ∈ l ↔ Entry c.val p.result p.out.stride p.outSize p.lhs p.rhs p.left.laneStep p.right.laneStep p.m p.n x := by
  unfold neededScratch at hcap
  have hdm := Nat.div_add_mod p.m t.m
  have hdn := Nat.div_add_mod p.n t.n
  have hml' : t.mLeft < t.m := by rw [hml]; exact Nat.mod_lt _ hM
  have hnl' : t.nLeft < t.n := by rw [hnl]; exact Nat.mod_lt _ hN
  rw [← hml] at hdm
  rw [← hnl] at hdn hcap
  obtain ⟨S, hS⟩ : ∃ S, S = p.left.packedStride 1 t.m t.k := ⟨_, rfl⟩
  obtain ⟨P, hP⟩ : ∃ P, P = p.right.packedStride 1 t.n t.k := ⟨_, rfl⟩
  obtain ⟨Q, hQ⟩ : ∃ Q, Q = p.right.packedStride 1 t.nLeft t.k := ⟨_, rfl⟩
  rw [← hS, ← hP, ← hQ] at hcap
  obtain ⟨rc, hrc⟩ : ∃ rc, rc = p.n / t.n := ⟨_, rfl⟩
  obtain ⟨lc, hlc⟩ : ∃ lc, lc = p.m / t.m := ⟨_, rfl⟩
  rw [← hrc] at hdn hcap
  rw [← hlc] at hdm
  rw [Nat.mul_comm] at hdm hdn
  have hmulle : ∀ {i j : Nat}, i < j → i * P + P ≤ j * P := fun {i j} h => by
    have := Nat.mul_le_mul_right P (show i + 1 ≤ j from h)
    rwa [Nat.add_mul, Nat.one_mul] at this
  obtain ⟨qb, hqb⟩ := hb
  obtain ⟨qS, hqS⟩ : ∃ q, S = 32 * q := by rw [hS]; exact packedStride_dvd ..
  obtain ⟨qP, hqP⟩ : ∃ q, P = 32 * q := by rw [hP]; exact packedStride_dvd ..
  -- the right operand
  obtain ⟨s1, hs1, hq, hp⟩ := packSide_spec
    (packF := packOrSkip ops.packRight t.n t.kLeft) (packL := packOrSkip ops.packRight t.nLeft t.kLeft)
    (chunks := rc) (chunkSize := p.right.unpackedStride 1 t.n) (packedSize := P) (src := p.rhs)
    (dst := p.scratch + S) (s := s)
    (fun s i => c.R s (p.scratch + S + i * P) t.n (p.rhs + i * (t.n * p.right.laneStep)))
    (fun s => 0 < t.nLeft → c.R s (p.scratch + S + rc * P) t.nLeft (p.rhs + rc * (t.n * p.right.laneStep)))
    (by
      intro i s hi
      rw [unpackedStride_eq]
      have := hmulle hi
      obtain ⟨s', e1, e2, e3, e4⟩ := packRightOrSkip hm (lanes := t.n)
        (src := p.rhs + i * (t.n * p.right.laneStep)) (dst := p.scratch + S + i * P) s (by omega)
        (by
          intro j hj
          have h := hR (i * t.n + j) (by
            have := Nat.mul_le_mul_right t.n (show i + 1 ≤ rc from hi)
            rw [Nat.add_mul] at this; omega)
          rwa [show p.rhs + i * (t.n * p.right.laneStep) + j * p.right.laneStep =
            p.rhs + (i * t.n + j) * p.right.laneStep by ring])
        ⟨qb + qS + i * qP, by rw [hqb, hqS, hqP]; ring⟩ (by intro _; rw [← hP]; split at hcap <;> omega)
      refine ⟨s', e1, e2 hN, fun j hj hj' => e4 _ _ _ (.inr ?_) hj'⟩
      have := hmulle hj
      rw [← hP]; omega)
    (by
      intro s
      rw [unpackedStride_eq]
      obtain ⟨s', e1, e2, e3, e4⟩ := packRightOrSkip hm (lanes := t.nLeft)
        (src := p.rhs + rc * (t.n * p.right.laneStep)) (dst := p.scratch + S + rc * P) s (by omega)
        (by
          intro j hj
          have h := hR (rc * t.n + j) (by omega)
          rwa [show p.rhs + rc * (t.n * p.right.laneStep) + j * p.right.laneStep =
            p.rhs + (rc * t.n + j) * p.right.laneStep by ring])
        ⟨qb + qS + rc * qP, by rw [hqb, hqS, hqP]; ring⟩
        (by intro h; rw [← hQ]; rw [if_neg (by omega)] at hcap; omega)
      refine ⟨s', e1, e2, fun j hj hj' => e4 _ _ _ (.inr ?_) hj'⟩
      have := hmulle hj
      rw [← hP]; omega)
  -- the strips
  have hstrip : ∀ (rows : Nat) (ls res : Nat) (s : σ), rows ≤ t.m → c.L s p.scratch rows ls →
      ((0 < t.nLeft → c.R s (p.scratch + S + rc * P) t.nLeft (p.rhs + rc * (t.n * p.right.laneStep))) ∧
        ∀ j, j < rc → c.R s (p.scratch + S + j * P) t.n (p.rhs + j * (t.n * p.right.laneStep))) →
      ∃ l, strip (fun pr res => mulOrSkip ops.mul rows t.n p.scratch pr res)
        (fun pr res => mulOrSkip ops.mul rows t.nLeft p.scratch pr res) rc P (p.out.unpackedAdvance p.outSize t.n)
        (p.scratch + S) res s = .ok l ∧
        ∀ x, x ∈ l ↔ Entry c.val res p.out.stride p.outSize ls p.rhs p.left.laneStep p.right.laneStep rows p.n x := by
    intro rows ls res s hr hl hR'
    have ea : p.out.unpackedAdvance p.outSize t.n = t.n * p.outSize := by
      unfold StreamParams.unpackedAdvance; rw [ho]; exact Nat.mul_comm _ _
    rw [ea]
    obtain ⟨l, e1, e2⟩ := strip_spec (mulF := fun pr res => mulOrSkip ops.mul rows t.n p.scratch pr res)
      (mulL := fun pr res => mulOrSkip ops.mul rows t.nLeft p.scratch pr res) (chunks := rc) (chunkSize := P)
      (resSize := t.n * p.outSize) (packed := p.scratch + S) (res := res) (s := s)
      (fun i hi => mulOrSkip_spec hm _ hr (by omega) (fun _ => hl) (fun _ => hR'.2 i hi))
      (mulOrSkip_spec hm _ hr (by omega) (fun _ => hl) hR'.1)
    refine ⟨l, e1, fun x => ?_⟩
    rw [e2, entry_cols t.n rc t.nLeft hN, hdn]
  have er : p.out.unpackedStride p.outSize t.m = t.m * p.out.stride := by
    unfold StreamParams.unpackedStride; rw [ho]
  have hkeep : ∀ (rows ls : Nat) (s : σ), rows ≤ t.m →
      (∀ i, i < rows → c.readL (ls + i * p.left.laneStep)) →
      ((0 < t.nLeft → c.R s (p.scratch + S + rc * P) t.nLeft (p.rhs + rc * (t.n * p.right.laneStep))) ∧
        ∀ j, j < rc → c.R s (p.scratch + S + j * P) t.n (p.rhs + j * (t.n * p.right.laneStep))) →
      ∃ s', packOrSkip ops.packLeft rows t.kLeft ls p.scratch s = .ok s' ∧ (0 < rows → c.L s' p.scratch rows ls) ∧
      ((0 < t.nLeft → c.R s' (p.scratch + S + rc * P) t.nLeft (p.rhs + rc * (t.n * p.right.laneStep))) ∧
        ∀ j, j < rc → c.R s' (p.scratch + S + j * P) t.n (p.rhs + j * (t.n * p.right.laneStep))) := by
    intro rows ls s hr hrd hI
    have hle : p.left.packedStride 1 rows t.k ≤ S := by rw [hS]; exact packedStride_mono _ _ _ hr
    obtain ⟨s', e1, e2, e3, e4⟩ := packLeftOrSkip hm (lanes := rows) (src := ls) (dst := p.scratch) s hr hrd
      ⟨qb, hqb⟩ (by intro _; omega)
    exact ⟨s', e1, e2, fun h => e4 _ _ _ (.inl (by omega)) (hI.1 h),
      fun j hj => e4 _ _ _ (.inl (by omega)) (hI.2 j hj)⟩
  unfold executePackRHS
  simp only [← hS, ← hP, ← hrc, ← hlc]
  rw [hs1, ok_bind, er, unpackedStride_eq]
  obtain ⟨s', l, e1, e2⟩ := strips_spec (chunks := lc) (left := t.mLeft) (src := p.lhs) (res := p.result)
    (srcStep := t.m * p.left.laneStep) (resStep := t.m * p.out.stride)
    (F := fun i x => Entry c.val (p.result + i * (t.m * p.out.stride)) p.out.stride p.outSize
      (p.lhs + i * (t.m * p.left.laneStep)) p.rhs p.left.laneStep p.right.laneStep t.m p.n x)
    (G := fun x => Entry c.val (p.result + lc * (t.m * p.out.stride)) p.out.stride p.outSize
      (p.lhs + lc * (t.m * p.left.laneStep)) p.rhs p.left.laneStep p.right.laneStep t.mLeft p.n x)
    (body := fun _ (st : Nat × Nat × σ × List (Nat × β)) => do
      let s ← packOrSkip ops.packLeft t.m t.kLeft st.1 p.scratch st.2.2.1
      let l ← strip (fun pr res => mulOrSkip ops.mul t.m t.n p.scratch pr res)
        (fun pr res => mulOrSkip ops.mul t.m t.nLeft p.scratch pr res)
        rc P (p.out.unpackedAdvance p.outSize t.n) (p.scratch + S) st.2.1 s
      pure (st.1 + t.m * p.left.laneStep, st.2.1 + t.m * p.out.stride, s, st.2.2.2 ++ l))
    (last := fun r => do
      let s ← packOrSkip ops.packLeft t.mLeft t.kLeft r.1 p.scratch r.2.2.1
      let l ← strip (fun pr res => mulOrSkip ops.mul t.mLeft t.n p.scratch pr res)
        (fun pr res => mulOrSkip ops.mul t.mLeft t.nLeft p.scratch pr res)
        rc P (p.out.unpackedAdvance p.outSize t.n) (p.scratch + S) r.2.1 s
      pure (s, r.2.2.2 ++ l)) (s := s1)
    (fun s => (0 < t.nLeft → c.R s (p.scratch + S + rc * P) t.nLeft (p.rhs + rc * (t.n * p.right.laneStep))) ∧
        ∀ j, j < rc → c.R s (p.scratch + S + j * P) t.n (p.rhs + j * (t.n * p.right.laneStep))) ⟨hq, hp⟩
    (by
      intro i s l hi hI
      obtain ⟨s', e1, e2, e3⟩ := hkeep t.m (p.lhs + i * (t.m * p.left.laneStep)) s (Nat.le_refl _)
        (by
          intro j hj
          have h := hL (i * t.m + j) (by
            have := Nat.mul_le_mul_right t.m (show i + 1 ≤ lc from hi)
            rw [Nat.add_mul] at this; omega)
          rwa [show p.lhs + i * (t.m * p.left.laneStep) + j * p.left.laneStep =
            p.lhs + (i * t.m + j) * p.left.laneStep by ring]) hI
      obtain ⟨l', e4, e5⟩ := hstrip t.m (p.lhs + i * (t.m * p.left.laneStep)) (p.result + i * (t.m * p.out.stride))
        s' (Nat.le_refl _) (e2 hM) e3
      exact ⟨s', l', by simp only [e1, ok_bind, e4]; rfl, e3, e5⟩)
    (by intro h x; rw [h]; exact entry_rows_zero)
    (by
      intro s l hpos hI
      obtain ⟨s', e1, e2, e3⟩ := hkeep t.mLeft (p.lhs + lc * (t.m * p.left.laneStep)) s (by omega)
        (by
          intro j hj
          have h := hL (lc * t.m + j) (by omega)
          rwa [show p.lhs + lc * (t.m * p.left.laneStep) + j * p.left.laneStep =
            p.lhs + (lc * t.m + j) * p.left.laneStep by ring]) hI
      obtain ⟨l', e4, e5⟩ := hstrip t.mLeft (p.lhs + lc * (t.m * p.left.laneStep))
        (p.result + lc * (t.m * p.out.stride)) s' (by omega) (e2 hpos) e3
      exact ⟨s', l', by simp only [e1, ok_bind, e4]; rfl, e5⟩)
  refine ⟨s', l, e1, fun x => ?_⟩
  rw [e2, entry_rows t.m lc t.mLeft hM, hdm]

/-- `GemmExecutorPackLHS` likewise. -/
theorem executePackLHS_spec {σ β : Type} {ops : MetaOps σ β} {c : Contract σ β} {t : Tile} {p : GemmParams}
    {base cap : Nat} (hm : ops.Meets c p.left p.right p.out p.outSize t base cap)
    (ho : p.out.kind = .rowMajor) (hM : 0 < t.m) (hN : 0 < t.n)
    (hml : t.mLeft = p.m % t.m) (hnl : t.nLeft = p.n % t.n)
    (hL : ∀ i, i < p.m → c.readL (p.lhs + i * p.left.laneStep))
    (hR : ∀ i, i < p.n → c.readR (p.rhs + i * p.right.laneStep))
    (hb : ∃ q, p.scratch = base + 32 * q)
    (hcap : p.scratch + neededScratch p.right p.left p.m t.n t.m t.k ≤ cap) (s : σ) :
    ∃ s' l, executePackLHS ops t p s = .ok (s', l) ∧
      ∀ x, x ∈ l ↔ Entry c.val p.result p.out.stride p.outSize p.lhs p.rhs p.left.laneStep p.right.laneStep p.m p.n x := by
  unfold neededScratch at hcap
  have hdm := Nat.div_add_mod p.m t.m
  have hdn := Nat.div_add_mod p.n t.n
  have hml' : t.mLeft < t.m := by rw [hml]; exact Nat.mod_lt _ hM
  have hnl' : t.nLeft < t.n := by rw [hnl]; exact Nat.mod_lt _ hN
  rw [← hml] at hdm hcap
  rw [← hnl] at hdn
  obtain ⟨S, hS⟩ : ∃ S, S = p.right.packedStride 1 t.n t.k := ⟨_, rfl⟩
  obtain ⟨P, hP⟩ : ∃ P, P = p.left.packedStride 1 t.m t.k := ⟨_, rfl⟩
  obtain ⟨Q, hQ⟩ : ∃ Q, Q = p.left.packedStride 1 t.mLeft t.k := ⟨_, rfl⟩
  rw [← hS, ← hP, ← hQ] at hcap
  obtain ⟨rc, hrc⟩ : ∃ rc, rc = p.n / t.n := ⟨_, rfl⟩
  obtain ⟨lc, hlc⟩ : ∃ lc, lc = p.m / t.m := ⟨_, rfl⟩
  rw [← hrc] at hdn
  rw [← hlc] at hdm hcap
  rw [Nat.mul_comm] at hdm hdn
  have hmulle : ∀ {i j : Nat}, i < j → i * P + P ≤ j * P := fun {i j} h => by
    have := Nat.mul_le_mul_right P (show i + 1 ≤ j from h)
    rwa [Nat.add_mul, Nat.one_mul] at this
  obtain ⟨qb, hqb⟩ := hb
  obtain ⟨qS, hqS⟩ : ∃ q, S = 32 * q := by rw [hS]; exact packedStride_dvd ..
  obtain ⟨qP, hqP⟩ : ∃ q, P = 32 * q := by rw [hP]; exact packedStride_dvd ..
  -- the left operand
  obtain ⟨s1, hs1, hq, hp⟩ := packSide_spec
    (packF := packOrSkip ops.packLeft t.m t.kLeft) (packL := packOrSkip ops.packLeft t.mLeft t.kLeft)
    (chunks := lc) (chunkSize := p.left.unpackedStride 1 t.m) (packedSize := P) (src := p.lhs)
    (dst := p.scratch + S) (s := s)
    (fun s i => c.L s (p.scratch + S + i * P) t.m (p.lhs + i * (t.m * p.left.laneStep)))
    (fun s => 0 < t.mLeft → c.L s (p.scratch + S + lc * P) t.mLeft (p.lhs + lc * (t.m * p.left.laneStep)))
    (by
      intro i s hi
      rw [unpackedStride_eq]
      have := hmulle hi
      obtain ⟨s', e1, e2, e3, e4⟩ := packLeftOrSkip hm (lanes := t.m)
        (src := p.lhs + i * (t.m * p.left.laneStep)) (dst := p.scratch + S + i * P) s (by omega)
        (by
          intro j hj
          have h := hL (i * t.m + j) (by
            have := Nat.mul_le_mul_right t.m (show i + 1 ≤ lc from hi)
            rw [Nat.add_mul] at this; omega)
          rwa [show p.lhs + i * (t.m * p.left.laneStep) + j * p.left.laneStep =
            p.lhs + (i * t.m + j) * p.left.laneStep by ring])
        ⟨qb + qS + i * qP, by rw [hqb, hqS, hqP]; ring⟩ (by intro _; rw [← hP]; split at hcap <;> omega)
      refine ⟨s', e1, e2 hM, fun j hj hj' => e3 _ _ _ (.inr ?_) hj'⟩
      have := hmulle hj
      rw [← hP]; omega)
    (by
      intro s
      rw [unpackedStride_eq]
      obtain ⟨s', e1, e2, e3, e4⟩ := packLeftOrSkip hm (lanes := t.mLeft)
        (src := p.lhs + lc * (t.m * p.left.laneStep)) (dst := p.scratch + S + lc * P) s (by omega)
        (by
          intro j hj
          have h := hL (lc * t.m + j) (by omega)
          rwa [show p.lhs + lc * (t.m * p.left.laneStep) + j * p.left.laneStep =
            p.lhs + (lc * t.m + j) * p.left.laneStep by ring])
        ⟨qb + qS + lc * qP, by rw [hqb, hqS, hqP]; ring⟩
        (by intro h; rw [← hQ]; rw [if_neg (by omega)] at hcap; omega)
      refine ⟨s', e1, e2, fun j hj hj' => e3 _ _ _ (.inr ?_) hj'⟩
      have := hmulle hj
      rw [← hP]; omega)
  -- the strips
  have er : p.out.unpackedStride p.outSize t.m = t.m * p.out.stride := by
    unfold StreamParams.unpackedStride; rw [ho]
  have ea : p.out.unpackedAdvance p.outSize t.n = t.n * p.outSize := by
    unfold StreamParams.unpackedAdvance; rw [ho]; exact Nat.mul_comm _ _
  have hstrip : ∀ (cols : Nat) (rs res : Nat) (s : σ), cols ≤ t.n → c.R s p.scratch cols rs →
      ((0 < t.mLeft → c.L s (p.scratch + S + lc * P) t.mLeft (p.lhs + lc * (t.m * p.left.laneStep))) ∧
        ∀ j, j < lc → c.L s (p.scratch + S + j * P) t.m (p.lhs + j * (t.m * p.left.laneStep))) →
      ∃ l, strip (fun pl res => mulOrSkip ops.mul t.m cols pl p.scratch res)
        (fun pl res => mulOrSkip ops.mul t.mLeft cols pl p.scratch res) lc P (t.m * p.out.stride)
        (p.scratch + S) res s = .ok l ∧
        ∀ x, x ∈ l ↔ Entry c.val res p.out.stride p.outSize p.lhs rs p.left.laneStep p.right.laneStep p.m cols x := by
    intro cols rs res s hr hl hR'
    obtain ⟨l, e1, e2⟩ := strip_spec (mulF := fun pl res => mulOrSkip ops.mul t.m cols pl p.scratch res)
      (mulL := fun pl res => mulOrSkip ops.mul t.mLeft cols pl p.scratch res) (chunks := lc) (chunkSize := P)
      (resSize := t.m * p.out.stride) (packed := p.scratch + S) (res := res) (s := s)
      (fun i hi => mulOrSkip_spec hm _ (by omega) hr (fun _ => hR'.2 i hi) (fun _ => hl))
      (mulOrSkip_spec hm _ (by omega) hr hR'.1 (fun _ => hl))
    refine ⟨l, e1, fun x => ?_⟩
    rw [e2, entry_rows t.m lc t.mLeft hM, hdm]
  have hkeep : ∀ (cols rs : Nat) (s : σ), cols ≤ t.n →
      (∀ i, i < cols → c.readR (rs + i * p.right.laneStep)) →
      ((0 < t.mLeft → c.L s (p.scratch + S + lc * P) t.mLeft (p.lhs + lc * (t.m * p.left.laneStep))) ∧
        ∀ j, j < lc → c.L s (p.scratch + S + j * P) t.m (p.lhs + j * (t.m * p.left.laneStep))) →
      ∃ s', packOrSkip ops.packRight cols t.kLeft rs p.scratch s = .ok s' ∧ (0 < cols → c.R s' p.scratch cols rs) ∧
      ((0 < t.mLeft → c.L s' (p.scratch + S + lc * P) t.mLeft (p.lhs + lc * (t.m * p.left.laneStep))) ∧
        ∀ j, j < lc → c.L s' (p.scratch + S + j * P) t.m (p.lhs + j * (t.m * p.left.laneStep))) := by
    intro cols rs s hr hrd hI
    have hle : p.right.packedStride 1 cols t.k ≤ S := by rw [hS]; exact packedStride_mono _ _ _ hr
    obtain ⟨s', e1, e2, e3, e4⟩ := packRightOrSkip hm (lanes := cols) (src := rs) (dst := p.scratch) s hr hrd
      ⟨qb, hqb⟩ (by intro _; omega)
    exact ⟨s', e1, e2, fun h => e3 _ _ _ (.inl (by omega)) (hI.1 h),
      fun j hj => e3 _ _ _ (.inl (by omega)) (hI.2 j hj)⟩
  unfold executePackLHS
  simp only [← hS, ← hP, ← hrc, ← hlc]
  rw [hs1, ok_bind, er, ea, unpackedStride_eq]
  obtain ⟨s', l, e1, e2⟩ := strips_spec (chunks := rc) (left := t.nLeft) (src := p.rhs) (res := p.result)
    (srcStep := t.n * p.right.laneStep) (resStep := t.n * p.outSize)
    (F := fun i x => Entry c.val (p.result + i * (t.n * p.outSize)) p.out.stride p.outSize
      p.lhs (p.rhs + i * (t.n * p.right.laneStep)) p.left.laneStep p.right.laneStep p.m t.n x)
    (G := fun x => Entry c.val (p.result + rc * (t.n * p.outSize)) p.out.stride p.outSize
      p.lhs (p.rhs + rc * (t.n * p.right.laneStep)) p.left.laneStep p.right.laneStep p.m t.nLeft x)
    (body := fun _ (st : Nat × Nat × σ × List (Nat × β)) => do
      let s ← packOrSkip ops.packRight t.n t.kLeft st.1 p.scratch st.2.2.1
      let l ← strip (fun pl res => mulOrSkip ops.mul t.m t.n pl p.scratch res)
        (fun pl res => mulOrSkip ops.mul t.mLeft t.n pl p.scratch res)
        lc P (t.m * p.out.stride) (p.scratch + S) st.2.1 s
      pure (st.1 + t.n * p.right.laneStep, st.2.1 + t.n * p.outSize, s, st.2.2.2 ++ l))
    (last := fun r => do
      let s ← packOrSkip ops.packRight t.nLeft t.kLeft r.1 p.scratch r.2.2.1
      let l ← strip (fun pl res => mulOrSkip ops.mul t.m t.nLeft pl p.scratch res)
        (fun pl res => mulOrSkip ops.mul t.mLeft t.nLeft pl p.scratch res)
        lc P (t.m * p.out.stride) (p.scratch + S) r.2.1 s
      pure (s, r.2.2.2 ++ l)) (s := s1)
    (fun s => (0 < t.mLeft → c.L s (p.scratch + S + lc * P) t.mLeft (p.lhs + lc * (t.m * p.left.laneStep))) ∧
        ∀ j, j < lc → c.L s (p.scratch + S + j * P) t.m (p.lhs + j * (t.m * p.left.laneStep))) ⟨hq, hp⟩
    (by
      intro i s l hi hI
      obtain ⟨s', e1, e2, e3⟩ := hkeep t.n (p.rhs + i * (t.n * p.right.laneStep)) s (Nat.le_refl _)
        (by
          intro j hj
          have h := hR (i * t.n + j) (by
            have := Nat.mul_le_mul_right t.n (show i + 1 ≤ rc from hi)
            rw [Nat.add_mul] at this; omega)
          rwa [show p.rhs + i * (t.n * p.right.laneStep) + j * p.right.laneStep =
            p.rhs + (i * t.n + j) * p.right.laneStep by ring]) hI
      obtain ⟨l', e4, e5⟩ := hstrip t.n (p.rhs + i * (t.n * p.right.laneStep)) (p.result + i * (t.n * p.outSize))
        s' (Nat.le_refl _) (e2 hN) e3
      exact ⟨s', l', by simp only [e1, ok_bind, e4]; rfl, e3, e5⟩)
    (by intro h x; rw [h]; exact entry_cols_zero)
    (by
      intro s l hpos hI
      obtain ⟨s', e1, e2, e3⟩ := hkeep t.nLeft (p.rhs + rc * (t.n * p.right.laneStep)) s (by omega)
        (by
          intro j hj
          have h := hR (rc * t.n + j) (by omega)
          rwa [show p.rhs + rc * (t.n * p.right.laneStep) + j * p.right.laneStep =
            p.rhs + (rc * t.n + j) * p.right.laneStep by ring]) hI
      obtain ⟨l', e4, e5⟩ := hstrip t.nLeft (p.rhs + rc * (t.n * p.right.laneStep))
        (p.result + rc * (t.n * p.outSize)) s' (by omega) (e2 hpos) e3
      exact ⟨s', l', by simp only [e1, ok_bind, e4]; rfl, e5⟩)
  refine ⟨s', l, e1, fun x => ?_⟩
  rw [e2, entry_cols t.n rc t.nLeft hN, hdn]

end Meta
end Gemmlowp
