import Verif.AllocSpec
/-!
# Invariant of the allocator over all call histories
-/
namespace Gemmlowp

/-! ## RoundUpToPowerOfTwo -/

/-- The five smearing steps. -/
def smear (i : Nat) : Nat :=
  smearStep 16 (smearStep 8 (smearStep 4 (smearStep 2 (smearStep 1 i))))

theorem smearStep_testBit (s i k : Nat) :
    (smearStep s i).testBit k = (i.testBit k || i.testBit (k + s)) := by
  unfold smearStep
  rw [Nat.testBit_or, Nat.testBit_shiftRight, Nat.add_comm s k]

theorem le_smearStep (s i : Nat) : i ≤ smearStep s i := Nat.left_le_or

theorem smearStep_lt {s i m : Nat} (h : i < 2 ^ m) : smearStep s i < 2 ^ m := by
  unfold smearStep
  apply Nat.or_lt_two_pow h
  rw [Nat.shiftRight_eq_div_pow]
  exact Nat.lt_of_le_of_lt (Nat.div_le_self _ _) h

theorem le_smear (i : Nat) : i ≤ smear i := by
  unfold smear
  have h1 := le_smearStep 1 i
  have h2 := le_smearStep 2 (smearStep 1 i)
  have h3 := le_smearStep 4 (smearStep 2 (smearStep 1 i))
  have h4 := le_smearStep 8 (smearStep 4 (smearStep 2 (smearStep 1 i)))
  have h5 := le_smearStep 16 (smearStep 8 (smearStep 4 (smearStep 2 (smearStep 1 i))))
  omega

theorem smear_lt {i m : Nat} (h : i < 2 ^ m) : smear i < 2 ^ m :=
  smearStep_lt (smearStep_lt (smearStep_lt (smearStep_lt (smearStep_lt h))))

theorem smearStep_window {i x s : Nat}
    (h : ∀ k, x.testBit k = true ↔ ∃ j, j < s ∧ i.testBit (k + j) = true) (k : Nat) :
    (smearStep s x).testBit k = true ↔ ∃ j, j < 2 * s ∧ i.testBit (k + j) = true := by
  rw [smearStep_testBit, Bool.or_eq_true, h, h]
  constructor
  · rintro (⟨j, hj, e⟩ | ⟨j, hj, e⟩)
    · exact ⟨j, by omega, e⟩
    · exact ⟨s + j, by omega, by rw [← Nat.add_assoc]; exact e⟩
  · rintro ⟨j, hj, e⟩
    by_cases hlt : j < s
    · exact Or.inl ⟨j, hlt, e⟩
    · exact Or.inr ⟨j - s, by omega, by rw [show k + s + (j - s) = k + j by omega]; exact e⟩

/-- Bit `k` of the smeared value is set iff one of the 32 bits of `i` from `k` on is. -/
theorem smear_testBit (i k : Nat) :
    (smear i).testBit k = true ↔ ∃ j, j < 32 ∧ i.testBit (k + j) = true := by
  refine smearStep_window (smearStep_window (smearStep_window (smearStep_window
    (smearStep_window (s := 1) ?_)))) k
  intro k
  constructor
  · intro h; exact ⟨0, by decide, h⟩
  · rintro ⟨j, hj, h⟩
    obtain rfl : j = 0 := by omega
    exact h

theorem smear_eq {i m : Nat} (hm : m < 32) (h1 : 2 ^ m ≤ i) (h2 : i < 2 ^ (m + 1)) :
    smear i = 2 ^ (m + 1) - 1 := by
  apply Nat.eq_of_testBit_eq
  intro k
  rw [Nat.testBit_two_pow_sub_one]
  have hb : i.testBit m = true := by
    have e : i = 2 ^ m + (i - 2 ^ m) := by omega
    have hlt : i - 2 ^ m < 2 ^ m := by
      rw [Nat.pow_succ] at h2; omega
    rw [e, Nat.testBit_two_pow_add_eq, Nat.testBit_lt_two_pow hlt]; rfl
  by_cases hk : k < m + 1
  · rw [decide_eq_true hk, smear_testBit]
    exact ⟨m - k, by omega, by rwa [show k + (m - k) = m by omega]⟩
  · rw [decide_eq_false hk]
    apply Nat.testBit_lt_two_pow
    exact Nat.lt_of_lt_of_le (smear_lt h2) (Nat.pow_le_pow_right (by decide) (by omega))

theorem roundUpToPowerOfTwo_eq (W n : Nat) :
    roundUpToPowerOfTwo W n = (smear ((n + W - 1) % W) + 1) % W := rfl

/-- `RoundUpToPowerOfTwo` is an upper bound of its argument, up to half the range of `size_t`. -/
theorem le_roundUpToPowerOfTwo {W n : Nat} (hW : SizeT W) (h0 : 0 < n) (h : n ≤ W / 2) :
    n ≤ roundUpToPowerOfTwo W n ∧ roundUpToPowerOfTwo W n ≤ W / 2 := by
  rw [roundUpToPowerOfTwo_eq]
  have e : (n + W - 1) % W = n - 1 := by rcases hW with rfl | rfl <;> omega
  rw [e]
  have h1 := le_smear (n - 1)
  have h2 : smear (n - 1) < W / 2 := by
    rcases hW with rfl | rfl
    · exact smear_lt (m := 31) (by omega)
    · exact smear_lt (m := 63) (by omega)
  rcases hW with rfl | rfl <;> omega

/-- Up to `2^32` it is the least power of two that is at least the argument. -/
theorem roundUpToPowerOfTwo_pow {W n : Nat} (hW : SizeT W) (h0 : 0 < n) (h : n ≤ 2 ^ 32) (h' : n ≤ W / 2) :
    ∃ m, roundUpToPowerOfTwo W n = 2 ^ m ∧ n ≤ 2 ^ m ∧ (1 < n → 2 ^ m < 2 * n) := by
  rw [roundUpToPowerOfTwo_eq]
  have e : (n + W - 1) % W = n - 1 := by rcases hW with rfl | rfl <;> omega
  rw [e]
  by_cases h1 : n = 1
  · subst h1
    exact ⟨0, by rcases hW with rfl | rfl <;> decide, by decide, by omega⟩
  · obtain ⟨m, hm1, hm2⟩ : ∃ m, 2 ^ m ≤ n - 1 ∧ n - 1 < 2 ^ (m + 1) :=
      ⟨Nat.log2 (n - 1), Nat.log2_self_le (by omega), Nat.lt_log2_self⟩
    have hm : m < 32 := by
      apply Nat.lt_of_not_le
      intro hge
      have := Nat.pow_le_pow_right (n := 2) (by decide) hge
      omega
    refine ⟨m + 1, ?_, by omega, ?_⟩
    · rw [smear_eq hm hm1 hm2]
      have : 2 ^ (m + 1) ≤ 2 ^ 32 := Nat.pow_le_pow_right (by decide) (by omega)
      have hp : 0 < 2 ^ (m + 1) := Nat.two_pow_pos _
      have hl : 2 ^ (m + 1) < W := by
        rcases hW with rfl | rfl
        · have : m < 31 := by
            apply Nat.lt_of_not_le
            intro hge
            have := Nat.pow_le_pow_right (n := 2) (by decide) hge
            omega
          have : 2 ^ (m + 1) ≤ 2 ^ 31 := Nat.pow_le_pow_right (by decide) (by omega)
          omega
        · omega
      rw [Nat.sub_add_cancel hp, Nat.mod_eq_of_lt hl]
    · intro _
      rw [Nat.pow_succ]; omega

/-- With a 32-bit `size_t` the next power of two after an argument above `2^31` is not
representable: the result is 0. -/
theorem roundUpToPowerOfTwo_zero {n : Nat} (h : 2 ^ 31 < n) (h' : n < 2 ^ 32) :
    roundUpToPowerOfTwo (2 ^ 32) n = 0 := by
  rw [roundUpToPowerOfTwo_eq]
  have e : (n + 2 ^ 32 - 1) % 2 ^ 32 = n - 1 := by omega
  rw [e, smear_eq (m := 31) (by decide) (by omega) (by omega)]

/-! ## The invariant -/

/-- The recorded offsets and handles of the blocks of the current generation. -/
def BlocksOk (W : Nat) (offsets : Buf Nat) (handles : List AHandle) (gen : Nat) : List ABlock → Prop
  | [] => True
  | b :: bs =>
    offsets.get bs.length = needBytes bs % W ∧
    handles[b.serial]? = some ⟨bs.length, gen, b.type⟩ ∧
    BlocksOk W offsets handles gen bs

/-- What holds after any successful sequence of calls. -/
structure AInv (W : Nat) (h : List AOp) (w : AWorld) : Prop where
  comm : w.a.committed = committedIn h
  blocks : w.a.blocks = (liveBlocks h).length
  five : (liveBlocks h).length ≤ 5
  gen : w.a.generation = decommitCount h % W
  count : w.handles.length = reserveCount h
  osize : w.a.offsets.size = 5
  live : BlocksOk W w.a.offsets w.handles w.a.generation (liveBlocks h)
  stale : ∀ k hd, w.handles[k]? = some hd →
    (∃ b ∈ liveBlocks h, b.serial = k) ∨ ∃ g, g < decommitCount h ∧ hd.generation = g % W
  bytes : w.a.bytes = needBytes (liveBlocks h) % W
  fits : w.a.committed = true → needBytes (liveBlocks h) ≤ W / 2 →
    needBytes (liveBlocks h) ≤ w.a.storageSize
  heap : w.a.heap = if w.a.storage = 0 then [] else [w.a.storage]
  null : w.a.storage = 0 → w.a.storageSize = 0

theorem BlocksOk_mono {o o' : Buf Nat} {hs : List AHandle} {g : Nat} (x : AHandle) :
    ∀ {bs : List ABlock}, BlocksOk W o hs g bs → (∀ i, i < bs.length → o'.get i = o.get i) →
      BlocksOk W o' (hs ++ [x]) g bs
  | [], _, _ => trivial
  | b :: bs, ⟨h1, h2, h3⟩, he => by
    refine ⟨by rw [he _ (by simp)]; exact h1, ?_,
      BlocksOk_mono x h3 (fun i hi => he i (by simp; omega))⟩
    have := (List.getElem?_eq_some_iff.1 h2).1
    rw [List.getElem?_append_left this]; exact h2

theorem BlocksOk_mem {o : Buf Nat} {hs : List AHandle} {g : Nat} :
    ∀ {bs : List ABlock}, BlocksOk W o hs g bs → ∀ b ∈ bs, ∃ pre suf, bs = pre ++ b :: suf ∧
      o.get suf.length = needBytes suf % W ∧ hs[b.serial]? = some ⟨suf.length, g, b.type⟩
  | [], _, b, hb => by simp at hb
  | c :: bs, ⟨h1, h2, h3⟩, b, hb => by
    rcases List.mem_cons.1 hb with rfl | hb
    · exact ⟨[], bs, rfl, h1, h2⟩
    · obtain ⟨pre, suf, e, h⟩ := BlocksOk_mem h3 b hb
      exact ⟨c :: pre, suf, by rw [e]; rfl, h⟩

theorem needBytes_append (l1 l2 : List ABlock) :
    needBytes (l1 ++ l2) = needBytes l1 + needBytes l2 := by
  induction l1 with
  | nil => simp [needBytes]
  | cons b bs ih => simp only [List.cons_append, needBytes, ih]; omega

theorem needBytes_mod (bs : List ABlock) : needBytes bs % 64 = 0 := by
  induction bs with
  | nil => rfl
  | cons b bs ih => simp only [needBytes]; omega

/-- The rounded size `Reserve` computes agrees with the exact one modulo `W`. -/
theorem reserve_bytes {W : Nat} (hW : SizeT W) (n s x : Nat) :
    (x % W + roundUpSz W kAlignment (n * s % W)) % W =
      (x + (n * s + 63) / 64 * 64) % W := by
  unfold roundUpSz kAlignment
  generalize n * s = p
  dsimp only
  rcases hW with rfl | rfl <;> omega

theorem AInv_init (g : Nat → Nat) : AInv W [] ⟨Alloc.init g, []⟩ := by
  constructor <;> simp [Alloc.init, committedIn, liveBlocks, decommitCount, reserveCount,
    kMaxBlocks, BlocksOk, needBytes]

theorem assertM_ok {b : Bool} {u : Unit} (h : assertM b = .ok u) : b = true := by
  unfold assertM at h; split at h
  · assumption
  · cases h

theorem assertM_false : assertM false = .error .assertion := rfl

/-- The effect of `Reserve`. -/
theorem reserve_eq {h : List AOp} {w : AWorld} (I : AInv W h w) (t : TypeId) (n : Nat) :
    w.a.reserve W t n = if committedIn h = false ∧ (liveBlocks h).length < 5 then
      .ok (⟨w.a.blocks, w.a.generation, t⟩,
        { w.a with
          offsets := w.a.offsets.upd w.a.blocks w.a.bytes
          blocks := w.a.blocks + 1
          bytes := (w.a.bytes + roundUpSz W kAlignment (n * t.size % W)) % W })
      else .error .assertion := by
  unfold Alloc.reserve
  rw [I.comm]
  cases hc : committedIn h
  · simp only [Bool.not_false, assertM_true, ok_bind, true_and]
    by_cases h5 : (liveBlocks h).length < 5
    · rw [if_pos h5, decide_eq_true (by rw [I.blocks]; exact h5)]
      simp only [assertM_true, ok_bind]
      rw [Buf.write_ok (by rw [I.osize, I.blocks]; exact h5)]
      simp only [ok_bind, pure_ok]
      rw [Nat.mod_eq_of_lt (a := w.a.blocks) (by rw [I.blocks]; omega), I.comm, hc]
    · rw [if_neg h5, decide_eq_false (by rw [I.blocks]; exact h5)]
      rfl
  · simp only [Bool.not_true, assertM_false, error_bind, reduceCtorEq, if_false, false_and]

/-- The effect of `Commit` when `aligned_alloc` succeeds. -/
theorem commit_eq {h : List AOp} {w : AWorld} (I : AInv W h w) {addr : Nat} (ha : addr ≠ 0) :
    w.a.commit W addr = if committedIn h = false then
      .ok (if w.a.storageSize < w.a.bytes then
        { w.a with committed := true, storageSize := roundUpToPowerOfTwo W w.a.bytes, storage := addr,
                   heap := [addr] }
      else { w.a with committed := true })
      else .error .assertion := by
  unfold Alloc.commit
  generalize roundUpToPowerOfTwo W = f
  rw [I.comm]
  cases hc : committedIn h
  · simp only [Bool.not_false, assertM_true, ok_bind, if_true, gt_iff_lt]
    have hcm : w.a.committed = false := by rw [I.comm]; exact hc
    by_cases hb : w.a.storageSize < w.a.bytes
    · rw [if_pos hb, if_pos hb]
      have hd : w.a.deallocateStorage = .ok { w.a with heap := [], storageSize := 0 } := by
        unfold Alloc.deallocateStorage heapFree
        rw [hcm, I.heap]
        by_cases hs : w.a.storage = 0
        · rw [if_pos hs]; simp only [Bool.not_false, assertM_true, ok_bind, pure_ok, if_pos hs, hcm]
        · rw [if_neg hs]
          simp only [Bool.not_false, assertM_true, ok_bind, pure_ok, if_neg hs,
            List.mem_singleton, if_true, List.erase_cons_head, hcm]
      rw [hd]
      rw [ok_bind, pure_ok, ok_bind]
      dsimp only
      rw [if_neg ha]
      have : (decide (f w.a.bytes = 0) || decide (addr ≠ 0)) = true := by
        rw [decide_eq_true (p := addr ≠ 0) ha, Bool.or_true]
      rw [this, assertM_true, ok_bind, pure_ok]
    · rw [if_neg hb, if_neg hb]
      simp only [pure_ok, ok_bind]
      have : (decide (w.a.storageSize = 0) || decide (w.a.storage ≠ 0)) = true := by
        by_cases hs : w.a.storage = 0
        · rw [decide_eq_true (I.null hs)]; rfl
        · rw [decide_eq_true (p := w.a.storage ≠ 0) hs, Bool.or_true]
      rw [this]
      simp only [assertM_true, ok_bind]
  · simp only [Bool.not_true, assertM_false, error_bind, reduceCtorEq, if_false]

/-- The effect of `Decommit`. -/
theorem decommit_eq {h : List AOp} {w : AWorld} (I : AInv W h w) :
    w.a.decommit W = if committedIn h = true then
      .ok { w.a with committed := false, generation := (w.a.generation + 1) % W, blocks := 0,
                     bytes := 0 }
      else .error .assertion := by
  unfold Alloc.decommit
  rw [I.comm]
  cases hc : committedIn h <;> rfl

/-- The handle of a live block. -/
theorem live_handle {h : List AOp} {w : AWorld} (I : AInv W h w) {b : ABlock}
    (hb : b ∈ liveBlocks h) : ∃ pre suf, liveBlocks h = pre ++ b :: suf ∧
      w.handles[b.serial]? = some ⟨suf.length, w.a.generation, b.type⟩ ∧
      (committedIn h = true → w.a.getPointer W b.type ⟨suf.length, w.a.generation, b.type⟩ =
        .ok ((w.a.storage + needBytes suf % W) % W)) := by
  obtain ⟨pre, suf, e, h1, h2⟩ := BlocksOk_mem I.live b hb
  refine ⟨pre, suf, e, h2, ?_⟩
  intro hc
  unfold Alloc.getPointer
  have hlt : suf.length < w.a.blocks := by rw [I.blocks, e]; simp; omega
  rw [I.comm, hc]
  simp only [assertM_true, ok_bind]
  rw [decide_eq_true hlt]
  simp only [decide_true, assertM_true, ok_bind]
  rw [Buf.read_ok (by rw [I.osize]; have := I.five; have := I.blocks; omega), h1]
  rfl

/-- A handle of the current generation that passes the checks belongs to a live block. -/
theorem get_iff {h : List AOp} {w : AWorld} (I : AInv W h w) (hd : decommitCount h < W)
    (t : TypeId) (k : Nat) :
    (∃ w', w.step W (.get t k) = .ok w') ↔ allowed h (.get t k) := by
  unfold allowed AWorld.step
  dsimp only
  constructor
  · rintro ⟨w', hw⟩
    cases hk : w.handles[k]? with
    | none => rw [hk] at hw; cases hw
    | some x =>
      rw [hk] at hw
      dsimp only at hw
      have hp : ∃ p, w.a.getPointer W t x = .ok p := by
        cases e : w.a.getPointer W t x with
        | ok p => exact ⟨p, rfl⟩
        | error f => rw [e] at hw; cases hw
      obtain ⟨p, hp⟩ := hp
      unfold Alloc.getPointer at hp
      cases hc : w.a.committed
      · rw [hc] at hp; cases hp
      · rw [hc] at hp
        simp only [assertM_true, ok_bind] at hp
        by_cases hi : x.index < w.a.blocks
        · rw [decide_eq_true hi] at hp
          simp only [assertM_true, ok_bind] at hp
          by_cases hg : x.generation = w.a.generation
          · rw [decide_eq_true hg] at hp
            simp only [assertM_true, ok_bind] at hp
            by_cases ht : x.type = t
            · refine ⟨by rw [← I.comm, hc], ?_⟩
              rcases I.stale k x hk with ⟨b, hb, hbk⟩ | ⟨g, hg1, hg2⟩
              · obtain ⟨pre, suf, e, h2, -⟩ := live_handle I hb
                rw [hbk, hk] at h2
                have : x.type = b.type := by injection h2 with h2; rw [h2]
                refine ⟨b.n, ?_⟩
                rw [← hbk, ← ht, this]; exact hb
              · exfalso
                rw [hg2, I.gen] at hg
                rw [Nat.mod_eq_of_lt (by omega), Nat.mod_eq_of_lt hd] at hg
                omega
            · rw [decide_eq_false ht] at hp; cases hp
          · rw [decide_eq_false hg] at hp; cases hp
        · rw [decide_eq_false hi] at hp; cases hp
  · rintro ⟨hc, n, hm⟩
    obtain ⟨pre, suf, e, h2, h3⟩ := live_handle I hm
    dsimp only at h2 h3
    rw [h2]
    dsimp only
    rw [h3 hc]
    exact ⟨w, rfl⟩

theorem liveBlocks_serial {h : List AOp} : ∀ b ∈ liveBlocks h, b.serial < reserveCount h := by
  induction h with
  | nil => intro b hb; simp [liveBlocks] at hb
  | cons op h ih =>
    intro b hb
    cases op with
    | reserve t n =>
      simp only [liveBlocks, List.mem_cons] at hb
      simp only [reserveCount]
      rcases hb with rfl | hb
      · simp
      · have := ih b hb; omega
    | commit a => exact ih b hb
    | decommit => simp [liveBlocks] at hb
    | get t k => exact ih b hb

/-- Every call preserves the invariant. -/
theorem AInv_step {W : Nat} (hW : SizeT W) {h : List AOp} {w w' : AWorld} {op : AOp} (I : AInv W h w)
    (hs : w.step W op = .ok w') (hop : ∀ a, op = .commit a → a ≠ 0) : AInv W (op :: h) w' := by
  cases op with
  | reserve t n =>
    unfold AWorld.step at hs
    dsimp only at hs
    rw [reserve_eq I] at hs
    split at hs
    · rename_i hc
      simp only [ok_bind, pure_ok, Except.ok.injEq] at hs
      subst hs
      constructor
      · simpa [committedIn] using I.comm
      · simp [liveBlocks, I.blocks]
      · simp only [liveBlocks, List.length_cons]; omega
      · simpa [decommitCount] using I.gen
      · simp [reserveCount, I.count]
      · simpa using I.osize
      · refine ⟨?_, ?_, ?_⟩
        · simp only [Buf.upd_get]; rw [if_pos I.blocks.symm]; exact I.bytes
        · simp only
          rw [← I.count, List.getElem?_append_right (Nat.le_refl _), I.blocks]; simp
        · apply BlocksOk_mono _ I.live
          intro i hi
          rw [Buf.upd_get, if_neg (by rw [I.blocks]; omega)]
      · intro k hd hk
        dsimp only at hk
        by_cases hlt : k < w.handles.length
        · rw [List.getElem?_append_left hlt] at hk
          rcases I.stale k hd hk with ⟨b, hb, e⟩ | hr
          · exact Or.inl ⟨b, by simp [liveBlocks, hb], e⟩
          · exact Or.inr (by simpa [decommitCount] using hr)
        · have hk' := (List.getElem?_eq_some_iff.1 hk).1
          simp at hk'
          refine Or.inl ⟨⟨reserveCount h, t, n⟩, by simp [liveBlocks], ?_⟩
          have := I.count
          dsimp only; omega
      · simp only [liveBlocks, needBytes, ABlock.bytes]
        rw [I.bytes, reserve_bytes hW]
      · intro hcm
        have := I.comm
        simp only at hcm
        rw [hcm, hc.1] at this; cases this
      · exact I.heap
      · exact I.null
    · cases hs
  | commit a =>
    unfold AWorld.step at hs
    dsimp only at hs
    have ha := hop a rfl
    rw [commit_eq I ha] at hs
    split at hs
    · rename_i hc
      simp only [ok_bind, pure_ok, Except.ok.injEq] at hs
      subst hs
      have hfit : needBytes (liveBlocks h) ≤ W / 2 → w.a.bytes = needBytes (liveBlocks h) := by
        intro hle; rw [I.bytes]; exact Nat.mod_eq_of_lt (by rcases hW with rfl | rfl <;> omega)
      by_cases hb : w.a.storageSize < w.a.bytes
      · rw [if_pos hb]
        refine ⟨rfl, I.blocks, I.five, I.gen, I.count, I.osize, I.live, I.stale, I.bytes, ?_, ?_, ?_⟩
        · intro _ hle
          have e := hfit hle
          simp only [liveBlocks] at hle ⊢
          have := (le_roundUpToPowerOfTwo hW (n := w.a.bytes) (by omega) (by omega)).1
          omega
        · simp [ha]
        · intro h0; exact absurd h0 ha
      · rw [if_neg hb]
        refine ⟨rfl, I.blocks, I.five, I.gen, I.count, I.osize, I.live, I.stale, I.bytes, ?_, I.heap,
          I.null⟩
        intro _ hle
        have e := hfit hle
        simp only [liveBlocks] at hle ⊢
        omega
    · cases hs
  | decommit =>
    unfold AWorld.step at hs
    dsimp only at hs
    rw [decommit_eq I] at hs
    split at hs
    · rename_i hc
      simp only [ok_bind, pure_ok, Except.ok.injEq] at hs
      subst hs
      refine ⟨rfl, rfl, by simp [liveBlocks], ?_, I.count, I.osize, trivial, ?_, rfl, ?_, I.heap,
        I.null⟩
      · simp only [decommitCount]; rw [I.gen]; simp [Nat.add_mod]
      · intro k hd hk
        right
        dsimp only at hk
        rcases I.stale k hd hk with ⟨b, hb, e⟩ | ⟨g, hg1, hg2⟩
        · obtain ⟨pre, suf, e', h2, -⟩ := live_handle I hb
          rw [e, hk] at h2
          injection h2 with h2
          refine ⟨decommitCount h, by simp [decommitCount], ?_⟩
          rw [h2]; exact I.gen
        · exact ⟨g, by simp only [decommitCount]; omega, hg2⟩
      · intro hcm; cases hcm
    · cases hs
  | get t k =>
    unfold AWorld.step at hs
    dsimp only at hs
    split at hs
    · cases hs
    · rename_i x hk
      have hw : w' = w := by
        cases e : w.a.getPointer W t x with
        | ok p => rw [e] at hs; simp only [ok_bind, pure_ok, Except.ok.injEq] at hs; exact hs.symm
        | error f => rw [e] at hs; cases hs
      subst hw
      exact ⟨I.comm, I.blocks, I.five, I.gen, I.count, I.osize, I.live, I.stale, I.bytes, I.fits,
        I.heap, I.null⟩

/-- No call of `aligned_alloc` failed. -/
def AllocsOk (h : List AOp) : Prop := ∀ a, AOp.commit a ∈ h → a ≠ 0

theorem AInv_run {W : Nat} (hW : SizeT W) {g : Nat → Nat} {h : List AOp} {w : AWorld} (hr : AWorld.run W g h = .ok w)
    (ha : AllocsOk h) : AInv W h w := by
  induction h generalizing w with
  | nil =>
    unfold AWorld.run at hr
    injection hr with hr
    subst hr
    exact AInv_init g
  | cons op h ih =>
    unfold AWorld.run at hr
    cases e : AWorld.run W g h with
    | error f => rw [e] at hr; cases hr
    | ok w0 =>
      rw [e, ok_bind] at hr
      exact AInv_step hW (ih e (fun a hm => ha a (List.mem_cons_of_mem _ hm))) hr
        (fun a he => ha a (by rw [he]; exact List.mem_cons_self))

end Gemmlowp
