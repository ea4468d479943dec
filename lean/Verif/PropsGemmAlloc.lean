import Verif.GemmAllocProof
import Verif.PropsIntSizes
import Verif.PropsX86
/-!
# The buffers of the GEMM (C75)

`Life ok h` says that `h` is a history of calls on the allocators of a context, made by any number of calls of
`SingleThreadGemm` and `MultiThreadGemm` whose block sizes satisfy `ok`, with any interleaving of the threads.
-/
namespace Gemmlowp
namespace GemmAlloc

/-- Whole cache lines for `n` bytes. -/
def lines (n : Nat) : Nat := (n + 63) / 64 * 64

/-- The bytes that `SingleThreadGemm` needs: two packed sides with their sums and the packed result. -/
def bytesNeeded (b : BlockParams) : Nat :=
  lines (b.l2_rows * b.l2_depth) + lines (4 * b.l2_rows) + lines (b.l2_cols * b.l2_depth) + lines (4 * b.l2_cols) +
    lines (4 * (b.l2_rows * b.l2_cols))

theorem needOf_single (b : BlockParams) : needOf (singleRes b) = bytesNeeded b := by
  show (b.l2_rows * b.l2_depth * 1 + 63) / 64 * 64 + ((b.l2_rows * 4 + 63) / 64 * 64 +
    ((b.l2_cols * b.l2_depth * 1 + 63) / 64 * 64 + ((b.l2_cols * 4 + 63) / 64 * 64 +
      ((b.l2_rows * b.l2_cols * 4 + 63) / 64 * 64 + 0)))) = _
  unfold bytesNeeded lines
  omega

theorem Life.mono {ok ok' : BlockParams → Prop} (hok : ∀ b, ok b → ok' b) {h : List Ev} (hl : Life ok h) :
    Life ok' h := by
  induction hl with
  | new => exact .new
  | single b addr uses hb _ ih => exact .single b addr uses (hok b hb) ih
  | multi b tasks addr hb ht _ hbl ih => exact .multi b tasks addr (hok b hb) ht ih hbl

theorem Life.bound {ok : BlockParams → Prop} {h : List Ev} (hl : Life ok h) :
    ∃ B, Life (fun b => needOf (singleRes b) ≤ B) h := by
  induction hl with
  | new => exact ⟨0, .new⟩
  | single b addr uses _ _ ih =>
    obtain ⟨B, hB⟩ := ih
    exact ⟨max B (needOf (singleRes b)), .single b addr uses (Nat.le_max_right _ _)
      (Life.mono (fun b h => Nat.le_trans h (Nat.le_max_left _ _)) hB)⟩
  | multi b tasks addr _ ht _ hbl ih =>
    obtain ⟨B, hB⟩ := ih
    exact ⟨max B (needOf (singleRes b)), .multi b tasks addr (Nat.le_max_right _ _) ht
      (Life.mono (fun b h => Nat.le_trans h (Nat.le_max_left _ _)) hB) hbl⟩

/-- No `aligned_alloc` failed. -/
def AllocsSucceed (h : List Ev) : Prop := ∀ x a n, (x, AOp.commit a, n) ∈ h → a ≠ 0

theorem AllocsSucceed.hist {h : List Ev} (ha : AllocsSucceed h) (x : Aid) : AllocsOk (GemmAlloc.hist x h) := by
  intro a hm
  obtain ⟨n, hm⟩ := mem_proj.1 (List.mem_reverse.1 hm)
  exact ha x a n hm

/-- **C75.**  No sequence of GEMMs with the same context, single- or multi-threaded, under any interleaving of the
threads, fails an assertion of one of the allocators; and afterwards the context can be destroyed, which leaves
nothing of what the allocators had allocated. -/
theorem C75_protocol {W : Nat} (hW : SizeT W) (g : Aid → Nat → Nat) {h : List Ev} (hl : Life (fun _ => True) h)
    (ha : AllocsSucceed h) :
    ∃ w, Worlds.run W (Worlds.new g) h = .ok w ∧ ∀ x, (w x).a.destroy = .ok [] := by
  obtain ⟨B, hB⟩ := hl.bound
  obtain ⟨w, hw⟩ := run_all (W := W) (g := g) (tr := h) fun x =>
    run_of_valid hW (g x) (hB.clean x).valid (ha.hist x)
  refine ⟨w, hw, fun x => ?_⟩
  rw [C16_no_leak hW (run_proj hw x) (ha.hist x), if_pos ⟨(hB.clean x).comm, (hB.clean x).live⟩]

/-- **C75.**  Whenever the GEMM asks for a buffer, the pointer it gets is aligned to 64 bytes, all the bytes that it
accesses from there lie in the storage of the allocator, and no other buffer that is in use on this allocator
overlaps them.  The hypotheses: the block sizes need at most half of the range of `size_t`, `aligned_alloc`
returned multiples of 64 that are not null, and the storage lies in the address space. -/
theorem C75_buffers {W : Nat} (hW : SizeT W) (g : Aid → Nat → Nat) {p q : List Ev} {x : Aid} {t : TypeId} {k n : Nat}
    (hl : Life (fun b => bytesNeeded b ≤ W / 2) (p ++ (x, .get t k, n) :: q))
    (ha : AllocsSucceed p) (hal : ∀ x a n, (x, AOp.commit a, n) ∈ p → a % 64 = 0)
    {w : Worlds} (hw : Worlds.run W (Worlds.new g) p = .ok w)
    (hspace : (w x).a.storage + (w x).a.storageSize < W) :
    ∃ ptr, (w x).pointer W t k = .ok ptr ∧ ptr % 64 = 0 ∧ (w x).a.storage ≤ ptr ∧
      ptr + n ≤ (w x).a.storage + (w x).a.storageSize ∧
      ∀ b ∈ liveBlocks (hist x p), b.serial ≠ k → ∃ ptr', (w x).pointer W b.type b.serial = .ok ptr' ∧
        (ptr + n ≤ ptr' ∨ ptr' + b.bytes ≤ ptr) := by
  have hl' : Life (fun b => needOf (singleRes b) ≤ W / 2) (p ++ (x, .get t k, n) :: q) :=
    Life.mono (fun b h => by rw [needOf_single]; exact h) hl
  have hv : Valid (W / 2) (.get t k :: hist x p) := by
    have := (hl'.clean x).valid
    rw [hist_append, proj_cons_same, feed_cons] at this
    exact Valid_of_feed this
  obtain ⟨hvp, ⟨hc, m, hm⟩, hneed⟩ := hv
  have hr := run_proj hw x
  have hax := ha.hist x
  have halx : ∀ a, AOp.commit a ∈ hist x p → a % 64 = 0 := by
    intro a hm
    obtain ⟨n, hm⟩ := mem_proj.1 (List.mem_reverse.1 hm)
    exact hal x a n hm
  have hneed' : needBytes (liveBlocks (hist x p)) ≤ W / 2 := hneed
  -- the reservation is as large as what is accessed
  have hn : n ≤ m * t.size := by
    obtain ⟨m', h1, h2⟩ := hl'.labelled x (.get t k, n)
      (List.mem_append_right _ List.mem_cons_self) t k rfl
    have h3 := live_reservation hm
    unfold hist at h3
    rw [List.reverse_reverse] at h3
    dsimp only at h3
    rw [proj_append, reservations_append, List.getElem?_append_left (List.getElem?_eq_some_iff.1 h3).1, h3] at h1
    injection h1 with h1
    injection h1 with _ h1
    rw [h1]; exact h2
  obtain ⟨ptr, e1, e2, e3, e4⟩ := C14_aligned_in_bounds hW hr hax halx hc hneed' hspace _ hm
  refine ⟨ptr, e1, e2, e3, ?_, ?_⟩
  · unfold ABlock.bytes at e4; dsimp only at e4; omega
  · intro b hb hbk
    obtain ⟨p1, p2, f1, f2, f3⟩ := C14_disjoint hW hr hax hc hneed' hspace _ b hm hb (Ne.symm hbk)
    dsimp only at f1 e1
    rw [e1] at f1
    injection f1 with f1
    subst f1
    refine ⟨p2, f2, ?_⟩
    unfold ABlock.bytes at f3 ⊢; dsimp only at f3 ⊢; omega

/-- **C75**, 64-bit systems: if the sizes fit into `int` (C72), then the buffers fit. -/
theorem C75_fits_64 {k : KernelFormat} {reg rows cols depth nt : Nat} {t : Tuning}
    (h : IntSizes.SizesOk k reg rows cols depth nt t) {b : BlockParams}
    (hb : BlockParams.init k reg rows cols depth nt t = .ok b) : bytesNeeded b ≤ 2 ^ 64 / 2 := by
  obtain ⟨b', hb', good⟩ := init_good h.wf h.rows_pos h.cols_pos h.depth_pos h.threads t
  rw [hb] at hb'
  injection hb' with hb'
  subst hb'
  have P := IntSizes.parOk h good
  have h1 : (b.l2_rows : Int) * b.l2_depth ≤ 2147483647 := P.lhs.size
  have h2 : (b.l2_cols : Int) * b.l2_depth ≤ 2147483647 := P.rhs.size
  have h3 : (b.l2_rows : Int) * b.l2_cols ≤ 2147483647 := P.res
  have h4 : (b.l2_rows : Int) ≤ 1073741823 := P.lhs.l2w_le
  have h5 : (b.l2_cols : Int) ≤ 1073741823 := P.rhs.l2w_le
  rw [← Int.natCast_mul] at h1 h2 h3
  unfold bytesNeeded lines
  omega

/-- With a 32-bit `size_t` the storage never has more than `2^31` bytes. -/
theorem storage_le_32 {g : Nat → Nat} : ∀ {h : List AOp} {w : AWorld}, AWorld.run (2 ^ 32) g h = .ok w → AllocsOk h →
    w.a.storageSize ≤ 2 ^ 31
  | [], w, hr, _ => by
    unfold AWorld.run at hr
    injection hr with hr
    subst hr
    exact Nat.zero_le _
  | op :: h, w, hr, ha => by
    unfold AWorld.run at hr
    cases e : AWorld.run (2 ^ 32) g h with
    | error f => rw [e] at hr; cases hr
    | ok w0 =>
      rw [e, ok_bind] at hr
      have ha0 : AllocsOk h := fun a hm => ha a (List.mem_cons_of_mem _ hm)
      have I := AInv_run (Or.inl rfl) e ha0
      have ih := storage_le_32 e ha0
      cases op with
      | reserve t n =>
        unfold AWorld.step at hr
        dsimp only at hr
        rw [reserve_eq I] at hr
        split at hr
        · simp only [ok_bind, pure_ok, Except.ok.injEq] at hr
          subst hr
          exact ih
        · cases hr
      | commit a =>
        unfold AWorld.step at hr
        dsimp only at hr
        rw [commit_eq I (ha a List.mem_cons_self)] at hr
        split at hr
        · simp only [ok_bind, pure_ok, Except.ok.injEq] at hr
          subst hr
          by_cases hb : w0.a.storageSize < w0.a.bytes
          · rw [if_pos hb]
            dsimp only
            have hlt : w0.a.bytes < 2 ^ 32 := by rw [I.bytes]; omega
            by_cases hle : w0.a.bytes ≤ 2 ^ 31
            · exact (le_roundUpToPowerOfTwo (W := 2 ^ 32) (Or.inl rfl) (n := w0.a.bytes) (by omega) hle).2
            · rw [roundUpToPowerOfTwo_zero (by omega) hlt]; exact Nat.zero_le _
          · rw [if_neg hb]; exact ih
        · cases hr
      | decommit =>
        unfold AWorld.step at hr
        dsimp only at hr
        rw [decommit_eq I] at hr
        split at hr
        · simp only [ok_bind, pure_ok, Except.ok.injEq] at hr
          subst hr
          exact ih
        · cases hr
      | get t k =>
        unfold AWorld.step at hr
        dsimp only at hr
        split at hr
        · cases hr
        · rename_i x hk
          cases e' : w0.a.getPointer (2 ^ 32) t x with
          | ok p =>
            rw [e'] at hr; simp only [ok_bind, pure_ok, Except.ok.injEq] at hr; subst hr; exact ih
          | error f => rw [e'] at hr; cases hr

/-- **C75**, 32-bit systems: the bound of `C75_buffers` cannot be weakened.  At any time after any history, the storage
of every allocator is smaller than what block sizes beyond the bound need. -/
theorem C75_exact_32 (g : Aid → Nat → Nat) {p : List Ev} (ha : AllocsSucceed p) {w : Worlds}
    (hw : Worlds.run (2 ^ 32) (Worlds.new g) p = .ok w) (x : Aid) {b : BlockParams}
    (hb : ¬ bytesNeeded b ≤ 2 ^ 32 / 2) : (w x).a.storageSize < bytesNeeded b := by
  have := storage_le_32 (run_proj hw x) (ha.hist x)
  omega

/-- Tuning of 32-bit x86: internal/common.h:74-77 and 94-97. -/
def x86_32Tuning : Tuning := { l1Bytes := 32768, l2Bytes := 2097152, rhsTerm := id, factorIsOne := true }

theorem x86_32Tuning_ok : IntSizes.TuningOk x86_32Tuning :=
  ⟨by decide, by decide, by decide, by decide, fun q h0 h1 => by
    show -2147483648 ≤ q; omega, fun q h0 h1 => by
    have h1 : q ≤ 2097152 := h1
    show q ≤ 536870912; omega⟩

/-- The blocks of the product of a column of 32768 entries and a row of 16384 entries on 32-bit x86. -/
def outerBlocks : BlockParams :=
  { l1_rows := 4, l1_cols := 16384, l1_depth := 16, l2_rows := 32768, l2_cols := 16384, l2_depth := 16 }

/-- **Finding F47.**  On 32-bit x86 the product of a column of 32768 entries and a row of 16384 entries (512 MiB of
results) satisfies all the conditions on `int` (C72).  Its buffers need more than `2^31` bytes, for which
`RoundUpToPowerOfTwo` yields 0: `Commit` allocates no bytes at all, no assertion fails, and the pointers that
`GetPointer` returns lead behind the storage. -/
theorem C75_refuted_32 :
    IntSizes.SizesOk Asm.sse32Format 16 32768 16384 1 1 x86_32Tuning ∧
    BlockParams.init Asm.sse32Format 16 32768 16384 1 1 x86_32Tuning = .ok outerBlocks ∧
    ∃ w, Worlds.run (2 ^ 32) (Worlds.new fun _ _ => 0)
        (((singleCalls 0 outerBlocks 4096 []).take 6).map fun c => (.base, c)) = .ok w ∧
      (w .base).a.storage = 4096 ∧ (w .base).a.storageSize = 0 ∧
      (w .base).pointer (2 ^ 32) .uint8 0 = .ok 4096 ∧
      (w .base).pointer (2 ^ 32) .int32 4 = .ok 987136 := by
  refine ⟨⟨⟨sse32Format_wf, by decide, by decide, by decide, x86_32Tuning_ok, by decide, by decide, by decide,
    by decide, by decide, by decide, by decide, by decide, by decide, by decide, by decide⟩, by decide⟩,
    by decide +kernel, _, rfl, by decide +kernel, by decide +kernel, by decide +kernel, by decide +kernel⟩

/-! ## A concrete history -/

/-- Blocks of a small product. -/
def smallBlocks : BlockParams :=
  { l1_rows := 4, l1_cols := 4, l1_depth := 16, l2_rows := 8, l2_cols := 4, l2_depth := 16 }

/-- The interleaving that takes the next element of the lists named. -/
def shuffleBy {α : Type} : List (List α) → List Nat → Option (List α)
  | ls, [] => if ls.all (·.isEmpty) then some [] else none
  | ls, i :: is =>
    match ls[i]? with
    | some (x :: t) => (shuffleBy (ls.set i t) is).map (x :: ·)
    | _ => none

theorem shuffleBy_shuffle {α : Type} : ∀ {is : List Nat} {ls : List (List α)} {tr : List α},
    shuffleBy ls is = some tr → Shuffle ls tr
  | [], ls, tr, h => by
    unfold shuffleBy at h
    split at h
    · rename_i hall
      injection h with h
      subst h
      exact .done fun l hl => List.isEmpty_iff.1 (List.all_eq_true.1 hall l hl)
    · cases h
  | i :: is, ls, tr, h => by
    unfold shuffleBy at h
    split at h
    · rename_i x t hi
      cases hr : shuffleBy (ls.set i t) is with
      | none => rw [hr] at h; cases h
      | some tr' => rw [hr] at h; injection h with h; subst h; exact .step hi (shuffleBy_shuffle hr)
    · cases h

/-- What the two tasks of the example do. -/
def exampleTasks : List (List Ev) :=
  (List.range 2).map fun n => taskCalls (taskAlloc 2 n) 0 smallBlocks ⟨0, 1, smallBlocks.side .rhs⟩ (1280 * (n + 1))
    (if n = 0 then [.lhs .sums, .rhs .data, .result] else [.rhs .data])

/-- A GEMM with two threads, of which the second overtakes the first. -/
example : ∃ tr, Life (fun b => bytesNeeded b ≤ 2 ^ 32 / 2) tr ∧ tr.length = 19 ∧
    (Aid.base, AOp.get .uint8 0, 64) ∈ tr ∧ (Aid.worker 0, AOp.get .int32 2, 128) ∈ tr := by
  obtain ⟨tr, h, h1, h2⟩ : ∃ tr, shuffleBy exampleTasks [0, 1, 1, 0, 1, 0, 0, 1, 0, 1, 0, 1, 0, 0] = some tr ∧
      tr.length = 14 ∧ (Aid.worker 0, AOp.get .int32 2, 128) ∈ tr := ⟨_, rfl, by decide, by decide⟩
  have hs := shuffleBy_shuffle h
  refine ⟨_, .multi (tr := _) smallBlocks 2 640 (by decide) (by decide) .new
    (.block [.data] (fun n => 1280 * (n + 1)) (fun n => if n = 0 then [.lhs .sums, .rhs .data, .result] else [.rhs .data])
      (tr := tr) (rest := []) hs .done), ?_, ?_, ?_⟩
  · simp [multiStart, packedSide, h1]
  · simp [multiStart, packedSide, SideObj.use, PackedSide.fresh, BlockParams.side, smallBlocks, serial, proj,
      reserveCount]
  · simp [h2]

end GemmAlloc
end Gemmlowp
