import Verif.AllocProof
/-!
# Properties of the allocator (C14, C15, C16)

Histories are lists of calls, the most recent first; `AWorld.run W g h = .ok w` says that all calls of
`h` passed their assertions.  `AllocsOk h` says that no `aligned_alloc` failed (a failure aborts the
process, `C16_allocation_failure`).
-/
namespace Gemmlowp

/-- `GetPointer<t>` on the handle returned by the `k`-th `Reserve`. -/
def AWorld.pointer (W : Nat) (w : AWorld) (t : TypeId) (k : Nat) : M Nat :=
  match w.handles[k]? with
  | none => .error .oob
  | some h => w.a.getPointer W t h

/-- The storage is null or was returned by `aligned_alloc`. -/
theorem storage_mem {W : Nat} (hW : SizeT W) {g : Nat → Nat} {h : List AOp} {w : AWorld} (hr : AWorld.run W g h = .ok w)
    (ha : AllocsOk h) : w.a.storage = 0 ∨ AOp.commit w.a.storage ∈ h := by
  induction h generalizing w with
  | nil =>
    unfold AWorld.run at hr
    injection hr with hr
    subst hr
    exact Or.inl rfl
  | cons op h ih =>
    unfold AWorld.run at hr
    cases e : AWorld.run W g h with
    | error f => rw [e] at hr; cases hr
    | ok w0 =>
      rw [e, ok_bind] at hr
      have ha0 : AllocsOk h := fun a hm => ha a (List.mem_cons_of_mem _ hm)
      have I := AInv_run hW e ha0
      have ih' := (ih e ha0).imp_right (List.mem_cons_of_mem op)
      cases op with
      | reserve t n =>
        unfold AWorld.step at hr
        dsimp only at hr
        rw [reserve_eq I] at hr
        split at hr
        · simp only [ok_bind, pure_ok, Except.ok.injEq] at hr
          subst hr
          exact ih'
        · cases hr
      | commit a =>
        unfold AWorld.step at hr
        dsimp only at hr
        rw [commit_eq I (ha a List.mem_cons_self)] at hr
        split at hr
        · simp only [ok_bind, pure_ok, Except.ok.injEq] at hr
          subst hr
          by_cases hb : w0.a.storageSize < w0.a.bytes
          · rw [if_pos hb]; exact Or.inr List.mem_cons_self
          · rw [if_neg hb]; exact ih'
        · cases hr
      | decommit =>
        unfold AWorld.step at hr
        dsimp only at hr
        rw [decommit_eq I] at hr
        split at hr
        · simp only [ok_bind, pure_ok, Except.ok.injEq] at hr
          subst hr
          exact ih'
        · cases hr
      | get t k =>
        unfold AWorld.step at hr
        dsimp only at hr
        split at hr
        · cases hr
        · rename_i x hk
          cases e' : w0.a.getPointer W t x with
          | ok p =>
            rw [e'] at hr; simp only [ok_bind, pure_ok, Except.ok.injEq] at hr; subst hr; exact ih'
          | error f => rw [e'] at hr; cases hr

/-- Where a live block is. -/
theorem pointer_eq {W : Nat} (hW : SizeT W) {g : Nat → Nat} {h : List AOp} {w : AWorld} (hr : AWorld.run W g h = .ok w)
    (ha : AllocsOk h) (hc : committedIn h = true) (hneed : needBytes (liveBlocks h) ≤ W / 2)
    (hspace : w.a.storage + w.a.storageSize < W) {b : ABlock} (hb : b ∈ liveBlocks h) :
    ∃ pre suf, liveBlocks h = pre ++ b :: suf ∧
      w.pointer W b.type b.serial = .ok (w.a.storage + needBytes suf) ∧
      needBytes suf + b.bytes ≤ w.a.storageSize ∧
      needBytes suf + b.bytes ≤ needBytes (b :: suf) := by
  have I := AInv_run hW hr ha
  obtain ⟨pre, suf, e, h1, h2⟩ := live_handle I hb
  have hf := I.fits (by rw [I.comm]; exact hc) hneed
  have hle : needBytes suf + b.bytes ≤ needBytes (b :: suf) := by
    simp only [needBytes]; omega
  have htot : needBytes (liveBlocks h) = needBytes pre + needBytes (b :: suf) := by
    rw [e, needBytes_append]
  refine ⟨pre, suf, e, ?_, by omega, hle⟩
  unfold AWorld.pointer
  rw [h1]
  dsimp only
  rw [h2 hc]
  rw [Nat.mod_eq_of_lt (a := needBytes suf) (by rcases hW with rfl | rfl <;> omega), Nat.mod_eq_of_lt]
  rcases hW with rfl | rfl <;> omega

/-- **C14.**  After `Commit`, `GetPointer` on the handle of every block reserved in this
generation returns an address that is a multiple of 64, and the bytes asked for lie inside the
storage.  The hypotheses on the environment: `aligned_alloc` returned multiples of 64, and the storage
(one past its end included) lies in the address space. -/
theorem C14_aligned_in_bounds {W : Nat} (hW : SizeT W) {g : Nat → Nat} {h : List AOp} {w : AWorld}
    (hr : AWorld.run W g h = .ok w) (ha : AllocsOk h) (hal : ∀ a, AOp.commit a ∈ h → a % 64 = 0)
    (hc : committedIn h = true) (hneed : needBytes (liveBlocks h) ≤ W / 2)
    (hspace : w.a.storage + w.a.storageSize < W) (b : ABlock) (hb : b ∈ liveBlocks h) :
    ∃ p, w.pointer W b.type b.serial = .ok p ∧ p % 64 = 0 ∧ w.a.storage ≤ p ∧
      p + b.bytes ≤ w.a.storage + w.a.storageSize := by
  obtain ⟨pre, suf, e, hp, h1, h2⟩ := pointer_eq hW hr ha hc hneed hspace hb
  refine ⟨_, hp, ?_, by omega, by omega⟩
  have hs : w.a.storage % 64 = 0 := by
    rcases storage_mem hW hr ha with h0 | hm
    · rw [h0]
    · exact hal _ hm
  have := needBytes_mod suf
  omega

/-- **C14**, disjointness: the bytes of two different blocks of this generation do not overlap. -/
theorem C14_disjoint {W : Nat} (hW : SizeT W) {g : Nat → Nat} {h : List AOp} {w : AWorld}
    (hr : AWorld.run W g h = .ok w) (ha : AllocsOk h)
    (hc : committedIn h = true) (hneed : needBytes (liveBlocks h) ≤ W / 2)
    (hspace : w.a.storage + w.a.storageSize < W) (b b' : ABlock) (hb : b ∈ liveBlocks h)
    (hb' : b' ∈ liveBlocks h) (hne : b.serial ≠ b'.serial) :
    ∃ p p', w.pointer W b.type b.serial = .ok p ∧ w.pointer W b'.type b'.serial = .ok p' ∧
      (p + b.bytes ≤ p' ∨ p' + b'.bytes ≤ p) := by
  obtain ⟨pre, suf, e, hp, h1, h2⟩ := pointer_eq hW hr ha hc hneed hspace hb
  obtain ⟨pre', suf', e', hp', h1', h2'⟩ := pointer_eq hW hr ha hc hneed hspace hb'
  refine ⟨_, _, hp, hp', ?_⟩
  have key : ∀ (b b' : ABlock) (pre pre' suf suf' : List ABlock),
      pre ++ b :: suf = pre' ++ b' :: suf' → suf.length < suf'.length →
      needBytes (b :: suf) ≤ needBytes suf' := by
    intro b b' pre pre' suf suf' e hl
    have hs : b :: suf = (pre' ++ b' :: suf').drop pre.length := by
      rw [← e]; simp
    have hlen : (pre ++ b :: suf).length = (pre' ++ b' :: suf').length := by rw [e]
    simp only [List.length_append, List.length_cons] at hlen
    have hs2 : b :: suf = suf'.drop (pre.length - pre'.length - 1) := by
      rw [hs, List.drop_append, List.drop_eq_nil_of_le (by omega), List.nil_append]
      have : pre.length - pre'.length = (pre.length - pre'.length - 1) + 1 := by omega
      rw [this, List.drop_succ_cons]; simp
    have hsplit := List.take_append_drop (pre.length - pre'.length - 1) suf'
    rw [← hs2] at hsplit
    rw [← hsplit, needBytes_append]
    omega
  rw [e] at e'
  rcases Nat.lt_trichotomy suf.length suf'.length with hl | hl | hl
  · have := key _ _ _ _ _ _ e' hl
    left; omega
  · exfalso
    have hlen : (pre ++ b :: suf).length = (pre' ++ b' :: suf').length := by rw [e']
    simp only [List.length_append, List.length_cons] at hlen
    have := (List.append_inj e' (by omega)).2
    injection this with h3 h4
    exact hne (by rw [h3])
  · have := key _ _ _ _ _ _ e'.symm hl
    right; omega

/-- Two reservations, a commit: the hypotheses of C14 are met and the blocks are where the theorem
says. -/
example : ∃ w, AWorld.run (2 ^ 64) (fun _ => 7) [.commit 640, .reserve .uint8 3, .reserve .int32 17] = .ok w ∧
    w.pointer (2 ^ 64) .int32 0 = .ok 640 ∧ w.pointer (2 ^ 64) .uint8 1 = .ok 768 ∧ w.a.storageSize = 256 ∧
    needBytes (liveBlocks [.commit 640, .reserve .uint8 3, .reserve .int32 17]) = 192 :=
  ⟨_, rfl, by decide, by decide, by decide, by decide⟩

/-- The size computation of `Reserve` wraps around silently: `2^62` elements of four bytes take no room
at all and the next block starts at the same address. -/
theorem C14_wrap_fails : ∃ w,
    AWorld.run (2 ^ 64) (fun _ => 0) [.commit 640, .reserve .uint8 3, .reserve .int32 (2 ^ 62)] = .ok w ∧
    w.a.storageSize = 64 ∧ w.pointer (2 ^ 64) .int32 0 = .ok 640 ∧ w.pointer (2 ^ 64) .uint8 1 = .ok 640 :=
  ⟨_, rfl, by decide, by decide, by decide⟩

/-! ## C15 -/

/-- **C15.**  A call passes the assertions of the allocator exactly if the protocol allows it.  The
number of calls of `Decommit` is assumed below `W` (the generation counter is a `size_t`). -/
theorem C15_checked {W : Nat} (hW : SizeT W) {g : Nat → Nat} {h : List AOp} {w : AWorld} {op : AOp}
    (hr : AWorld.run W g h = .ok w) (ha : AllocsOk (op :: h)) (hd : decommitCount h < W) :
    (∃ w', w.step W op = .ok w') ↔ allowed h op := by
  have I := AInv_run hW hr (fun a hm => ha a (List.mem_cons_of_mem _ hm))
  cases op with
  | reserve t n =>
    unfold AWorld.step allowed
    dsimp only
    rw [reserve_eq I]
    split
    · rename_i hc; exact ⟨fun _ => hc, fun _ => ⟨_, rfl⟩⟩
    · rename_i hc; exact ⟨fun hw => (by obtain ⟨w', hw⟩ := hw; cases hw), fun hc' => absurd hc' hc⟩
  | commit a =>
    unfold AWorld.step allowed
    dsimp only
    rw [commit_eq I (ha a List.mem_cons_self)]
    split
    · rename_i hc; exact ⟨fun _ => hc, fun _ => ⟨_, rfl⟩⟩
    · rename_i hc; exact ⟨fun hw => (by obtain ⟨w', hw⟩ := hw; cases hw), fun hc' => absurd hc' hc⟩
  | decommit =>
    unfold AWorld.step allowed
    dsimp only
    rw [decommit_eq I]
    split
    · rename_i hc; exact ⟨fun _ => hc, fun _ => ⟨_, rfl⟩⟩
    · rename_i hc; exact ⟨fun hw => (by obtain ⟨w', hw⟩ := hw; cases hw), fun hc' => absurd hc' hc⟩
  | get t k => exact get_iff I hd t k

theorem reserveCount_append (l1 l2 : List AOp) :
    reserveCount (l1 ++ l2) = reserveCount l1 + reserveCount l2 := by
  induction l1 with
  | nil => simp [reserveCount]
  | cons op l ih => cases op <;> simp only [List.cons_append, reserveCount, ih] <;> omega

theorem liveBlocks_after (later earlier : List AOp) :
    ∀ b ∈ liveBlocks (later ++ .decommit :: earlier), reserveCount earlier ≤ b.serial := by
  induction later with
  | nil => intro b hb; simp [liveBlocks] at hb
  | cons op l ih =>
    intro b hb
    cases op with
    | reserve t n =>
      simp only [List.cons_append, liveBlocks, List.mem_cons] at hb
      rcases hb with rfl | hb
      · simp only [reserveCount_append, reserveCount]; omega
      · exact ih b hb
    | commit a => exact ih b hb
    | decommit => simp [liveBlocks] at hb
    | get t k => exact ih b hb

/-- **C15**, stale handles: once `Decommit` has been called, a handle obtained before it is rejected
by an assertion, whatever is reserved and committed afterwards. -/
theorem C15_stale_handle {W : Nat} (hW : SizeT W) {g : Nat → Nat} {later earlier : List AOp} {w : AWorld}
    (hr : AWorld.run W g (later ++ .decommit :: earlier) = .ok w)
    (ha : AllocsOk (later ++ .decommit :: earlier))
    (hd : decommitCount (later ++ .decommit :: earlier) < W) (t : TypeId) (k : Nat)
    (hk : k < reserveCount earlier) : w.pointer W t k = .error .assertion := by
  have I := AInv_run hW hr ha
  have hn := mt (get_iff I hd t k).1 (by
    rintro ⟨-, n, hm⟩
    have := liveBlocks_after _ _ _ hm
    dsimp only at this; omega)
  have hlen : k < w.handles.length := by
    rw [I.count, reserveCount_append]; simp only [reserveCount]; omega
  unfold AWorld.pointer
  unfold AWorld.step at hn
  dsimp only at hn
  rw [List.getElem?_eq_getElem hlen] at hn ⊢
  dsimp only at hn ⊢
  generalize w.handles[k] = x at *
  -- all failures of `getPointer` are assertions
  cases e : w.a.getPointer W t x with
  | ok p => rw [e] at hn; exact absurd ⟨_, rfl⟩ hn
  | error f =>
    unfold Alloc.getPointer at e
    cases h1 : assertM w.a.committed with
    | error f1 =>
      rw [h1, error_bind] at e
      unfold assertM at h1
      split at h1 <;> cases h1
      cases e; rfl
    | ok u1 =>
      rw [h1, ok_bind] at e
      by_cases h2 : x.index < w.a.blocks
      · rw [decide_eq_true h2, assertM_true, ok_bind] at e
        by_cases h3 : x.generation = w.a.generation
        · rw [decide_eq_true h3, assertM_true, ok_bind] at e
          by_cases h4 : x.type = t
          · rw [decide_eq_true h4, assertM_true, ok_bind, Buf.read_ok] at e
            · cases e
            · rw [I.osize]; have := I.five; have := I.blocks; omega
          · rw [decide_eq_false h4] at e; cases e; rfl
        · rw [decide_eq_false h3] at e; cases e; rfl
      · rw [decide_eq_false h2] at e; cases e; rfl

/-- A handle of the first generation is rejected in the second, although the second has a block at
the same index. -/
example : ((AWorld.run (2 ^ 64) (fun _ => 0)
    [.commit 640, .reserve .uint8 3, .decommit, .commit 128, .reserve .uint8 3]).toOption.map
      fun w => (w.pointer (2 ^ 64) .uint8 0, w.pointer (2 ^ 64) .uint8 1)) =
    some (.error .assertion, .ok 128) := by decide +kernel

/-! ## C16 -/

/-- **C16.**  `Commit` makes the storage large enough, never shrinks it, and keeps it if it is large
enough already. -/
theorem C16_commit {W : Nat} (hW : SizeT W) {g : Nat → Nat} {h : List AOp} {w w' : AWorld} {a : Nat}
    (hr : AWorld.run W g h = .ok w) (ha : AllocsOk (.commit a :: h))
    (hneed : needBytes (liveBlocks h) ≤ W / 2) (hs : w.step W (.commit a) = .ok w') :
    needBytes (liveBlocks h) ≤ w'.a.storageSize ∧ w.a.storageSize ≤ w'.a.storageSize ∧
    (needBytes (liveBlocks h) ≤ w.a.storageSize →
      w'.a.storage = w.a.storage ∧ w'.a.storageSize = w.a.storageSize ∧ w'.a.heap = w.a.heap) ∧
    (w.a.storageSize < needBytes (liveBlocks h) → w'.a.storage = a ∧ w'.a.heap = [a] ∧
      (needBytes (liveBlocks h) ≤ 2 ^ 32 → ∃ m, w'.a.storageSize = 2 ^ m ∧
        2 ^ m < 2 * needBytes (liveBlocks h))) := by
  have I := AInv_run hW hr (fun a hm => ha a (List.mem_cons_of_mem _ hm))
  unfold AWorld.step at hs
  dsimp only at hs
  rw [commit_eq I (ha a List.mem_cons_self)] at hs
  have hbytes : w.a.bytes = needBytes (liveBlocks h) := by
    rw [I.bytes]; exact Nat.mod_eq_of_lt (by rcases hW with rfl | rfl <;> omega)
  have h64 := needBytes_mod (liveBlocks h)
  split at hs
  · simp only [ok_bind, pure_ok, Except.ok.injEq] at hs
    subst hs
    by_cases hb : w.a.storageSize < w.a.bytes
    · rw [if_pos hb]
      have h1 := (le_roundUpToPowerOfTwo hW (n := w.a.bytes) (by omega) (by omega)).1
      rw [hbytes] at hb h1 ⊢
      refine ⟨h1, by dsimp only; omega, fun hc => by omega, fun _ => ⟨rfl, rfl, ?_⟩⟩
      intro hle
      obtain ⟨m, e1, e2, e3⟩ := roundUpToPowerOfTwo_pow hW (by omega) hle hneed
      exact ⟨m, e1, e3 (by omega)⟩
    · rw [if_neg hb]
      rw [hbytes] at hb
      exact ⟨by dsimp only; omega, Nat.le_refl _, fun _ => ⟨rfl, rfl, rfl⟩, fun hc => by omega⟩
  · cases hs

example : ((AWorld.run (2 ^ 64) (fun _ => 0)
    [.commit 6400, .reserve .uint8 65, .decommit, .commit 640, .reserve .uint8 3, .decommit,
      .commit 128, .reserve .int16 33]).toOption.map fun w => (w.a.storage, w.a.storageSize)) =
    some (128, 128) := by decide +kernel

/-- **C16**, the size of the storage is 0, a power of two, or above `2^32`. -/
theorem C16_power_of_two {W : Nat} (hW : SizeT W) {g : Nat → Nat} {h : List AOp} {w : AWorld}
    (hr : AWorld.run W g h = .ok w) (ha : AllocsOk h) (hsz : w.a.storageSize ≤ 2 ^ 32)
    (h0 : w.a.storageSize ≠ 0) : ∃ m, w.a.storageSize = 2 ^ m := by
  induction h generalizing w with
  | nil =>
    unfold AWorld.run at hr
    injection hr with hr
    subst hr
    exact absurd rfl h0
  | cons op h ih =>
    unfold AWorld.run at hr
    cases e : AWorld.run W g h with
    | error f => rw [e] at hr; cases hr
    | ok w0 =>
      rw [e, ok_bind] at hr
      have ha0 : AllocsOk h := fun a hm => ha a (List.mem_cons_of_mem _ hm)
      have I := AInv_run hW e ha0
      cases op with
      | reserve t n =>
        unfold AWorld.step at hr
        dsimp only at hr
        rw [reserve_eq I] at hr
        split at hr
        · simp only [ok_bind, pure_ok, Except.ok.injEq] at hr
          subst hr
          exact ih (w := w0) e ha0 hsz h0
        · cases hr
      | commit a =>
        unfold AWorld.step at hr
        dsimp only at hr
        rw [commit_eq I (ha a List.mem_cons_self)] at hr
        split at hr
        · simp only [ok_bind, pure_ok, Except.ok.injEq] at hr
          subst hr
          by_cases hb : w0.a.storageSize < w0.a.bytes
          · rw [if_pos hb] at hsz h0 ⊢
            dsimp only at hsz h0 ⊢
            have hlt : w0.a.bytes < W := by
              rw [I.bytes]; rcases hW with rfl | rfl <;> omega
            have hle : w0.a.bytes ≤ 2 ^ 32 ∧ w0.a.bytes ≤ W / 2 := by
              rcases hW with rfl | rfl
              · refine ⟨by omega, Nat.le_of_not_lt fun hgt => ?_⟩
                exact h0 (roundUpToPowerOfTwo_zero (by omega) hlt)
              · have : w0.a.bytes ≤ 2 ^ 32 := by
                  apply Nat.le_of_not_lt
                  intro hgt
                  rw [roundUpToPowerOfTwo_eq] at hsz h0
                  have e1 : (w0.a.bytes + 2 ^ 64 - 1) % 2 ^ 64 = w0.a.bytes - 1 := by omega
                  rw [e1] at hsz h0
                  have h1 := le_smear (w0.a.bytes - 1)
                  have h2 : smear (w0.a.bytes - 1) < 2 ^ 64 := smear_lt (by omega)
                  omega
                omega
            obtain ⟨m, e1, -, -⟩ :=
              roundUpToPowerOfTwo_pow hW (n := w0.a.bytes) (by omega) hle.1 hle.2
            exact ⟨m, e1⟩
          · rw [if_neg hb] at hsz h0 ⊢; exact ih (w := w0) e ha0 hsz h0
        · cases hr
      | decommit =>
        unfold AWorld.step at hr
        dsimp only at hr
        rw [decommit_eq I] at hr
        split at hr
        · simp only [ok_bind, pure_ok, Except.ok.injEq] at hr
          subst hr
          exact ih (w := w0) e ha0 hsz h0
        · cases hr
      | get t k =>
        unfold AWorld.step at hr
        dsimp only at hr
        split at hr
        · cases hr
        · rename_i x hk
          cases e' : w0.a.getPointer W t x with
          | ok p =>
            rw [e'] at hr; simp only [ok_bind, pure_ok, Except.ok.injEq] at hr; subst hr
            exact ih (w := w0) e ha0 hsz h0
          | error f => rw [e'] at hr; cases hr

/-- Above `2^32` the "power of two" is none: 32 bits of smearing do not reach the low bits. -/
theorem C16_power_of_two_fails :
    roundUpToPowerOfTwo (2 ^ 64) (2 ^ 40 + 64) = 2 ^ 41 - 448 := by decide

/-- **C16**, no leak and no double free: an object that is not committed and has no reservation
pending can be destroyed, and then nothing it allocated is left. -/
theorem C16_no_leak {W : Nat} (hW : SizeT W) {g : Nat → Nat} {h : List AOp} {w : AWorld}
    (hr : AWorld.run W g h = .ok w) (ha : AllocsOk h) :
    w.a.destroy = if committedIn h = false ∧ liveBlocks h = [] then .ok [] else .error .assertion := by
  have I := AInv_run hW hr ha
  unfold Alloc.destroy Alloc.deallocateStorage heapFree
  rw [I.comm, I.blocks]
  cases hc : committedIn h
  · by_cases hl : liveBlocks h = []
    · simp only [hl, and_self, if_true]
      rw [I.heap]
      by_cases hs : w.a.storage = 0
      · rw [if_pos hs]; simp only [List.length_nil, decide_true, Bool.not_false, assertM_true, ok_bind,
          pure_ok, if_pos hs]
      · rw [if_neg hs]
        simp only [if_neg hs, List.length_nil, decide_true, Bool.not_false, assertM_true, ok_bind, pure_ok,
          List.mem_singleton, if_true, List.erase_cons_head]
    · have : ¬ (liveBlocks h).length = 0 := by
        intro h0; exact hl (List.length_eq_zero_iff.1 h0)
      rw [decide_eq_false this]
      simp only [hl, and_false, if_false]
      rfl
  · simp only [reduceCtorEq, false_and, if_false]; rfl

/-- A failing `aligned_alloc` is caught by the release-build assertion. -/
theorem C16_allocation_failure (W : Nat) (a : Alloc) (h1 : a.committed = false)
    (h2 : a.storageSize < a.bytes) (h3 : 0 < roundUpToPowerOfTwo W a.bytes)
    (hheap : a.storage = 0 ∨ a.storage ∈ a.heap) : a.commit W 0 = .error .assertion := by
  unfold Alloc.commit
  generalize roundUpToPowerOfTwo W = f at *
  rw [h1]
  simp only [Bool.not_false, assertM_true, ok_bind, gt_iff_lt]
  rw [if_pos h2]
  have hd : ∃ hp, a.deallocateStorage = .ok { a with heap := hp, storageSize := 0 } := by
    unfold Alloc.deallocateStorage heapFree
    rw [h1]
    simp only [Bool.not_false, assertM_true, ok_bind]
    by_cases hs : a.storage = 0
    · rw [if_pos hs]; exact ⟨_, rfl⟩
    · rw [if_neg hs, if_pos (hheap.resolve_left hs)]; exact ⟨_, rfl⟩
  obtain ⟨hp, hd⟩ := hd
  rw [hd, ok_bind, pure_ok, ok_bind]
  dsimp only
  rw [decide_eq_false (by omega)]
  rfl

end Gemmlowp
