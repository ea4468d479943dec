import Verif.RegAlloc
/-!
# C81: the bookkeeping of registers in the generators of the meta kernels
-/
namespace Gemmlowp.RegAlloc

/-- The physical registers of a register, as the architecture has it: a quad register of 32-bit ARM is two double ones. -/
def cells32 : Reg32 → List Cell
  | .r n => [.gen n]
  | .d n => [.vec n]
  | .q n => [.vec (2 * n), .vec (2 * n + 1)]

@[inherit_doc cells32] def cells64 : Reg64 → List Cell
  | .x n => [.gen n]
  | .v _ n => [.vec n]

/-- The registers that answer a request. -/
def Fits32 : Kind → Reg32 → Prop
  | .double m, .d n => m ≤ n ∧ n < 32
  | .quad m, .q n => m ≤ n ∧ n < 16
  | .general, .r n => n < 16
  | _, _ => False

@[inherit_doc Fits32] def Fits64 : Kind → Reg64 → Prop
  | .double m, .v b n => b = 64 ∧ m ≤ n ∧ n < 32
  | .quad m, .v b n => b = 128 ∧ m ≤ n ∧ n < 32
  | .general, .x n => n < 30
  | _, _ => False

/-- A physical register is marked as in use. -/
def Used (s : Regs) : Cell → Prop
  | .gen n => n ∈ s.gen
  | .vec n => n ∈ s.vec

/-- What each single operation does. -/
structure Good (A : Alloc) (cells : A.Reg → List Cell) (Fits : Kind → A.Reg → Prop) : Prop where
  get : ∀ {k s r s'}, A.alloc k s = .ok (r, s') → Fits k r ∧ (∀ c ∈ cells r, ¬ Used s c) ∧
    (∀ c, Used s' c ↔ Used s c ∨ c ∈ cells r) ∧ ∀ c, c ∈ A.clobbers s' ↔ c ∈ A.clobbers s ∨ c ∈ cells r
  fail : ∀ {k s e}, A.alloc k s = .error e → e = .allocation ∧ ∀ r, Fits k r → ∃ c ∈ cells r, Used s c
  put : ∀ {r s}, (∀ c ∈ cells r, Used s c) → ∃ s', A.free r s = .ok s' ∧
    (∀ c, Used s' c ↔ Used s c ∧ c ∉ cells r) ∧ ∀ c, c ∈ A.clobbers s' ↔ c ∈ A.clobbers s
  start : A.clobbers init = []
  some : ∀ r, cells r ≠ []

theorem mem_add {x y : Nat} {s : List Nat} : y ∈ add x s ↔ y ∈ s ∨ y = x := by
  unfold add
  split
  · constructor
    · exact .inl
    · rintro (h | rfl) <;> assumption
  · rw [List.mem_cons, or_comm]

theorem mem_remove {x y : Nat} {s : List Nat} : y ∈ remove x s ↔ y ∈ s ∧ y ≠ x := by
  unfold remove
  simp

theorem first_some {lo hi i : Nat} {p : Nat → Bool} (h : first lo hi p = some i) : p i = true ∧ lo ≤ i ∧ i < hi := by
  unfold first at h
  have h1 := List.find?_some h
  have h2 := List.mem_of_find?_eq_some h
  rw [List.mem_range'_1] at h2
  exact ⟨h1, by omega, by omega⟩

theorem first_none {lo hi : Nat} {p : Nat → Bool} (h : first lo hi p = none) {i : Nat} (h1 : lo ≤ i) (h2 : i < hi) :
    p i = false := by
  unfold first at h
  rw [List.find?_eq_none] at h
  have := h i (List.mem_range'_1.2 ⟨h1, by omega⟩)
  simpa using this

theorem mem_clobbers32 {s : Regs} {c : Cell} : c ∈ clobbers32 s ↔ (∃ n ∈ s.genEver, c = .gen n) ∨ ∃ n ∈ s.vecEver, c = .vec n := by
  unfold clobbers32
  simp only [List.mem_append, List.mem_map, List.mem_mergeSort]
  constructor
  · rintro (⟨n, h, rfl⟩ | ⟨n, h, rfl⟩)
    · exact .inl ⟨n, h, rfl⟩
    · exact .inr ⟨n, h, rfl⟩
  · rintro (⟨n, h, rfl⟩ | ⟨n, h, rfl⟩)
    · exact .inl ⟨n, h, rfl⟩
    · exact .inr ⟨n, h, rfl⟩

theorem mem_clobbers64 {s : Regs} {c : Cell} : c ∈ clobbers64 s ↔ (∃ n ∈ s.genEver, c = .gen n) ∨ ∃ n ∈ s.vecEver, c = .vec n := by
  rw [← mem_clobbers32]
  unfold clobbers64 clobbers32
  simp only [List.mem_append, List.mem_map, List.mem_mergeSort]

theorem good32 : Good arm32 cells32 Fits32 where
  get := by
    intro k s r s' h
    show _ ∧ _ ∧ _ ∧ ∀ c, c ∈ clobbers32 s' ↔ c ∈ clobbers32 s ∨ c ∈ cells32 r
    simp only [mem_clobbers32]
    change alloc32 k s = _ at h
    cases k with
    | double m =>
      simp only [alloc32, double32] at h
      split at h
      · rename_i i hi
        obtain ⟨h1, h2, h3⟩ := first_some hi
        cases h
        refine ⟨⟨h2, h3⟩, ?_, ?_, ?_⟩
        · simpa [cells32, Used] using h1
        · rintro (n | n) <;> simp [cells32, Used, mem_add]
        · rintro (n | n) <;> simp [cells32, mem_add]
      · cases h
    | quad m =>
      simp only [alloc32, quad32] at h
      split at h
      · rename_i i hi
        obtain ⟨h1, h2, h3⟩ := first_some hi
        cases h
        refine ⟨⟨h2, h3⟩, ?_, ?_, ?_⟩
        · simpa [cells32, Used, Nat.mul_comm] using h1
        · rintro (n | n) <;> simp [cells32, Used, mem_add, Nat.mul_comm, or_assoc]
        · rintro (n | n) <;> simp [cells32, mem_add, Nat.mul_comm, or_assoc]
      · cases h
    | general =>
      simp only [alloc32, general32] at h
      split at h
      · rename_i i hi
        obtain ⟨h1, h2, h3⟩ := first_some hi
        cases h
        refine ⟨h3, ?_, ?_, ?_⟩
        · simpa [cells32, Used] using h1
        · rintro (n | n) <;> simp [cells32, Used, mem_add]
        · rintro (n | n) <;> simp [cells32, mem_add]
      · cases h
  fail := by
    intro k s e h
    change alloc32 k s = _ at h
    cases k with
    | double m =>
      simp only [alloc32, double32] at h
      split at h
      · cases h
      · rename_i hn
        cases h
        refine ⟨rfl, fun r hr => ?_⟩
        cases r with
        | d n =>
          have := first_none hn hr.1 hr.2
          exact ⟨.vec n, by simp [cells32], by simpa [Used] using this⟩
        | r n => exact hr.elim
        | q n => exact hr.elim
    | quad m =>
      simp only [alloc32, quad32] at h
      split at h
      · cases h
      · rename_i hn
        cases h
        refine ⟨rfl, fun r hr => ?_⟩
        cases r with
        | q n =>
          have := first_none hn hr.1 hr.2
          simp only [decide_eq_false_iff_not] at this
          by_cases h0 : n * 2 ∈ s.vec
          · exact ⟨.vec (2 * n), by simp [cells32], by simpa [Used, Nat.mul_comm] using h0⟩
          · have h1 : n * 2 + 1 ∈ s.vec := Classical.byContradiction fun h1 => this ⟨h0, h1⟩
            exact ⟨.vec (2 * n + 1), by simp [cells32], by simpa [Used, Nat.mul_comm] using h1⟩
        | r n => exact hr.elim
        | d n => exact hr.elim
    | general =>
      simp only [alloc32, general32] at h
      split at h
      · cases h
      · rename_i hn
        cases h
        refine ⟨rfl, fun r hr => ?_⟩
        cases r with
        | r n =>
          have := first_none hn (Nat.zero_le n) hr
          exact ⟨.gen n, by simp [cells32], by simpa [Used] using this⟩
        | d n => exact hr.elim
        | q n => exact hr.elim
  put := by
    intro r s h
    show ∃ s', free32 r s = _ ∧ _ ∧ ∀ c, c ∈ clobbers32 s' ↔ c ∈ clobbers32 s
    cases r with
    | r n =>
      have h0 : n ∈ s.gen := h (.gen n) (by simp [cells32])
      refine ⟨{ s with gen := remove n s.gen }, by rw [free32, if_pos h0], ?_, fun c => Iff.rfl⟩
      rintro (m | m) <;> simp [cells32, Used, mem_remove]
    | d n =>
      have h0 : n ∈ s.vec := h (.vec n) (by simp [cells32])
      refine ⟨{ s with vec := remove n s.vec }, by rw [free32, if_pos h0], ?_, fun c => Iff.rfl⟩
      rintro (m | m) <;> simp [cells32, Used, mem_remove]
    | q n =>
      have h0 : n * 2 ∈ s.vec := by rw [Nat.mul_comm]; exact h (.vec (2 * n)) (by simp [cells32])
      have h1 : n * 2 + 1 ∈ s.vec := by rw [Nat.mul_comm]; exact h (.vec (2 * n + 1)) (by simp [cells32])
      refine ⟨{ s with vec := remove (n * 2 + 1) (remove (n * 2) s.vec) }, by rw [free32, if_pos h0, if_pos h1], ?_, fun c => Iff.rfl⟩
      rintro (m | m) <;> simp [cells32, Used, mem_remove, Nat.mul_comm, and_assoc]
  start := by show clobbers32 init = []; simp [clobbers32, init]
  some := by rintro (n | n | n) <;> simp [cells32]

theorem good64 : Good arm64 cells64 Fits64 where
  get := by
    intro k s r s' h
    show _ ∧ _ ∧ _ ∧ ∀ c, c ∈ clobbers64 s' ↔ c ∈ clobbers64 s ∨ c ∈ cells64 r
    simp only [mem_clobbers64]
    change alloc64 k s = _ at h
    cases k with
    | double m | quad m =>
      simp only [alloc64, vectorNum64] at h
      split at h
      · rename_i i hi
        obtain ⟨h1, h2, h3⟩ := first_some hi
        cases h
        refine ⟨⟨rfl, h2, h3⟩, ?_, ?_, ?_⟩
        · simpa [cells64, Used] using h1
        · rintro (n | n) <;> simp [cells64, Used, mem_add]
        · rintro (n | n) <;> simp [cells64, mem_add]
      · cases h
    | general =>
      simp only [alloc64, general64] at h
      split at h
      · rename_i i hi
        obtain ⟨h1, h2, h3⟩ := first_some hi
        cases h
        refine ⟨h3, ?_, ?_, ?_⟩
        · simpa [cells64, Used] using h1
        · rintro (n | n) <;> simp [cells64, Used, mem_add]
        · rintro (n | n) <;> simp [cells64, mem_add]
      · cases h
  fail := by
    intro k s e h
    change alloc64 k s = _ at h
    cases k with
    | double m | quad m =>
      simp only [alloc64, vectorNum64] at h
      split at h
      · cases h
      · rename_i hn
        cases h
        refine ⟨rfl, fun r hr => ?_⟩
        cases r with
        | v b n =>
          have := first_none hn hr.2.1 hr.2.2
          exact ⟨.vec n, by simp [cells64], by simpa [Used] using this⟩
        | x n => exact hr.elim
    | general =>
      simp only [alloc64, general64] at h
      split at h
      · cases h
      · rename_i hn
        cases h
        refine ⟨rfl, fun r hr => ?_⟩
        cases r with
        | x n =>
          have := first_none hn (Nat.zero_le n) hr
          exact ⟨.gen n, by simp [cells64], by simpa [Used] using this⟩
        | v b n => exact hr.elim
  put := by
    intro r s h
    show ∃ s', free64 r s = _ ∧ _ ∧ ∀ c, c ∈ clobbers64 s' ↔ c ∈ clobbers64 s
    cases r with
    | x n =>
      have h0 : n ∈ s.gen := h (.gen n) (by simp [cells64])
      refine ⟨{ s with gen := remove n s.gen }, by rw [free64, if_pos h0], ?_, fun c => Iff.rfl⟩
      rintro (m | m) <;> simp [cells64, Used, mem_remove]
    | v b n =>
      have h0 : n ∈ s.vec := h (.vec n) (by simp [cells64])
      refine ⟨{ s with vec := remove n s.vec }, by rw [free64, if_pos h0], ?_, fun c => Iff.rfl⟩
      rintro (m | m) <;> simp [cells64, Used, mem_remove]
  start := by show clobbers64 init = []; simp [clobbers64, init]
  some := by rintro (n | ⟨b, n⟩) <;> simp [cells64]

/-- Two registers have no physical register in common. -/
def Apart {R : Type} (cells : R → List Cell) (a b : R) : Prop := ∀ c ∈ cells a, c ∉ cells b

/-- The sets say what the generator holds and got. -/
structure Inv (A : Alloc) (cells : A.Reg → List Cell) (w : World A) : Prop where
  used : ∀ c, Used w.regs c ↔ ∃ r ∈ w.held, c ∈ cells r
  apart : w.held.Pairwise (Apart cells)
  clob : ∀ c, c ∈ A.clobbers w.regs ↔ ∃ r ∈ w.given, c ∈ cells r

theorem step_inv {A : Alloc} {cells : A.Reg → List Cell} {Fits : Kind → A.Reg → Prop} (g : Good A cells Fits)
    {w : World A} (h : Inv A cells w) (o : Op) :
    (∃ w', step A w o = .ok w' ∧ Inv A cells w') ∨ step A w o = .error .allocation := by
  cases o with
  | get k =>
    simp only [step]
    cases e : A.alloc k w.regs with
    | error x =>
      obtain ⟨rfl, _⟩ := g.fail e
      exact .inr rfl
    | ok p =>
      obtain ⟨r, s⟩ := p
      obtain ⟨_, g1, g2, g3⟩ := g.get e
      refine .inl ⟨_, rfl, ?_, ?_, ?_⟩
      · intro c
        rw [g2, h.used]
        simp only [List.mem_cons, exists_eq_or_imp]
        exact or_comm
      · refine List.pairwise_cons.2 ⟨fun b hb c hc hcb => g1 c hc ?_, h.apart⟩
        exact (h.used c).2 ⟨b, hb, hcb⟩
      · intro c
        rw [g3, h.clob]
        simp only [List.mem_cons, exists_eq_or_imp]
        exact or_comm
  | put i =>
    simp only [step]
    split
    · exact .inl ⟨w, rfl, h⟩
    · rename_i r hr
      obtain ⟨hi, hir⟩ := List.getElem?_eq_some_iff.1 hr
      have hmem : r ∈ w.held := hir ▸ List.getElem_mem hi
      obtain ⟨s', e, g1, g2⟩ := g.put (r := r) (s := w.regs) (fun c hc => (h.used c).2 ⟨r, hmem, hc⟩)
      rw [e]
      refine .inl ⟨_, rfl, ?_, h.apart.sublist (List.eraseIdx_sublist _ _), ?_⟩
      · intro c
        rw [g1, h.used]
        have hp := List.pairwise_iff_getElem.1 h.apart
        constructor
        · rintro ⟨⟨r', hr', hc⟩, hn⟩
          obtain ⟨j, hj, rfl⟩ := List.getElem_of_mem hr'
          refine ⟨_, List.mem_eraseIdx_iff_getElem.2 ⟨j, hj, ?_, rfl⟩, hc⟩
          rintro rfl
          exact hn (hir ▸ hc)
        · rintro ⟨r', hr', hc⟩
          obtain ⟨j, hj, hji, rfl⟩ := List.mem_eraseIdx_iff_getElem.1 hr'
          refine ⟨⟨_, List.getElem_mem hj, hc⟩, fun hcr => ?_⟩
          rw [← hir] at hcr
          rcases Nat.lt_or_gt_of_ne hji with hlt | hlt
          · exact hp j i hj hi hlt c hc hcr
          · exact hp i j hi hj hlt c hcr hc
      · intro c
        rw [g2, h.clob]

theorem run_inv {A : Alloc} {cells : A.Reg → List Cell} {Fits : Kind → A.Reg → Prop} (g : Good A cells Fits) :
    ∀ (ops : List Op) (w : World A), Inv A cells w →
      (∃ w', ops.foldlM (step A) w = .ok w' ∧ Inv A cells w') ∨ ops.foldlM (step A) w = .error .allocation := by
  intro ops
  induction ops with
  | nil => exact fun w h => .inl ⟨w, rfl, h⟩
  | cons o ops ih =>
    intro w h
    rw [List.foldlM_cons]
    rcases step_inv g h o with ⟨w', e, h'⟩ | e
    · rw [e]
      exact ih w' h'
    · rw [e]
      exact .inr rfl

/-- What a generator can rely on, whatever it asks for and gives back. -/
structure Reliable (A : Alloc) (cells : A.Reg → List Cell) (Fits : Kind → A.Reg → Prop) : Prop where
  /-- No failed assertion; the only exception is that there are not enough registers. -/
  only : ∀ ops e, run A ops = .error e → e = .allocation
  /-- Registers that are held have nothing in common. -/
  apart : ∀ ops w, run A ops = .ok w → w.held.Pairwise (Apart cells)
  /-- The list of clobbers is just what was given out. -/
  clobbers : ∀ ops w, run A ops = .ok w → ∀ c, c ∈ A.clobbers w.regs ↔ ∃ r ∈ w.given, c ∈ cells r
  /-- A request is answered, with a register that fits it and has nothing in common with those held, if there is one. -/
  answer : ∀ ops w k, run A ops = .ok w → (∃ r, Fits k r ∧ ∀ b ∈ w.held, Apart cells r b) →
    ∃ r w', run A (ops ++ [.get k]) = .ok w' ∧ w'.held = r :: w.held ∧ w'.given = r :: w.given ∧ Fits k r
  /-- If everything has been given back, everything is free. -/
  empty : ∀ ops w, run A ops = .ok w → w.held = [] → w.regs.vec = [] ∧ w.regs.gen = []

theorem reliable {A : Alloc} {cells : A.Reg → List Cell} {Fits : Kind → A.Reg → Prop} (g : Good A cells Fits) :
    Reliable A cells Fits := by
  have h0 : Inv A cells ⟨init, [], []⟩ :=
    ⟨by rintro (n | n) <;> simp [Used, init], List.Pairwise.nil, by intro c; rw [g.start]; simp⟩
  have key : ∀ ops w, run A ops = .ok w → Inv A cells w := by
    intro ops w h
    rcases run_inv g ops _ h0 with ⟨w', e, h'⟩ | e
    · have : Except.ok w = Except.ok w' := h.symm.trans e
      cases this
      exact h'
    · have : Except.ok w = Except.error _ := h.symm.trans e
      cases this
  refine ⟨?_, fun ops w h => (key ops w h).apart, fun ops w h => (key ops w h).clob, ?_, ?_⟩
  · intro ops e h
    rcases run_inv g ops _ h0 with ⟨w', e', h'⟩ | e'
    · have : Except.error e = Except.ok w' := h.symm.trans e'
      cases this
    · have : Except.error e = Except.error _ := h.symm.trans e'
      cases this
      rfl
  · rintro ops w k h ⟨r, hf, ha⟩
    have hi := key ops w h
    have hr : run A (ops ++ [.get k]) = step A w (.get k) := by
      unfold run at *
      rw [List.foldlM_append, h]
      exact bind_pure (step A w (.get k))
    rw [hr]
    simp only [step]
    cases e : A.alloc k w.regs with
    | error x =>
      obtain ⟨c, hc, hu⟩ := (g.fail e).2 r hf
      obtain ⟨b, hb, hcb⟩ := (hi.used c).1 hu
      exact absurd hcb (ha b hb c hc)
    | ok p => exact ⟨p.1, _, rfl, rfl, rfl, (g.get e).1⟩
  · intro ops w h he
    have hi := (key ops w h).used
    rw [he] at hi
    constructor
    · exact List.eq_nil_iff_forall_not_mem.2 fun n hn => by simpa using (hi (.vec n)).1 hn
    · exact List.eq_nil_iff_forall_not_mem.2 fun n hn => by simpa using (hi (.gen n)).1 hn

/-- **C81** for 32-bit ARM (part; the registers that are given out are not always fit for use, see below). -/
theorem C81_arm32_partial : Reliable arm32 cells32 Fits32 := reliable good32

/-- **C81** for 64-bit ARM: also, general registers are never the link register or the stack pointer. -/
theorem C81_arm64 : Reliable arm64 cells64 Fits64 ∧ ∀ r n, Fits64 .general r → .gen n ∈ cells64 r → n < 30 := by
  refine ⟨reliable good64, ?_⟩
  rintro (m | ⟨b, m⟩) n hf hc
  · simp only [cells64, List.mem_singleton, Cell.gen.injEq] at hc
    exact hc ▸ hf
  · exact hf.elim

/-- A run that gets and gives back registers of all kinds. -/
example : ((run arm32 [.get (.double 0), .get (.quad 0), .get .general, .put 1, .get (.double 2)]).toOption.map
    fun w => (w.held : List Reg32)) = some [.d 2, .r 0, .d 0] := rfl

/-- **C81 is refuted** for 32-bit ARM: the fourteenth general register that is held is the stack pointer, the sixteenth the
program counter. -/
theorem C81_refuted_sp :
    ((run arm32 (List.replicate 16 (.get .general))).toOption.map fun w => decide (Reg32.r 13 ∈ (w.held : List Reg32) ∧
      Reg32.r 15 ∈ (w.held : List Reg32))) = some true := by decide

/-- **C81 is refuted** for 32-bit ARM if a generator gives back half of a quad register: this passes the assertion, and the
half is given out again while the quad register is held. -/
theorem C81_refuted_half :
    ∃ s1 s2 s3, alloc32 (.quad 0) init = .ok (.q 0, s1) ∧ free32 (.d 1) s1 = .ok s2 ∧
      alloc32 (.double 0) s2 = .ok (.d 1, s3) ∧ ¬ Apart cells32 (.q 0) (.d 1) :=
  ⟨_, _, _, rfl, rfl, rfl, fun h => h (.vec 1) (by decide) (by decide)⟩

end Gemmlowp.RegAlloc
