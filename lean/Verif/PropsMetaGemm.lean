import Verif.PropsMeta

/-!
# C58: the meta drivers store exactly the entries of the product

Given that the generated code packs and multiplies as it is meant to (`MetaOps.Meets`), the executors, the
multi-threaded drivers and the legacy drivers store each entry of the result, with the value that its row and
its column give, and nothing else.  Also: how much scratch memory this takes.
-/

namespace Gemmlowp
namespace Meta

/-! ## Blocks -/

section
variable {β : Type} {val : Nat → Nat → β} {res rowStep colStep ls rs lstep rstep rows cols : Nat} {x : Nat × β}

theorem entry_rects {l : List TaskRect} (h : RectPartition rows cols l) :
    (∃ r ∈ l, Entry val (res + r.mOffset * rowStep + r.nOffset * colStep) rowStep colStep
      (ls + r.mOffset * lstep) (rs + r.nOffset * rstep) lstep rstep r.m r.n x) ↔
    Entry val res rowStep colStep ls rs lstep rstep rows cols x := by
  have e : ∀ (r : TaskRect) (a b : Nat), (res + r.mOffset * rowStep + r.nOffset * colStep + a * rowStep + b * colStep,
      val (ls + r.mOffset * lstep + a * lstep) (rs + r.nOffset * rstep + b * rstep)) =
      (res + (r.mOffset + a) * rowStep + (r.nOffset + b) * colStep,
        val (ls + (r.mOffset + a) * lstep) (rs + (r.nOffset + b) * rstep)) := by
    intro r a b; congr 1
    · ring
    · congr 1 <;> ring
  constructor
  · rintro ⟨r, hr, a, b, ha, hb, rfl⟩
    have := h.within r hr
    exact ⟨r.mOffset + a, r.nOffset + b, by omega, by omega, e r a b⟩
  · rintro ⟨a, b, ha, hb, rfl⟩
    obtain ⟨t, ⟨r, hr, ⟨h1, h2⟩, ⟨h3, h4⟩⟩, -⟩ := h.covered a b ha hb
    refine ⟨r, List.mem_of_getElem? hr, a - r.mOffset, b - r.nOffset, by omega, by omega, ?_⟩
    rw [e, show r.mOffset + (a - r.mOffset) = a by omega, show r.nOffset + (b - r.nOffset) = b by omega]

theorem entry_pieces_cols {l : List (Nat × Nat)} (h : Pieces cols l) (hr : 0 < rows) :
    (∃ c ∈ l, Entry val (res + c.1 * colStep) rowStep colStep ls (rs + c.1 * rstep) lstep rstep rows c.2 x) ↔
    Entry val res rowStep colStep ls rs lstep rstep rows cols x := by
  rw [← entry_rects (rectPartition_cols h hr)]
  simp

theorem entry_pieces_rows {l : List (Nat × Nat)} (h : Pieces rows l) (hc : 0 < cols) :
    (∃ c ∈ l, Entry val (res + c.1 * rowStep) rowStep colStep (ls + c.1 * lstep) rs lstep rstep c.2 cols x) ↔
    Entry val res rowStep colStep ls rs lstep rstep rows cols x := by
  rw [← entry_rects (rectPartition_rows h hc)]
  simp

end

/-- Memory after some stores, in the order of the list. -/
def memAfter {β : Type} (m : Nat → β) (l : List (Nat × β)) : Nat → β :=
  l.foldl (fun m x a => if a = x.1 then x.2 else m a) m

theorem memAfter_of_functional {β : Type} {l : List (Nat × β)} {a : Nat} {v : β} (hv : (a, v) ∈ l)
    (hf : ∀ w, (a, w) ∈ l → w = v) (m : Nat → β) : memAfter m l a = v := by
  have key : ∀ (l : List (Nat × β)), (∀ w, (a, w) ∈ l → w = v) → ∀ m : Nat → β,
      ((a, v) ∈ l ∨ m a = v) → memAfter m l a = v := by
    intro l
    induction l with
    | nil => intro _ m h; rcases h with h | h
             · cases h
             · exact h
    | cons y l ih =>
      intro hf m h
      refine ih (fun w hw => hf w (List.mem_cons_of_mem _ hw)) _ ?_
      by_cases hy : a = y.1
      · right
        show (if a = y.1 then y.2 else m a) = v
        rw [if_pos hy]
        exact hf y.2 (by rw [hy]; exact List.mem_cons_self)
      · show _ ∨ (if a = y.1 then y.2 else m a) = v
        rw [if_neg hy]
        rcases h with h | h
        · rcases List.mem_cons.1 h with h | h
          · exact absurd (congrArg Prod.fst h) hy
          · exact .inl h
        · exact .inr h
  exact key l hf m (.inl hv)

theorem memAfter_other {β : Type} {l : List (Nat × β)} {a : Nat} (h : ∀ w, (a, w) ∉ l) (m : Nat → β) :
    memAfter m l a = m a := by
  induction l generalizing m with
  | nil => rfl
  | cons y l ih =>
    have : memAfter m (y :: l) a = memAfter (fun b => if b = y.1 then y.2 else m b) l a := rfl
    rw [this, ih (fun w hw => h w (List.mem_cons_of_mem _ hw)), if_neg]
    intro hy
    exact h y.2 (by rw [hy]; exact List.mem_cons_self)

/-- **C58**, what the stores mean: if the stores of all tasks together are the entries of a result whose rows
do not overlap, then after them, in whatever order (`l` is any list with these members), each place of the
result holds its entry and the rest of the memory is unchanged. -/
theorem C58_memory {β : Type} {val : Nat → Nat → β} {res rowStep colStep ls rs lstep rstep rows cols : Nat}
    (hc : 0 < colStep) (hstep : cols * colStep ≤ rowStep) {l : List (Nat × β)}
    (h : ∀ x, x ∈ l ↔ Entry val res rowStep colStep ls rs lstep rstep rows cols x) (m : Nat → β) :
    (∀ a b, a < rows → b < cols →
      memAfter m l (res + a * rowStep + b * colStep) = val (ls + a * lstep) (rs + b * rstep)) ∧
    ∀ adr, (∀ a b, a < rows → b < cols → adr ≠ res + a * rowStep + b * colStep) → memAfter m l adr = m adr := by
  have inj : ∀ {a b a' b' : Nat}, b < cols → b' < cols →
      a * rowStep + b * colStep = a' * rowStep + b' * colStep → a ≤ a' := by
    intro a b a' b' hb hb' e
    refine Nat.le_of_not_lt fun hlt => ?_
    have h1 := Nat.mul_le_mul_right rowStep (show a' + 1 ≤ a from hlt)
    have h2 := Nat.mul_le_mul_right colStep (show b' + 1 ≤ cols from hb')
    rw [Nat.add_mul] at h1 h2
    omega
  constructor
  · intro a b ha hb
    refine memAfter_of_functional ((h _).2 ⟨a, b, ha, hb, rfl⟩) (fun w hw => ?_) m
    obtain ⟨a', b', ha', hb', e⟩ := (h _).1 hw
    have e1 := congrArg Prod.fst e
    have e2 := congrArg Prod.snd e
    simp only at e1 e2
    have haa : a = a' := Nat.le_antisymm (inj hb hb' (by omega)) (inj hb' hb (by omega))
    subst haa
    have : b * colStep = b' * colStep := by omega
    have hbb := Nat.eq_of_mul_eq_mul_right hc this
    subst hbb
    exact e2
  · intro adr hadr
    refine memAfter_other (fun w hw => ?_) m
    obtain ⟨a, b, ha, hb, e⟩ := (h _).1 hw
    exact hadr a b ha hb (congrArg Prod.fst e)

/-! ## Scratch memory -/

theorem alignTo_dvd_le {a b v : Nat} (ha : 0 < a) (hb : 0 < b) (h : ∃ q, b = a * q) : alignTo a v ≤ alignTo b v := by
  obtain ⟨q, hq⟩ := h
  obtain ⟨r, hr⟩ := alignTo_dvd b v
  have h1 := le_alignTo hb v
  rw [hr, hq, Nat.mul_assoc] at h1 ⊢
  unfold alignTo
  rw [Nat.mul_comm]
  refine Nat.mul_le_mul_left _ ?_
  refine Nat.lt_succ_iff.1 ((Nat.div_lt_iff_lt_mul ha).2 ?_)
  rw [Nat.succ_mul, Nat.mul_comm (q * r) a]; omega

theorem packedStride_le_util (p : StreamParams) (lanes pack : Nat) :
    p.packedStride 1 lanes pack ≤ p.utilScratch 1 lanes pack := by
  unfold StreamParams.packedStride StreamParams.utilScratch
  split
  · exact alignTo_dvd_le (by omega) (by omega) ⟨2, rfl⟩
  · exact Nat.le_refl _
  · exact Nat.le_refl _

theorem ceil_div {n d : Nat} (hd : 0 < d) : (n + d - 1) / d = n / d + if n % d = 0 then 0 else 1 := by
  have h1 := Nat.div_add_mod n d
  have h2 := Nat.mod_lt n hd
  have key : ∀ r, r < d → n + d - 1 = d * (n / d + if n % d = 0 then 0 else 1) + r →
      (n + d - 1) / d = n / d + if n % d = 0 then 0 else 1 := by
    intro r hr e
    rw [e, Nat.mul_add_div hd, Nat.div_eq_of_lt hr, Nat.add_zero]
  split
  · rename_i h
    exact (by simpa [h] using key (d - 1) (by omega) (by simp [h]; omega))
  · rename_i h
    have := key (n % d - 1) (by omega) (by rw [if_neg h, Nat.mul_add, Nat.mul_one]; omega)
    rwa [if_neg h] at this

theorem needed_le {one whole : StreamParams} {dim oneLanes wholeLanes pack : Nat} (hw : 0 < wholeLanes) :
    neededScratch one whole dim oneLanes wholeLanes pack ≤
      one.packedStride 1 oneLanes pack +
        (dim + wholeLanes - 1) / wholeLanes * whole.packedStride 1 wholeLanes pack := by
  unfold neededScratch
  rw [ceil_div hw, Nat.add_mul]
  have h := packedStride_mono whole 1 pack (Nat.le_of_lt (Nat.mod_lt dim hw))
  split
  · simp
  · rw [Nat.one_mul]; omega

/-- **C58**, scratch memory: the estimate of `GemmExecutorPackRHS` is enough. -/
theorem C58_estimate_packRHS {p : GemmParams} {km kn kk : Nat} (hn : 0 < kn) :
    neededScratch p.left p.right p.n km kn kk ≤ estimateScratchPackRHS p km kn kk := by
  refine Nat.le_trans (needed_le hn) (Nat.le_trans ?_ (le_alignTo (by omega) _))
  exact Nat.add_le_add (packedStride_le_util ..) (Nat.mul_le_mul_left _ (packedStride_le_util ..))

/-- **C58**, scratch memory: the estimate of `GemmExecutorPackLHS` is enough. -/
theorem C58_estimate_packLHS {p : GemmParams} {km kn kk : Nat} (hm : 0 < km) :
    neededScratch p.right p.left p.m kn km kk ≤ estimateScratchPackLHS p km kn kk := by
  refine Nat.le_trans (needed_le hm) (Nat.le_trans ?_ (le_alignTo (by omega) _))
  rw [Nat.add_comm]
  exact Nat.add_le_add (Nat.mul_le_mul_left _ (packedStride_le_util ..)) (packedStride_le_util ..)

/-! ## One thread -/

theorem MetaOps.Meets.tile {σ β : Type} {ops : MetaOps σ β} {c : Contract σ β} {left right out : StreamParams}
    {outSize : Nat} {t t' : Tile} {base cap : Nat} (h : ops.Meets c left right out outSize t base cap)
    (hm : t'.m = t.m) (hn : t'.n = t.n) (hk : t'.k = t.k) (hl : t'.kLeft = t.kLeft) :
    ops.Meets c left right out outSize t' base cap := by
  obtain ⟨a, b, c, d, e, f⟩ := t
  obtain ⟨a', b', c', d', e', f'⟩ := t'
  simp only at hm hn hk hl
  subst hm hn hk hl
  exact ⟨h.packLeft, h.packRight, h.mul⟩

/-- **C58** for `Gemm<GemmExecutorPackRHS, ..>`: in scratch memory of the estimated size, every entry of the
result is stored, with its value, and nothing else. -/
theorem C58_gemm_packRHS {σ β : Type} {ops : MetaOps σ β} {c : Contract σ β} {p : GemmParams} {km kn kk : Nat}
    {base cap : Nat} (hkm : 0 < km) (hkn : 0 < kn) (hkk : 0 < kk)
    (hm : ops.Meets c p.left p.right p.out p.outSize ⟨km, kn, kk, p.m % km, p.n % kn, p.k % kk⟩ base cap)
    (ho : p.out.kind = .rowMajor)
    (hL : ∀ i, i < p.m → c.readL (p.lhs + i * p.left.laneStep))
    (hR : ∀ i, i < p.n → c.readR (p.rhs + i * p.right.laneStep))
    (hb : ∃ q, p.scratch = base + 32 * q)
    (hcap : p.scratch + estimateScratchPackRHS p km kn kk ≤ cap) (s : σ) :
    ∃ s' l, gemm (fun t q => executePackRHS ops t q s) km kn kk p = .ok (s', l) ∧
      ∀ x, x ∈ l ↔ Entry c.val p.result p.out.stride p.outSize p.lhs p.rhs p.left.laneStep p.right.laneStep
        p.m p.n x := by
  rw [C44_dispatch _ hkm hkn hkk]
  exact executePackRHS_spec hm ho hkm hkn rfl rfl hL hR hb
    (Nat.le_trans (Nat.add_le_add_left (C58_estimate_packRHS hkn) _) hcap) s

/-- **C58** for `Gemm<GemmExecutorPackLHS, ..>`. -/
theorem C58_gemm_packLHS {σ β : Type} {ops : MetaOps σ β} {c : Contract σ β} {p : GemmParams} {km kn kk : Nat}
    {base cap : Nat} (hkm : 0 < km) (hkn : 0 < kn) (hkk : 0 < kk)
    (hm : ops.Meets c p.left p.right p.out p.outSize ⟨km, kn, kk, p.m % km, p.n % kn, p.k % kk⟩ base cap)
    (ho : p.out.kind = .rowMajor)
    (hL : ∀ i, i < p.m → c.readL (p.lhs + i * p.left.laneStep))
    (hR : ∀ i, i < p.n → c.readR (p.rhs + i * p.right.laneStep))
    (hb : ∃ q, p.scratch = base + 32 * q)
    (hcap : p.scratch + estimateScratchPackLHS p km kn kk ≤ cap) (s : σ) :
    ∃ s' l, gemm (fun t q => executePackLHS ops t q s) km kn kk p = .ok (s', l) ∧
      ∀ x, x ∈ l ↔ Entry c.val p.result p.out.stride p.outSize p.lhs p.rhs p.left.laneStep p.right.laneStep
        p.m p.n x := by
  rw [C44_dispatch _ hkm hkn hkk]
  exact executePackLHS_spec hm ho hkm hkn rfl rfl hL hR hb
    (Nat.le_trans (Nat.add_le_add_left (C58_estimate_packLHS hkm) _) hcap) s

theorem runTasks_spec {σ β : Type} {run : GemmParams → σ → M (σ × List (Nat × β))}
    {F : GemmParams → Nat × β → Prop} : ∀ (ps : List GemmParams),
    (∀ p ∈ ps, ∀ s, ∃ s' l, run p s = .ok (s', l) ∧ ∀ x, x ∈ l ↔ F p x) → ∀ s,
    ∃ s' l, runTasks run ps s = .ok (s', l) ∧ ∀ x, x ∈ l ↔ ∃ p ∈ ps, F p x := by
  intro ps
  induction ps with
  | nil => intro _ s; exact ⟨s, [], rfl, by simp⟩
  | cons p ps ih =>
    intro h s
    obtain ⟨s1, l1, e1, h1⟩ := h p List.mem_cons_self s
    obtain ⟨s2, l2, e2, h2⟩ := ih (fun q hq => h q (List.mem_cons_of_mem _ hq)) s1
    refine ⟨s2, l1 ++ l2, ?_, ?_⟩
    · rw [runTasks, e1, ok_bind, e2, ok_bind]
    · intro x; rw [List.mem_append, h1, h2]; simp

theorem offset_eq (p : StreamParams) (src i : Nat) : p.offset 1 src i 0 = src + i * p.laneStep := by
  unfold StreamParams.offset StreamParams.laneStep
  split <;> rename_i h <;> simp [h]

theorem offset_out {p : StreamParams} (h : p.kind = .rowMajor) (z src i j : Nat) :
    p.offset z src i j = src + i * p.stride + j * z := by
  unfold StreamParams.offset; rw [h]

/-- **C58** for `GemmExecutorPackRHSCacheFriendly`: the same, if the scratch memory is large enough for each
piece. -/
theorem C58_cache_friendly_packRHS {σ β : Type} {ops : MetaOps σ β} {c : Contract σ β} {p : GemmParams}
    {km kn kk cacheSize tasks base cap : Nat} (hkm : 0 < km) (hkn : 0 < kn) (hkk : 0 < kk)
    (hm : ops.Meets c p.left p.right p.out p.outSize ⟨km, kn, kk, p.m % km, p.n % kn, p.k % kk⟩ base cap)
    (ho : p.out.kind = .rowMajor) (hpm : 0 < p.m) (hpn : 0 < p.n) (hpc : 0 < p.right.packedStride 1 kn kk)
    (ht : cacheFriendlyTasksCount cacheSize (p.left.packedStride 1 km kk) (p.right.packedStride 1 kn kk) p.n kn =
      .ok tasks)
    (hL : ∀ i, i < p.m → c.readL (p.lhs + i * p.left.laneStep))
    (hR : ∀ i, i < p.n → c.readR (p.rhs + i * p.right.laneStep))
    (hb : ∃ q, p.scratch = base + 32 * q)
    (hcap : ∀ w ∈ cut p.n tasks, p.scratch + neededScratch p.left p.right w.2 km kn kk ≤ cap) (s : σ) :
    ∃ s' l, gemm (fun t q => executePackRHSCacheFriendly cacheSize ops t q s) km kn kk p = .ok (s', l) ∧
      ∀ x, x ∈ l ↔ Entry c.val p.result p.out.stride p.outSize p.lhs p.rhs p.left.laneStep p.right.laneStep
        p.m p.n x := by
  have hfit : p.left.packedStride 1 km kk + p.right.packedStride 1 kn kk < cacheSize := by
    refine Nat.lt_of_not_le fun hle => ?_
    unfold cacheFriendlyTasksCount assertM at ht
    rw [if_neg (by simpa using hle)] at ht
    cases ht
  obtain ⟨t', ht', hpos, hpieces, -, -⟩ := C46_pieces_partial hpc hfit hpn hkn
  rw [ht] at ht'
  cases ht'
  rw [C44_dispatch _ hkm hkn hkk]
  simp only [executePackRHSCacheFriendly]
  rw [ht, ok_bind]
  by_cases h1 : tasks = 1
  · rw [if_pos h1]
    refine executePackRHS_spec hm ho hkm hkn rfl rfl hL hR hb ?_ s
    have := hcap (0, p.n) (by rw [h1]; simp [cut])
    exact this
  · rw [if_neg h1, if_neg (by omega)]
    obtain ⟨s', l, e, hl⟩ := runTasks_spec (σ := σ)
      (run := fun q s => gemm (fun t q => executePackRHS ops t q s) km kn kk q)
      (F := fun q x => Entry c.val q.result q.out.stride q.outSize q.lhs q.rhs q.left.laneStep q.right.laneStep
        q.m q.n x)
      ((cut p.n tasks).map fun c => updateTask p 0 p.m c.1 c.2) (by
        intro q hq s
        obtain ⟨w, hw, rfl⟩ := List.mem_map.1 hq
        have hin := hpieces.within w hw
        rw [C44_dispatch _ hkm hkn hkk]
        refine executePackRHS_spec (t := ⟨km, kn, kk, p.m % km, w.2 % kn, p.k % kk⟩)
          (p := updateTask p 0 p.m w.1 w.2) (hm.tile rfl rfl rfl rfl) ho hkm hkn rfl rfl ?_ ?_ hb (hcap w hw) s
        · intro i hi
          show c.readL (p.left.offset 1 p.lhs 0 0 + i * p.left.laneStep)
          rw [offset_eq, Nat.zero_mul, Nat.add_zero]
          exact hL i hi
        · intro i hi
          show c.readR (p.right.offset 1 p.rhs w.1 0 + i * p.right.laneStep)
          rw [offset_eq, Nat.add_assoc, ← Nat.add_mul]
          have : i < w.2 := hi
          exact hR _ (by omega)) s
    refine ⟨s', l, e, fun x => ?_⟩
    rw [hl, ← entry_pieces_cols hpieces hpm]
    simp only [List.mem_map, updateTask]
    constructor
    · rintro ⟨q, ⟨w, hw, rfl⟩, hx⟩
      refine ⟨w, hw, ?_⟩
      simp only [offset_eq, offset_out ho] at hx
      simpa using hx
    · rintro ⟨w, hw, hx⟩
      refine ⟨_, ⟨w, hw, rfl⟩, ?_⟩
      simp only [offset_eq, offset_out ho]
      simpa using hx

/-- **C58** for `GemmExecutorPackLHSCacheFriendly`: the same, if the scratch memory is large enough for each
piece. -/
theorem C58_cache_friendly_packLHS {σ β : Type} {ops : MetaOps σ β} {c : Contract σ β} {p : GemmParams}
    {km kn kk cacheSize tasks base cap : Nat} (hkm : 0 < km) (hkn : 0 < kn) (hkk : 0 < kk)
    (hm : ops.Meets c p.left p.right p.out p.outSize ⟨km, kn, kk, p.m % km, p.n % kn, p.k % kk⟩ base cap)
    (ho : p.out.kind = .rowMajor) (hpm : 0 < p.m) (hpn : 0 < p.n) (hpc : 0 < p.left.packedStride 1 km kk)
    (ht : cacheFriendlyTasksCount cacheSize (p.right.packedStride 1 kn kk) (p.left.packedStride 1 km kk) p.m km =
      .ok tasks)
    (hL : ∀ i, i < p.m → c.readL (p.lhs + i * p.left.laneStep))
    (hR : ∀ i, i < p.n → c.readR (p.rhs + i * p.right.laneStep))
    (hb : ∃ q, p.scratch = base + 32 * q)
    (hcap : ∀ w ∈ cut p.m tasks, p.scratch + neededScratch p.right p.left w.2 kn km kk ≤ cap) (s : σ) :
    ∃ s' l, gemm (fun t q => executePackLHSCacheFriendly cacheSize ops t q s) km kn kk p = .ok (s', l) ∧
      ∀ x, x ∈ l ↔ Entry c.val p.result p.out.stride p.outSize p.lhs p.rhs p.left.laneStep p.right.laneStep
        p.m p.n x := by
  have hfit : p.right.packedStride 1 kn kk + p.left.packedStride 1 km kk < cacheSize := by
    refine Nat.lt_of_not_le fun hle => ?_
    unfold cacheFriendlyTasksCount assertM at ht
    rw [if_neg (by simpa using hle)] at ht
    cases ht
  obtain ⟨t', ht', hpos, hpieces, -, -⟩ := C46_pieces_partial hpc hfit hpm hkm
  rw [ht] at ht'
  cases ht'
  rw [C44_dispatch _ hkm hkn hkk]
  simp only [executePackLHSCacheFriendly]
  rw [ht, ok_bind]
  by_cases h1 : tasks = 1
  · rw [if_pos h1]
    refine executePackLHS_spec hm ho hkm hkn rfl rfl hL hR hb ?_ s
    have := hcap (0, p.m) (by rw [h1]; simp [cut])
    exact this
  · rw [if_neg h1, if_neg (by omega)]
    obtain ⟨s', l, e, hl⟩ := runTasks_spec (σ := σ)
      (run := fun q s => gemm (fun t q => executePackLHS ops t q s) km kn kk q)
      (F := fun q x => Entry c.val q.result q.out.stride q.outSize q.lhs q.rhs q.left.laneStep q.right.laneStep
        q.m q.n x)
      ((cut p.m tasks).map fun c => updateTask p c.1 c.2 0 p.n) (by
        intro q hq s
        obtain ⟨w, hw, rfl⟩ := List.mem_map.1 hq
        have hin := hpieces.within w hw
        rw [C44_dispatch _ hkm hkn hkk]
        refine executePackLHS_spec (t := ⟨km, kn, kk, w.2 % km, p.n % kn, p.k % kk⟩)
          (p := updateTask p w.1 w.2 0 p.n) (hm.tile rfl rfl rfl rfl) ho hkm hkn rfl rfl ?_ ?_ hb (hcap w hw) s
        · intro i hi
          show c.readL (p.left.offset 1 p.lhs w.1 0 + i * p.left.laneStep)
          rw [offset_eq, Nat.add_assoc, ← Nat.add_mul]
          have : i < w.2 := hi
          exact hL _ (by omega)
        · intro i hi
          show c.readR (p.right.offset 1 p.rhs 0 0 + i * p.right.laneStep)
          rw [offset_eq, Nat.zero_mul, Nat.add_zero]
          exact hR i hi) s
    refine ⟨s', l, e, fun x => ?_⟩
    rw [hl, ← entry_pieces_rows hpieces hpn]
    simp only [List.mem_map, updateTask]
    constructor
    · rintro ⟨q, ⟨w, hw, rfl⟩, hx⟩
      refine ⟨w, hw, ?_⟩
      simp only [offset_eq, offset_out ho] at hx
      simpa using hx
    · rintro ⟨w, hw, hx⟩
      refine ⟨_, ⟨w, hw, rfl⟩, ?_⟩
      simp only [offset_eq, offset_out ho]
      simpa using hx

/-- **C58**, scratch memory: the size that `GemmExecutorPackRHSCacheFriendly` declares, the cache size, is
enough if the columns can be cut evenly.  In general it is not, see `C46_last_piece_fails`. -/
theorem C58_cache_friendly_size_partial {p : GemmParams} {km kn kk cacheSize tasks : Nat} (hkn : 0 < kn)
    (hpn : 0 < p.n) (hpc : 0 < p.right.packedStride 1 kn kk)
    (ht : cacheFriendlyTasksCount cacheSize (p.left.packedStride 1 km kk) (p.right.packedStride 1 kn kk) p.n kn =
      .ok tasks) (heven : p.n % tasks = 0) :
    ∀ w ∈ cut p.n tasks, neededScratch p.left p.right w.2 km kn kk ≤ cacheSize := by
  have hfit : p.left.packedStride 1 km kk + p.right.packedStride 1 kn kk < cacheSize := by
    refine Nat.lt_of_not_le fun hle => ?_
    unfold cacheFriendlyTasksCount assertM at ht
    rw [if_neg (by simpa using hle)] at ht
    cases ht
  obtain ⟨t', ht', hpos, hpieces, hle, -⟩ := C46_pieces_partial hpc hfit hpn hkn
  rw [ht] at ht'
  cases ht'
  intro w hw
  obtain ⟨i, hi⟩ := List.mem_iff_getElem?.1 hw
  exact Nat.le_trans (needed_le hkn) (hle i w hi (.inr heven))

/-! ## Several threads -/

theorem mapM_ok {α γ : Type} {f : α → M γ} {P : α → γ → Prop} : ∀ (l : List α),
    (∀ a ∈ l, ∃ b, f a = .ok b ∧ P a b) →
    ∃ ls, l.mapM f = .ok ls ∧ ls.length = l.length ∧
      (∀ b ∈ ls, ∃ a ∈ l, P a b) ∧ (∀ a ∈ l, ∃ b ∈ ls, P a b) ∧
      ∀ (i : Nat) a, l[i]? = some a → ∃ b, ls[i]? = some b ∧ P a b := by
  intro l
  induction l with
  | nil => intro _; exact ⟨[], rfl, rfl, by simp, by simp, by simp⟩
  | cons a l ih =>
    intro h
    obtain ⟨b, e, hb⟩ := h a List.mem_cons_self
    obtain ⟨ls, es, h1, h2, h3, h4⟩ := ih (fun x hx => h x (List.mem_cons_of_mem _ hx))
    refine ⟨b :: ls, ?_, by simp [h1], ?_, ?_, ?_⟩
    · rw [List.mapM_cons, e, ok_bind, es, ok_bind]; rfl
    · intro x hx
      rcases List.mem_cons.1 hx with rfl | hx
      · exact ⟨a, List.mem_cons_self, hb⟩
      · obtain ⟨y, hy, hp⟩ := h2 x hx
        exact ⟨y, List.mem_cons_of_mem _ hy, hp⟩
    · intro x hx
      rcases List.mem_cons.1 hx with rfl | hx
      · exact ⟨b, List.mem_cons_self, hb⟩
      · obtain ⟨y, hy, hp⟩ := h3 x hx
        exact ⟨y, List.mem_cons_of_mem _ hy, hp⟩
    · intro i x hx
      cases i with
      | zero => simp at hx; subst hx; exact ⟨b, rfl, hb⟩
      | succ i => exact h4 i x (by simpa using hx)

/-- The tasks of `PrepareGemmTasks`, one by one. -/
theorem prepareFrom_get {est : GemmParams → Nat} {p : GemmParams} : ∀ (rs : List TaskRect) (scratch i : Nat)
    (q : GemmParams), (prepareGemmTasksFrom est p scratch rs)[i]? = some q →
    ∃ r a, rs[i]? = some r ∧ q = { updateTask p r.mOffset r.m r.nOffset r.n with scratch := a } := by
  intro rs
  induction rs with
  | nil => intro scratch i q h; simp [prepareGemmTasksFrom] at h
  | cons r rs ih =>
    intro scratch i q h
    rw [prepareGemmTasksFrom] at h
    cases i with
    | zero => simp at h; exact ⟨r, scratch, rfl, h.symm⟩
    | succ i => exact ih _ i q (by simpa using h)

theorem prepareFrom_length {est : GemmParams → Nat} {p : GemmParams} : ∀ (rs : List TaskRect) (scratch : Nat),
    (prepareGemmTasksFrom est p scratch rs).length = rs.length := by
  intro rs
  induction rs with
  | nil => intro scratch; rfl
  | cons r rs ih => intro scratch; rw [prepareGemmTasksFrom, List.length_cons, List.length_cons, ih]

theorem prepareFrom_aligned {est : GemmParams → Nat} {p : GemmParams} {base : Nat}
    (hest : ∀ q, ∃ z, est q = 32 * z) : ∀ (rs : List TaskRect) (scratch : Nat), (∃ z, scratch = base + 32 * z) →
    ∀ q ∈ prepareGemmTasksFrom est p scratch rs, ∃ z, q.scratch = base + 32 * z := by
  intro rs
  induction rs with
  | nil => intro scratch _ q hq; simp [prepareGemmTasksFrom] at hq
  | cons r rs ih =>
    intro scratch h q hq
    rw [prepareGemmTasksFrom] at hq
    rcases List.mem_cons.1 hq with rfl | hq
    · exact h
    · refine ih _ ?_ q hq
      obtain ⟨z, hz⟩ := h
      obtain ⟨w, hw⟩ := hest { updateTask p r.mOffset r.m r.nOffset r.n with scratch := scratch }
      exact ⟨z + w, by rw [hw, hz]; omega⟩

/-- **C58** for `MultiThreadGemm` with `GemmExecutorPackRHS`: if the number of multiplications fits in an
`int`, there are tasks for rectangles that partition the result, each stores the entries of its rectangle, and
all together store the entries of the result.  By `C58_memory` the order does not matter.  The scratch memory
has to be large enough for the regions of the tasks, which follow each other (`C45_gemm_tasks_partial`). -/
theorem C58_multi_thread {σ β : Type} {ops : MetaOps σ β} {c : Contract σ β} {p : GemmParams} {km kn kk : Nat}
    {base cap : Nat} {maxThreads : Int} (hkm : 0 < km) (hkn : 0 < kn) (hkk : 0 < kk)
    (hm : ops.Meets c p.left p.right p.out p.outSize ⟨km, kn, kk, 0, 0, p.k % kk⟩ base cap)
    (ho : p.out.kind = .rowMajor) (hpm : 0 < p.m) (hpn : 0 < p.n) (hpk : 0 < p.k)
    (hint : p.m * p.n * p.k ≤ 2147483647)
    (hL : ∀ i, i < p.m → c.readL (p.lhs + i * p.left.laneStep))
    (hR : ∀ i, i < p.n → c.readR (p.rhs + i * p.right.laneStep))
    (hb : ∃ q, p.scratch = base + 32 * q)
    (hcap1 : p.scratch + estimateScratchPackRHS p km kn kk ≤ cap)
    (hcap : ∀ ts, prepareGemmTasks (fun q => estimateScratchPackRHS q km kn kk) maxThreads p = .ok (some ts) →
      ∀ q ∈ ts, q.scratch + estimateScratchPackRHS q km kn kk ≤ cap) (s : σ) :
    ∃ ls rects, multiThreadGemmTasks (fun q s => gemm (fun t q => executePackRHS ops t q s) km kn kk q)
        (fun q => estimateScratchPackRHS q km kn kk) maxThreads p s = .ok ls ∧
      RectPartition p.m p.n rects ∧ rects.length = ls.length ∧
      (∀ (i : Nat) (r : TaskRect), rects[i]? = some r → ∃ l, ls[i]? = some l ∧
        ∀ x, x ∈ l ↔ Entry c.val (p.result + r.mOffset * p.out.stride + r.nOffset * p.outSize) p.out.stride p.outSize
          (p.lhs + r.mOffset * p.left.laneStep) (p.rhs + r.nOffset * p.right.laneStep)
          p.left.laneStep p.right.laneStep r.m r.n x) ∧
      ∀ x, x ∈ ls.flatten ↔ Entry c.val p.result p.out.stride p.outSize p.lhs p.rhs
        p.left.laneStep p.right.laneStep p.m p.n x := by
  obtain ⟨t, e, h1, h2, h3⟩ := realTasks_spec (maxTasks := maxThreads) hpm hpn hpk hint
  obtain ⟨rs, e2, hpart, h5, h6⟩ := C45_tasks_partial (maxTasks := maxThreads) hpm hpn hpk hint
  unfold multiThreadGemmTasks
  by_cases ht : t = 1
  · have hnone : prepareGemmTasks (fun q => estimateScratchPackRHS q km kn kk) maxThreads p = .ok none := by
      unfold prepareGemmTasks; rw [e, ok_bind, if_pos ht]; rfl
    obtain ⟨s', l, er, hl⟩ := C58_gemm_packRHS hkm hkn hkk
      (hm.tile (t' := ⟨km, kn, kk, p.m % km, p.n % kn, p.k % kk⟩) rfl rfl rfl rfl) ho hL hR hb hcap1 s
    refine ⟨[l], [⟨0, p.m, 0, p.n⟩], ?_, rectPartition_one hpm hpn, rfl, ?_, ?_⟩
    · rw [hnone, ok_bind]
      show (gemm (fun t q => executePackRHS ops t q s) km kn kk p >>= fun r => .ok [r.2]) = _
      rw [er, ok_bind]
    · intro i r hr
      cases i with
      | zero => simp at hr; subst hr; exact ⟨l, rfl, fun x => by simpa using hl x⟩
      | succ i => simp at hr
    · intro x; simpa using hl x
  · have hsome : prepareGemmTasks (fun q => estimateScratchPackRHS q km kn kk) maxThreads p =
        .ok (some (prepareGemmTasksFrom (fun q => estimateScratchPackRHS q km kn kk) p p.scratch rs)) := by
      unfold prepareGemmTasks; rw [e, ok_bind, if_neg ht, e2, ok_bind]; rfl
    have hc2 := hcap _ hsome
    have hal := prepareFrom_aligned (est := fun q => estimateScratchPackRHS q km kn kk) (p := p) (base := base)
      (fun q => by
        obtain ⟨z, hz⟩ := alignTo_dvd 65536 (q.left.utilScratch 1 km kk +
          (q.n + kn - 1) / kn * q.right.utilScratch 1 kn kk)
        exact ⟨2048 * z, by show alignTo _ _ = _; rw [hz]; omega⟩) rs p.scratch hb
    obtain ⟨ls, els, hlen, hb1, hb2, hget⟩ := mapM_ok
      (f := fun q => (gemm (fun t q => executePackRHS ops t q s) km kn kk q) >>= fun r => (.ok r.2 : M (List (Nat × β))))
      (P := fun q l => ∀ x, x ∈ l ↔ Entry c.val q.result q.out.stride q.outSize q.lhs q.rhs
        q.left.laneStep q.right.laneStep q.m q.n x)
      (prepareGemmTasksFrom (fun q => estimateScratchPackRHS q km kn kk) p p.scratch rs) (by
        intro q hq
        obtain ⟨i, hi⟩ := List.mem_iff_getElem?.1 hq
        obtain ⟨r, a, hr, hqe⟩ := prepareFrom_get rs _ i q hi
        have hin := hpart.within r (List.mem_of_getElem? hr)
        have hqc := hc2 q hq
        have hqa := hal q hq
        obtain ⟨s', l, er, hl⟩ := C58_gemm_packRHS (ops := ops) (c := c) (p := q) hkm hkn hkk
          (base := base) (cap := cap) (by rw [hqe]; exact hm.tile rfl rfl rfl rfl) (by rw [hqe]; exact ho)
          (by
            intro i hi
            rw [hqe] at hi ⊢
            show c.readL (p.left.offset 1 p.lhs r.mOffset 0 + i * p.left.laneStep)
            rw [offset_eq, Nat.add_assoc, ← Nat.add_mul]
            have : i < r.m := hi
            exact hL _ (by omega))
          (by
            intro i hi
            rw [hqe] at hi ⊢
            show c.readR (p.right.offset 1 p.rhs r.nOffset 0 + i * p.right.laneStep)
            rw [offset_eq, Nat.add_assoc, ← Nat.add_mul]
            have : i < r.n := hi
            exact hR _ (by omega))
          hqa hqc s
        exact ⟨l, by rw [er, ok_bind], hl⟩)
    have hent : ∀ (i : Nat) (r : TaskRect), rs[i]? = some r → ∃ l, ls[i]? = some l ∧
        ∀ x, x ∈ l ↔ Entry c.val (p.result + r.mOffset * p.out.stride + r.nOffset * p.outSize) p.out.stride p.outSize
          (p.lhs + r.mOffset * p.left.laneStep) (p.rhs + r.nOffset * p.right.laneStep)
          p.left.laneStep p.right.laneStep r.m r.n x := by
      intro i r hr
      have hi : i < rs.length := (List.getElem?_eq_some_iff.1 hr).1
      obtain ⟨q, hq⟩ : ∃ q, (prepareGemmTasksFrom (fun q => estimateScratchPackRHS q km kn kk) p p.scratch rs)[i]? =
          some q := ⟨_, List.getElem?_eq_getElem (by rw [prepareFrom_length]; exact hi)⟩
      obtain ⟨r', a, hr', hqe⟩ := prepareFrom_get rs _ i q hq
      rw [hr] at hr'
      cases hr'
      obtain ⟨l, hl, hx⟩ := hget i q hq
      refine ⟨l, hl, fun x => ?_⟩
      rw [hx, hqe]
      simp only [updateTask, offset_eq, offset_out ho]
    refine ⟨ls, rs, ?_, hpart, by rw [hlen, prepareFrom_length], hent, ?_⟩
    · rw [hsome, ok_bind]; exact els
    · intro x
      rw [← entry_rects hpart, List.mem_flatten]
      constructor
      · rintro ⟨l, hl, hx⟩
        obtain ⟨i, hi⟩ := List.mem_iff_getElem?.1 hl
        have hlt : i < rs.length := by
          have := (List.getElem?_eq_some_iff.1 hi).1
          rwa [hlen, prepareFrom_length] at this
        obtain ⟨l', hl', hx'⟩ := hent i rs[i] (List.getElem?_eq_getElem hlt)
        rw [hi] at hl'
        cases hl'
        exact ⟨rs[i], List.getElem_mem hlt, (hx' x).1 hx⟩
      · rintro ⟨r, hr, hx⟩
        obtain ⟨i, hi⟩ := List.mem_iff_getElem?.1 hr
        obtain ⟨l, hl, hx'⟩ := hent i r hi
        exact ⟨l, List.mem_of_getElem? hl, (hx' x).2 hx⟩

end Meta
end Gemmlowp
