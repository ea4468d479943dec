import Verif.MetaProof

/-!
# Properties C44 - C47: dispatch and partition in meta/
-/

namespace Gemmlowp
namespace Meta

/-! ## C44: dispatch -/

theorem dispatch3_eq {α : Type} (exec : Tile → M α) (dm dn dk fm fn : Nat) : ∀ v k, k ≤ v →
    dispatch3 exec dm dn dk fm fn v k = exec ⟨dm, dn, dk, fm, fn, k⟩ := by
  intro v
  induction v with
  | zero => intro k hk; obtain rfl : k = 0 := by omega
            rfl
  | succ v ih =>
    intro k hk
    rw [dispatch3]
    by_cases h : k = v + 1
    · rw [if_pos h, h]
    · rw [if_neg h]; exact ih k (by omega)

theorem dispatch2_eq {α : Type} (exec : Tile → M α) (dm dn dk fm : Nat) (k : Nat) (hk : k ≤ dk - 1) : ∀ v n, n ≤ v →
    dispatch2 exec dm dn dk fm v n k = exec ⟨dm, dn, dk, fm, n, k⟩ := by
  intro v
  induction v with
  | zero => intro n hn; obtain rfl : n = 0 := by omega
            rw [dispatch2, if_pos rfl, dispatch3_eq _ _ _ _ _ _ _ _ hk]
  | succ v ih =>
    intro n hn
    rw [dispatch2]
    by_cases h : n = v + 1
    · rw [if_pos h, h, dispatch3_eq _ _ _ _ _ _ _ _ hk]
    · rw [if_neg h]; exact ih n (by omega)

theorem dispatch1_eq {α : Type} (exec : Tile → M α) (dm dn dk : Nat) (n k : Nat) (hn : n ≤ dn - 1)
    (hk : k ≤ dk - 1) : ∀ v m, m ≤ v →
    dispatch1 exec dm dn dk v m n k = exec ⟨dm, dn, dk, m, n, k⟩ := by
  intro v
  induction v with
  | zero => intro m hm; obtain rfl : m = 0 := by omega
            rw [dispatch1, if_pos rfl, dispatch2_eq _ _ _ _ _ _ hk _ _ hn]
  | succ v ih =>
    intro m hm
    rw [dispatch1]
    by_cases h : m = v + 1
    · rw [if_pos h, h, dispatch2_eq _ _ _ _ _ _ hk _ _ hn]
    · rw [if_neg h]; exact ih m (by omega)

/-- **C44.**  `Gemm` runs the executor for the leftovers of the three dimensions, whatever the sizes and the
tile are; the fatal branches are never reached. -/
theorem C44_dispatch {α : Type} (exec : Tile → GemmParams → M α) {km kn kk : Nat} (hm : 0 < km) (hn : 0 < kn)
    (hk : 0 < kk) (p : GemmParams) :
    gemm exec km kn kk p = exec ⟨km, kn, kk, p.m % km, p.n % kn, p.k % kk⟩ p := by
  have h1 := Nat.mod_lt p.m hm
  have h2 := Nat.mod_lt p.n hn
  have h3 := Nat.mod_lt p.k hk
  unfold gemm
  exact dispatch1_eq (fun t => exec t p) km kn kk _ _ (by omega) (by omega) _ _ (by omega)

/-- **C44** for the one-dimensional transformations. -/
theorem C44_dispatch_transform {α : Type} (exec : Nat → Nat → M α) {size : Nat} (h : 0 < size) (count : Nat) :
    transform1D exec size count = exec size (count % size) := by
  have : ∀ v l, l ≤ v → dispatch1D exec size v l = exec size l := by
    intro v
    induction v with
    | zero => intro l hl; obtain rfl : l = 0 := by omega
              rfl
    | succ v ih =>
      intro l hl
      rw [dispatch1D]
      by_cases h : l = v + 1
      · rw [if_pos h, h]
      · rw [if_neg h]; exact ih l (by omega)
  have h1 := Nat.mod_lt count h
  exact this _ _ (by omega)

/-! ## Cutting a dimension -/

/-- Pieces of `0 .. dim - 1` (first element, number of elements), none of them empty, such that each element
is in exactly one of them. -/
structure Pieces (dim : Nat) (l : List (Nat × Nat)) : Prop where
  nonempty : ∀ c ∈ l, 0 < c.2
  within : ∀ c ∈ l, c.1 + c.2 ≤ dim
  covered : ∀ i, i < dim → ∃! t : Nat, ∃ c : Nat × Nat, l[t]? = some c ∧ c.1 ≤ i ∧ i < c.1 + c.2

theorem cut_length {dim tasks : Nat} (ht : 0 < tasks) : (cut dim tasks).length = tasks := by
  unfold cut; simp; omega

theorem cut_get {dim tasks t : Nat} (ht : t < tasks) :
    (cut dim tasks)[t]? = some (t * (dim / tasks),
      if t = tasks - 1 then dim - (tasks - 1) * (dim / tasks) else dim / tasks) := by
  unfold cut
  by_cases h : t = tasks - 1
  · rw [if_pos h, List.getElem?_append_right (by simp; omega)]
    simp [h]
  · rw [if_neg h, List.getElem?_append_left (by simp; omega), List.getElem?_map,
      List.getElem?_range (by omega)]
    rfl

/-- What each piece is. -/
theorem cut_mem {dim tasks : Nat} (ht : 0 < tasks) {c : Nat × Nat} (h : c ∈ cut dim tasks) :
    ∃ t, t < tasks ∧ c = (t * (dim / tasks), if t = tasks - 1 then dim - (tasks - 1) * (dim / tasks) else dim / tasks) := by
  obtain ⟨t, hl⟩ := List.mem_iff_getElem?.1 h
  have hlt : t < tasks := by
    obtain ⟨hlt, _⟩ := List.getElem?_eq_some_iff.1 hl
    rwa [cut_length ht] at hlt
  rw [cut_get hlt] at hl
  cases hl
  exact ⟨t, hlt, rfl⟩

theorem cut_pieces {dim tasks : Nat} (ht : 0 < tasks) (hd : tasks ≤ dim) : Pieces dim (cut dim tasks) := by
  have hq : 0 < dim / tasks := Nat.div_pos hd ht
  have hqd : tasks * (dim / tasks) ≤ dim := Nat.mul_div_le _ _
  have hq1 : (tasks - 1) * (dim / tasks) + dim / tasks = tasks * (dim / tasks) := by
    obtain ⟨k, rfl⟩ : ∃ k, tasks = k + 1 := ⟨tasks - 1, by omega⟩
    rw [Nat.add_mul, Nat.one_mul]; rfl
  have hle : ∀ {i j : Nat}, i < j → i * (dim / tasks) + dim / tasks ≤ j * (dim / tasks) := fun {i j} h => by
    have := Nat.mul_le_mul_right (dim / tasks) (show i + 1 ≤ j from h)
    rwa [Nat.add_mul, Nat.one_mul] at this
  refine ⟨?_, ?_, ?_⟩
  · intro c hc
    obtain ⟨t, h1, rfl⟩ := cut_mem ht hc
    simp only
    split <;> omega
  · intro c hc
    obtain ⟨t, h1, rfl⟩ := cut_mem ht hc
    simp only
    split
    · rename_i h; subst h; omega
    · have := hle (show t < tasks - 1 by omega); omega
  · intro i hi
    refine ⟨min (i / (dim / tasks)) (tasks - 1), ?_, ?_⟩
    · refine ⟨_, cut_get (by omega), ?_⟩
      simp only
      have h1 := Nat.div_mul_le_self i (dim / tasks)
      have h2 := Nat.lt_div_mul_add (a := i) hq
      by_cases h : i / (dim / tasks) < tasks - 1
      · rw [Nat.min_eq_left (by omega), if_neg (by omega)]
        omega
      · rw [Nat.min_eq_right (by omega), if_pos rfl]
        have := Nat.mul_le_mul_right (dim / tasks) (show tasks - 1 ≤ i / (dim / tasks) by omega)
        omega
    · rintro t ⟨c, hc, h1, h2⟩
      have hlt : t < tasks := by
        obtain ⟨hlt, _⟩ := List.getElem?_eq_some_iff.1 hc
        rwa [cut_length ht] at hlt
      rw [cut_get hlt] at hc
      cases hc
      simp only at h1 h2
      by_cases h : t = tasks - 1
      · have : tasks - 1 ≤ i / (dim / tasks) := (Nat.le_div_iff_mul_le hq).2 (by rw [← h]; exact h1)
        omega
      · rw [if_neg h] at h2
        have h3 : i / (dim / tasks) = t := by
          apply Nat.div_eq_of_lt_le
          · exact h1
          · rw [Nat.add_mul, Nat.one_mul]; exact h2
        rw [h3]; omega

/-! ## C45: tasks -/

/-- Rectangles, none of them empty, such that each entry of an `m x n` matrix is in exactly one. -/
structure RectPartition (m n : Nat) (l : List TaskRect) : Prop where
  nonempty : ∀ r ∈ l, 0 < r.m ∧ 0 < r.n
  within : ∀ r ∈ l, r.mOffset + r.m ≤ m ∧ r.nOffset + r.n ≤ n
  covered : ∀ i j, i < m → j < n → ∃! t : Nat, ∃ r : TaskRect, l[t]? = some r ∧
    (r.mOffset ≤ i ∧ i < r.mOffset + r.m) ∧ (r.nOffset ≤ j ∧ j < r.nOffset + r.n)

theorem realTasks_spec {maxTasks : Int} {m n k : Nat} (hm : 0 < m) (hn : 0 < n) (hk : 0 < k)
    (h : m * n * k ≤ 2147483647) :
    ∃ t, realTasks maxTasks m n k = .ok t ∧ 1 ≤ t ∧ t ≤ max 1 maxTasks ∧
      (t = 1 ∨ t ≤ max ((m : Int) / 4) ((n : Int) / 4)) := by
  have h1 : m * n ≤ m * n * k := Nat.le_mul_of_pos_right _ hk
  have e1 : cint ((m : Int) * n) = .ok ((m * n : Nat) : Int) := by
    rw [← Int.natCast_mul]; exact cint_ok ⟨by omega, by omega⟩
  have e2 : cint (((m * n : Nat) : Int) * k) = .ok ((m * n * k : Nat) : Int) := by
    rw [← Int.natCast_mul]; exact cint_ok ⟨by omega, by omega⟩
  refine ⟨_, by unfold realTasks; rw [e1, ok_bind, e2, ok_bind]; rfl, ?_, ?_, ?_⟩ <;> omega

theorem rectPartition_one {m n : Nat} (hm : 0 < m) (hn : 0 < n) : RectPartition m n [⟨0, m, 0, n⟩] where
  nonempty := by intro r hr; simp at hr; subst hr; exact ⟨hm, hn⟩
  within := by intro r hr; simp at hr; subst hr; exact ⟨by simp, by simp⟩
  covered := by
    intro i j hi hj
    refine ⟨0, ⟨_, rfl, by simpa using hi, by simpa using hj⟩, ?_⟩
    rintro t ⟨r, hr, -, -⟩
    obtain ⟨hlt, _⟩ := List.getElem?_eq_some_iff.1 hr
    simp at hlt; omega

theorem rectPartition_rows {m n : Nat} {l : List (Nat × Nat)} (h : Pieces m l) (hn : 0 < n) :
    RectPartition m n (l.map fun c => ⟨c.1, c.2, 0, n⟩) where
  nonempty := by
    intro r hr
    obtain ⟨c, hc, rfl⟩ := List.mem_map.1 hr
    exact ⟨h.nonempty c hc, hn⟩
  within := by
    intro r hr
    obtain ⟨c, hc, rfl⟩ := List.mem_map.1 hr
    exact ⟨h.within c hc, by simp⟩
  covered := by
    intro i j hi hj
    obtain ⟨t, ⟨c, hc, h1, h2⟩, hu⟩ := h.covered i hi
    refine ⟨t, ⟨_, by rw [List.getElem?_map, hc]; rfl, ⟨h1, h2⟩, ⟨by simp, by simpa using hj⟩⟩, ?_⟩
    rintro t' ⟨r, hr, ⟨h3, h4⟩, -⟩
    rw [List.getElem?_map] at hr
    obtain ⟨c', hc', rfl⟩ := Option.map_eq_some_iff.1 hr
    exact hu t' ⟨c', hc', h3, h4⟩

theorem rectPartition_cols {m n : Nat} {l : List (Nat × Nat)} (h : Pieces n l) (hm : 0 < m) :
    RectPartition m n (l.map fun c => ⟨0, m, c.1, c.2⟩) where
  nonempty := by
    intro r hr
    obtain ⟨c, hc, rfl⟩ := List.mem_map.1 hr
    exact ⟨hm, h.nonempty c hc⟩
  within := by
    intro r hr
    obtain ⟨c, hc, rfl⟩ := List.mem_map.1 hr
    exact ⟨by simp, h.within c hc⟩
  covered := by
    intro i j hi hj
    obtain ⟨t, ⟨c, hc, h1, h2⟩, hu⟩ := h.covered j hj
    refine ⟨t, ⟨_, by rw [List.getElem?_map, hc]; rfl, ⟨by simp, by simpa using hi⟩, ⟨h1, h2⟩⟩, ?_⟩
    rintro t' ⟨r, hr, -, ⟨h3, h4⟩⟩
    rw [List.getElem?_map] at hr
    obtain ⟨c', hc', rfl⟩ := Option.map_eq_some_iff.1 hr
    exact hu t' ⟨c', hc', h3, h4⟩

/-- **C45** for `PrepareTasks` (and for the rectangles of `PrepareGemmTasks`): if the number of
multiplications fits in an `int`, the tasks partition the result, and there are at most as many as asked
for. -/
theorem C45_tasks_partial {maxTasks : Int} {m n k : Nat} (hm : 0 < m) (hn : 0 < n) (hk : 0 < k)
    (h : m * n * k ≤ 2147483647) :
    ∃ l, prepareRects maxTasks m n k = .ok l ∧ RectPartition m n l ∧ 0 < l.length ∧
      (l.length : Int) ≤ max 1 maxTasks := by
  obtain ⟨t, e, h1, h2, h3⟩ := realTasks_spec (maxTasks := maxTasks) hm hn hk h
  unfold prepareRects
  rw [e, ok_bind]
  by_cases ht : t = 1
  · rw [if_pos ht]
    exact ⟨_, rfl, rectPartition_one hm hn, by simp, by simp⟩
  · rw [if_neg ht]
    obtain ⟨q, rfl⟩ : ∃ q : Nat, t = q := ⟨t.toNat, by omega⟩
    by_cases hmn : m / 4 > n / 4
    · rw [if_pos hmn]
      refine ⟨_, rfl, rectPartition_rows (cut_pieces (by omega) (by omega)) hn, ?_, ?_⟩ <;>
        rw [List.length_map, cut_length (by omega)] <;> omega
    · rw [if_neg hmn]
      refine ⟨_, rfl, rectPartition_cols (cut_pieces (by omega) (by omega)) hm, ?_, ?_⟩ <;>
        rw [List.length_map, cut_length (by omega)] <;> omega

theorem prepareFrom_eq (est : GemmParams → Nat) (p : GemmParams) : ∀ (rs : List TaskRect) (scratch : Nat),
    (prepareGemmTasksFrom est p scratch rs).map (fun t => ({ t with scratch := 0 } : GemmParams)) =
      rs.map fun r => { updateTask p r.mOffset r.m r.nOffset r.n with scratch := 0 } := by
  intro rs
  induction rs with
  | nil => intro scratch; rfl
  | cons r rs ih => intro scratch; rw [prepareGemmTasksFrom, List.map_cons, List.map_cons, ih]

/-- Consecutive regions from `a` on. -/
def Regions (size : GemmParams → Nat) : Nat → List GemmParams → Prop
  | _, [] => True
  | a, t :: ts => t.scratch = a ∧ Regions size (a + size t) ts

theorem prepareFrom_regions (est : GemmParams → Nat) (p : GemmParams) : ∀ (rs : List TaskRect) (scratch : Nat),
    Regions est scratch (prepareGemmTasksFrom est p scratch rs) := by
  intro rs
  induction rs with
  | nil => intro scratch; trivial
  | cons r rs ih => intro scratch; exact ⟨rfl, ih _⟩

/-- **C45** for `PrepareGemmTasks`: it gives up exactly if one task would do; otherwise the tasks are the
products for rectangles that partition the result, at the places of these rectangles in the operands and in
the result, each with a region of scratch memory of its own. -/
theorem C45_gemm_tasks_partial (est : GemmParams → Nat) {maxThreads : Int} {p : GemmParams} (hm : 0 < p.m) (hn : 0 < p.n) (hk : 0 < p.k)
    (h : p.m * p.n * p.k ≤ 2147483647) :
    ∃ o, prepareGemmTasks est maxThreads p = .ok o ∧
      (o = none ∨ ∃ l ts, o = some ts ∧ RectPartition p.m p.n l ∧ 2 ≤ l.length ∧ (l.length : Int) ≤ maxThreads ∧
        ts.map (fun t => ({ t with scratch := 0 } : GemmParams)) = l.map (fun r => { p with
          m := r.m, n := r.n, scratch := 0
          lhs := p.left.offset 1 p.lhs r.mOffset 0
          rhs := p.right.offset 1 p.rhs r.nOffset 0
          result := p.out.offset p.outSize p.result r.mOffset r.nOffset }) ∧
        Regions est p.scratch ts) := by
  obtain ⟨t, e, h1, h2, h3⟩ := realTasks_spec (maxTasks := maxThreads) hm hn hk h
  obtain ⟨l, e2, h4, h5, h6⟩ := C45_tasks_partial (maxTasks := maxThreads) hm hn hk h
  unfold prepareGemmTasks
  rw [e, ok_bind]
  by_cases ht : t = 1
  · rw [if_pos ht]; exact ⟨_, rfl, .inl rfl⟩
  · rw [if_neg ht, e2, ok_bind]
    have hl : 2 ≤ l.length := by
      unfold prepareRects at e2
      rw [e, ok_bind, if_neg ht] at e2
      obtain ⟨q, rfl⟩ : ∃ q : Nat, t = q := ⟨t.toNat, by omega⟩
      split at e2
      · cases e2; rw [List.length_map, cut_length (by omega)]; omega
      · cases e2; rw [List.length_map, cut_length (by omega)]; omega
    refine ⟨_, rfl, .inr ⟨l, _, rfl, h4, hl, by omega, ?_, prepareFrom_regions est _ _ _⟩⟩
    rw [prepareFrom_eq]; rfl

/-- **C45** for `PrepareTransform1DTasks`. -/
theorem C45_transform_tasks {cost count : Nat} {maxThreads : Int} (hc' : cost ≤ 12)
    (h : count * cost ≤ 2147483647) :
    ∃ o, prepareTransform1DTasks cost maxThreads count = .ok o ∧
      (o = none ∨ ∃ l, o = some l ∧ Pieces count l ∧ 2 ≤ l.length ∧ (l.length : Int) ≤ maxThreads) := by
  have e1 : cint ((count : Int) * cost) = .ok ((count * cost : Nat) : Int) := by
    rw [← Int.natCast_mul]; exact cint_ok ⟨by omega, by omega⟩
  have e2 : cint (((count * cost : Nat) : Int) - 128000) = .ok (((count * cost : Nat) : Int) - 128000) :=
    cint_ok ⟨by omega, by omega⟩
  unfold prepareTransform1DTasks
  rw [e1, ok_bind, e2, ok_bind]
  dsimp only
  split
  · exact ⟨_, rfl, .inl rfl⟩
  · rename_i ht
    have hle : count * cost ≤ count * 12 := Nat.mul_le_mul_left _ hc'
    obtain ⟨q, hq⟩ : ∃ q, q = ((((count * cost : Nat) : Int) - 128000).tdiv 32000) := ⟨_, rfl⟩
    rw [← hq] at ht ⊢
    have hq2 : q ≤ count := by
      by_cases hs : 0 ≤ ((count * cost : Nat) : Int) - 128000
      · rw [Int.tdiv_eq_ediv_of_nonneg hs] at hq; omega
      · have h0 : 0 ≤ (-(((count * cost : Nat) : Int) - 128000)).tdiv 32000 :=
          Int.tdiv_nonneg (by omega) (by omega)
        rw [Int.neg_tdiv] at h0
        omega
    refine ⟨_, rfl, .inr ⟨_, rfl, cut_pieces (by omega) (by omega), ?_, ?_⟩⟩ <;>
      rw [cut_length (by omega)] <;> omega

/-- **C45**, finding F29: for a product of 2048 x 2048 matrices the number of multiplications does not fit in
an `int`: computing the number of tasks overflows. -/
theorem C45_tasks_overflow (maxTasks : Int) : prepareRects maxTasks 2048 2048 2048 = .error .overflow := by
  rfl

/-! ## C46: cache-friendly executors -/

/-- **C46**, as far as it holds: the dimension that is packed as a whole is cut into pieces that cover it, and
each but the last one takes no more chunks than fit into the cache next to the other operand.  What is missing
is the last one, see `C46_last_piece_fails`: it has up to as many more entries as there are pieces, less
one. -/
theorem C46_pieces_partial {cacheSize constantMemory perChunkMemory dim chunkDim : Nat}
    (hpc : 0 < perChunkMemory) (hfit : constantMemory + perChunkMemory < cacheSize) (hd : 0 < dim)
    (hc : 0 < chunkDim) :
    ∃ t, cacheFriendlyTasksCount cacheSize constantMemory perChunkMemory dim chunkDim = .ok t ∧ 0 < t ∧
      Pieces dim (cut dim t) ∧
      (∀ i c, (cut dim t)[i]? = some c → i + 1 < t ∨ dim % t = 0 →
        constantMemory + (c.2 + chunkDim - 1) / chunkDim * perChunkMemory ≤ cacheSize) ∧
      ∀ c ∈ cut dim t, c.2 ≤ (cacheSize - constantMemory) / perChunkMemory * chunkDim + (t - 1) := by
  obtain ⟨av, hav⟩ : ∃ av, av = (cacheSize - constantMemory) / perChunkMemory := ⟨_, rfl⟩
  obtain ⟨ch, hch⟩ : ∃ ch, ch = (dim + chunkDim - 1) / chunkDim := ⟨_, rfl⟩
  obtain ⟨t, ht⟩ : ∃ t, t = (ch + av - 1) / av := ⟨_, rfl⟩
  have hav1 : 1 ≤ av := by
    rw [hav]; exact (Nat.one_le_div_iff hpc).2 (by omega)
  have havm : av * perChunkMemory ≤ cacheSize - constantMemory := by
    rw [hav]; exact Nat.div_mul_le_self _ _
  have hch1 : 1 ≤ ch := by
    rw [hch]; exact (Nat.one_le_div_iff hc).2 (by omega)
  have hchd : ch ≤ dim := by
    rw [hch]
    refine Nat.lt_succ_iff.1 ((Nat.div_lt_iff_lt_mul hc).2 ?_)
    have : dim * 1 ≤ dim * chunkDim := Nat.mul_le_mul_left _ hc
    rw [Nat.succ_mul]; omega
  have hdc : dim ≤ ch * chunkDim := by
    have := Nat.lt_div_mul_add (a := dim + chunkDim - 1) hc
    rw [← hch] at this; omega
  have hct : ch ≤ t * av := by
    have := Nat.lt_div_mul_add (a := ch + av - 1) hav1
    rw [← ht] at this; omega
  have ht1 : 1 ≤ t := by rw [ht]; exact (Nat.one_le_div_iff hav1).2 (by omega)
  have htc : t ≤ ch := by
    rw [ht]
    refine Nat.lt_succ_iff.1 ((Nat.div_lt_iff_lt_mul hav1).2 ?_)
    have : ch * 1 ≤ ch * av := Nat.mul_le_mul_left _ hav1
    rw [Nat.succ_mul]; omega
  have hpd : dim / t ≤ av * chunkDim := by
    refine Nat.div_le_of_le_mul (Nat.le_trans hdc ?_)
    rw [← Nat.mul_assoc]
    exact Nat.mul_le_mul_right _ hct
  have hceil : (dim / t + chunkDim - 1) / chunkDim ≤ av := by
    refine Nat.lt_succ_iff.1 ((Nat.div_lt_iff_lt_mul hc).2 ?_)
    rw [Nat.succ_mul]; omega
  have hmem : constantMemory + (dim / t + chunkDim - 1) / chunkDim * perChunkMemory ≤ cacheSize := by
    have := Nat.mul_le_mul_right perChunkMemory hceil
    omega
  have hsplit : dim - (t - 1) * (dim / t) = dim / t + dim % t := by
    have h1 := Nat.div_add_mod dim t
    have h2 : (t - 1) * (dim / t) + dim / t = t * (dim / t) := by
      rw [← Nat.succ_mul]; congr 1; omega
    generalize dim / t = d at *
    omega
  refine ⟨t, ?_, ht1, cut_pieces ht1 (by omega), ?_, ?_⟩
  · unfold cacheFriendlyTasksCount assertM
    rw [if_pos (by simpa using hfit), ok_bind, ht, hch, hav]; rfl
  · intro i c hi hor
    have hlt : i < t := by
      obtain ⟨hlt, _⟩ := List.getElem?_eq_some_iff.1 hi
      rwa [cut_length ht1] at hlt
    rw [cut_get hlt] at hi
    cases hi
    simp only
    split
    · rw [hsplit, show dim % t = 0 by omega]; exact hmem
    · exact hmem
  · intro c hm
    obtain ⟨i, hi, rfl⟩ := cut_mem ht1 hm
    have := Nat.mod_lt dim ht1
    simp only
    rw [← hav]
    split
    · rw [hsplit]; omega
    · omega

/-- **C46** fails, finding F9: for a product with 2048 levels of depth and 1239 columns, and the cache size
262144 of the kernel shape 2 x 4 x 8 (meta/test_gemm_correctness.cc and the benchmarks use 256 kB), the
columns are cut into 10 pieces.  The last one has 132 columns; packed, it takes 275520 bytes together with
the strip of the left operand. -/
theorem C46_last_piece_fails :
    let left : StreamParams := ⟨.rowMajorWithSum, 2048, 2048, 0, 0⟩
    let cache := 262144
    cacheFriendlyTasksCount cache (left.packedStride 1 2 8) (left.packedStride 1 4 8) 1239 4 = .ok 10 ∧
      (cut 1239 10)[9]? = some (1107, 132) ∧
      left.packedStride 1 2 8 + (132 + 3) / 4 * left.packedStride 1 4 8 = 275520 ∧ 275520 > cache := by
  refine ⟨?_, by decide, by decide, by decide⟩
  unfold cacheFriendlyTasksCount assertM
  rw [if_pos (by decide), ok_bind]
  rfl

/-- The hypotheses of `C46_pieces_partial` are met there. -/
example : let left : StreamParams := ⟨.rowMajorWithSum, 2048, 2048, 0, 0⟩
    0 < left.packedStride 1 4 8 ∧ left.packedStride 1 2 8 + left.packedStride 1 4 8 < 262144 := by decide

/-! ## C47: the legacy cache-friendly driver -/

/-- The documented optimal width, meta/legacy_multi_thread_gemm.h:39-40: the number of columns, a multiple
of four, that fit into 256 kB, at least one. -/
def optimalWidth (k : Nat) : Nat := max 1 (262144 / (4 * k) * 4)

/-- **C47**: if the sizes fit in an `int`, the columns are cut into consecutive chunks that cover every one
exactly once, none of them empty; all but the last have the optimal width, the last one less than twice
that; and a panel that fits in 256 kB is not cut. -/
theorem C47_chunks {n k : Nat} (hn : 0 < n) (hk : 0 < k) (hnk : n * k ≤ 2147483647)
    (hk4 : 4 * k ≤ 2147483647) :
    ∃ l, cacheFriendlyChunks n k = .ok l ∧ Pieces n l ∧
      (n * k ≤ 262144 → l = [(0, n)]) ∧
      (n * k > 262144 → (∀ c ∈ l, c.2 < 2 * optimalWidth k) ∧
        ∀ i c, l[i]? = some c → c.1 = i * optimalWidth k ∧ (i + 1 < l.length → c.2 = optimalWidth k)) := by
  have e1 : cint ((n : Int) * k) = .ok ((n * k : Nat) : Int) := by
    rw [← Int.natCast_mul]; exact cint_ok ⟨by omega, by omega⟩
  unfold cacheFriendlyChunks
  rw [e1, ok_bind]
  by_cases hbig : n * k > 262144
  · have e2 : cint ((k : Int) * 4) = .ok ((k * 4 : Nat) : Int) := by
      rw [show (k : Int) * 4 = ((k * 4 : Nat) : Int) by omega]; exact cint_ok ⟨by omega, by omega⟩
    rw [if_pos (show ((n * k : Nat) : Int) > (kMaxCacheFriendlySize : Int) by
      unfold kMaxCacheFriendlySize; omega), e2, ok_bind]
    have ho : max 1 (4 * (kMaxCacheFriendlySize / ((k * 4 : Nat) : Int).toNat)) = optimalWidth k := by
      unfold optimalWidth kMaxCacheFriendlySize
      rw [Int.toNat_natCast, Nat.mul_comm k 4, Nat.mul_comm 4 (_ / _)]
    rw [ho]
    obtain ⟨o, hoe⟩ : ∃ o, o = optimalWidth k := ⟨_, rfl⟩
    rw [← hoe]
    have ho1 : 1 ≤ o := by rw [hoe]; unfold optimalWidth; omega
    have hok : o = 1 ∨ o * k ≤ 262144 := by
      have h1 : 262144 / (4 * k) * (4 * k) ≤ 262144 := Nat.div_mul_le_self _ _
      rw [← Nat.mul_assoc] at h1
      rw [hoe]; unfold optimalWidth
      rcases Nat.le_total 1 (262144 / (4 * k) * 4) with h | h
      · right; rw [Nat.max_eq_right h]; exact h1
      · left; exact Nat.max_eq_left h
    have hon : o ≤ n := by
      rcases hok with h | h
      · omega
      · exact Nat.le_of_lt (Nat.lt_of_mul_lt_mul_right (a := k) (by omega))
    have hkn : k ≤ n * k := Nat.le_mul_of_pos_left _ hn
    have e3 : cint ((o : Int) * k) = .ok ((o * k : Nat) : Int) := by
      rw [← Int.natCast_mul]
      refine cint_ok ⟨by omega, ?_⟩
      rcases hok with h | h
      · rw [h, Nat.one_mul]; omega
      · omega
    have hq : 1 ≤ n / o := Nat.div_pos hon ho1
    obtain ⟨q, hqe⟩ : ∃ q, n / o = q + 1 := ⟨n / o - 1, by omega⟩
    have hdm : o * (q + 1) + n % o = n := by rw [← hqe]; exact Nat.div_add_mod n o
    have hml := Nat.mod_lt n ho1
    have hmul : o * (q + 1) = q * o + o := by rw [Nat.mul_comm, Nat.succ_mul]
    have hne : (n : Int) - ((q + 1 : Nat) - 1) * o = ((o + n % o : Nat) : Int) := by
      rw [show ((q + 1 : Nat) : Int) - 1 = (q : Int) by omega, ← Int.natCast_mul]; omega
    have hnn : n ≤ n * k := Nat.le_mul_of_pos_right _ hk
    have e4 : cint ((n : Int) - ((q + 1 : Nat) - 1) * o) = .ok ((o + n % o : Nat) : Int) := by
      rw [hne]; exact cint_ok ⟨by omega, by omega⟩
    dsimp only
    rw [hqe, e3, ok_bind, e4, ok_bind, if_neg (show ¬ ((q + 1 : Nat) : Int) - 1 < 0 by omega),
      show (((q + 1 : Nat) : Int) - 1) = (q : Int) by omega, Int.toNat_natCast, Int.toNat_natCast,
      show ((q : Int) * (o : Int)).toNat = q * o by rw [← Int.natCast_mul, Int.toNat_natCast]]
    obtain ⟨l, hl⟩ : ∃ l, l = (List.range q).map (fun i => (i * o, o)) ++ [(q * o, o + n % o)] := ⟨_, rfl⟩
    have hlen : l.length = q + 1 := by rw [hl]; simp
    have hget : ∀ i, i < q + 1 → l[i]? = some (i * o, if i = q then o + n % o else o) := by
      intro i hi
      rw [hl]
      by_cases h : i = q
      · rw [if_pos h, List.getElem?_append_right (by simp; omega)]
        simp [h]
      · rw [if_neg h, List.getElem?_append_left (by simp; omega), List.getElem?_map,
          List.getElem?_range (by omega)]
        rfl
    have hmem : ∀ c ∈ l, ∃ i, i < q + 1 ∧ c = (i * o, if i = q then o + n % o else o) := by
      intro c hc
      obtain ⟨i, hi⟩ := List.mem_iff_getElem?.1 hc
      have hlt : i < q + 1 := by
        obtain ⟨hlt, _⟩ := List.getElem?_eq_some_iff.1 hi
        rwa [hlen] at hlt
      rw [hget i hlt] at hi
      cases hi
      exact ⟨i, hlt, rfl⟩
    have hle : ∀ {i j : Nat}, i < j → i * o + o ≤ j * o := fun {i j} h => by
      have := Nat.mul_le_mul_right o (show i + 1 ≤ j from h)
      rwa [Nat.add_mul, Nat.one_mul] at this
    refine ⟨l, by rw [hl]; rfl, ⟨?_, ?_, ?_⟩, fun h => absurd h (by omega), fun _ => ⟨?_, ?_⟩⟩
    · intro c hc
      obtain ⟨i, _, rfl⟩ := hmem c hc
      simp only
      split <;> omega
    · intro c hc
      obtain ⟨i, hi, rfl⟩ := hmem c hc
      simp only
      split
      · rename_i h; subst h; omega
      · have := hle (show i < q by omega); omega
    · intro i hi
      refine ⟨min (i / o) q, ⟨_, hget _ (by omega), ?_⟩, ?_⟩
      · simp only
        have h1 := Nat.div_mul_le_self i o
        have h2 := Nat.lt_div_mul_add (a := i) ho1
        by_cases h : i / o < q
        · rw [Nat.min_eq_left (by omega), if_neg (by omega)]; omega
        · rw [Nat.min_eq_right (by omega), if_pos rfl]
          have := Nat.mul_le_mul_right o (show q ≤ i / o by omega)
          omega
      · rintro t ⟨c, hc, h1, h2⟩
        have hlt : t < q + 1 := by
          obtain ⟨hlt, _⟩ := List.getElem?_eq_some_iff.1 hc
          rwa [hlen] at hlt
        rw [hget t hlt] at hc
        cases hc
        simp only at h1 h2
        by_cases h : t = q
        · have : q ≤ i / o := (Nat.le_div_iff_mul_le ho1).2 (by rw [← h]; exact h1)
          omega
        · rw [if_neg h] at h2
          have h3 : i / o = t := by
            apply Nat.div_eq_of_lt_le
            · exact h1
            · rw [Nat.add_mul, Nat.one_mul]; exact h2
          omega
    · intro c hc
      obtain ⟨i, hi, rfl⟩ := hmem c hc
      simp only
      split <;> omega
    · intro i c hc
      have hlt : i < q + 1 := by
        obtain ⟨hlt, _⟩ := List.getElem?_eq_some_iff.1 hc
        rwa [hlen] at hlt
      rw [hget i hlt] at hc
      cases hc
      refine ⟨rfl, fun h => ?_⟩
      simp only
      rw [if_neg (by omega)]
  · rw [if_neg (show ¬ ((n * k : Nat) : Int) > (kMaxCacheFriendlySize : Int) by
      unfold kMaxCacheFriendlySize; omega)]
    refine ⟨[(0, n)], rfl, ⟨?_, ?_, ?_⟩, fun _ => rfl, fun h => absurd h hbig⟩
    · intro c hc; simp at hc; subst hc; exact hn
    · intro c hc; simp at hc; subst hc; simp
    · intro i hi
      refine ⟨0, ⟨_, rfl, by simpa using hi⟩, ?_⟩
      rintro t ⟨c, hc, -⟩
      obtain ⟨hlt, _⟩ := List.getElem?_eq_some_iff.1 hc
      simp at hlt; omega

/-- A case where the columns are cut: 1000 columns of depth 1024 make two chunks of 256 columns and a last
one of 488. -/
example : optimalWidth 1024 = 256 ∧ 1000 * 1024 > 262144 ∧ 1000 * 1024 ≤ 2147483647 := by decide

/-- **C47**, finding F29: with 65536 columns of depth 65536 the size computed to decide about cutting
overflows. -/
theorem C47_overflow : cacheFriendlyChunks 65536 65536 = .error .overflow := by rfl

end Meta
end Gemmlowp
