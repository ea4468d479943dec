import Verif.GemmSpec
import Verif.OutBuildProof
import Mathlib.Data.List.Nodup
/-!
# Correctness of the entry points: helper lemmas
-/
namespace Gemmlowp

/-! ## Scheduling -/

/-- Every plan can be carried out. -/
theorem outcome_exists {β : Type} (p : Plan β) (h : ∀ sc, p = .pool sc → ∀ ts ∈ sc, ts ≠ []) :
    ∃ t, Outcome p t := by
  cases p with
  | single t => exact ⟨t, .single t⟩
  | pool sc =>
    obtain ⟨who, hf, hs⟩ := Pool.fair_exists
    have hsc := h sc rfl
    have hrun := Pool.follow_run sc hsc who
    obtain ⟨n, -, hn⟩ := Pool.C18_fair_runs_terminate sc hsc _ who hrun hf hs
    have := Outcome.pool sc [] [] (Pool.follow sc who n)
      (by simpa using hrun.reachable n) (by rw [hn]; simp)
    exact ⟨_, this⟩

section
variable {β : Type} {a : GemmArgs β} {ty : InputScalar} {L R : Nat → Nat → UInt8} {LO RO : Nat → BitVec 32} {N : KernelNeeds}

theorem multiThreadGemm_ok (hK : a.Kernel ty N) (hW : a.Within N L R) (hD : a.Describe ty L R LO RO)
    (hr0 : 0 < a.result.rows) (hc0 : 0 < a.result.cols) (hd0 : 0 < a.lhs.cols)
    (hrc : a.result.cols ≤ a.result.rows)
    {P : Nat → Nat → BitVec 32 → β → Prop} (hp : OutOk a.out a.mode P) {val : Nat → Nat → β}
    (hv : ∀ r c, r < a.result.rows → c < a.result.cols →
      P r c (BitVec.ofInt 32 (exactEntry ty a.lhs.cols L R LO RO r c)) (val r c))
    {hw mt : Int} (ht : 0 < getHardwareConcurrency hw mt)
    (hf1 : (a.result.rows : Int) * getHardwareConcurrency hw mt ≤ 2147483647)
    (hf2 : (a.result.rows : Int) + max (a.k.kRows : Int) 16 ≤ 2147483647)
    (tun : Tuning) (s : Scratch) (ms : MtScratch) :
    ∃ pl, multiThreadGemm a tun hw mt s ms = .ok pl ∧ (∃ t, Outcome pl t) ∧
      ∀ t, Outcome pl t →
        t.Perm (rect (fun r c => (a.result.addr r c, val r c)) 0 a.result.rows 0 a.result.cols) := by
  unfold multiThreadGemm
  dsimp only
  rw [decide_eq_true hD.depth, decide_eq_true hr0, decide_eq_true hc0, decide_eq_true hd0,
    decide_eq_true hrc]
  simp only [assertM_true, ok_bind]
  obtain ⟨n, e1, e2, e3⟩ := howManyThreads_ok (kRows := a.k.kRows) (hw := hw) (mt := mt)
    (rows := a.result.rows) (cols := a.result.cols) (depth := a.lhs.cols) (by omega) hf2 ht
  rw [e1, ok_bind]
  by_cases h1 : n = 1
  · rw [if_pos h1]
    obtain ⟨t', q1, u, q2, q3⟩ := singleThreadGemm_ok hK hW hD hr0 hc0 hd0 hrc hp hv tun s []
    rw [q1, ok_bind]
    refine ⟨_, rfl, ⟨_, .single t'⟩, ?_⟩
    intro t ht
    cases ht
    rw [List.nil_append] at q2
    subst q2
    exact q3
  · rw [if_neg h1, decide_eq_true (show 1 < n by omega)]
    simp only [assertM_true, ok_bind]
    have hmul : (a.result.rows : Int) * n ≤ 2147483647 :=
      Int.le_trans (Int.mul_le_mul_of_nonneg_left e3 (by omega)) hf1
    have hn : ((n.toNat : Nat) : Int) = n := by omega
    obtain ⟨sc, q1, q2, q3⟩ := mtScript_ok hK hW hD hr0 hc0 hd0 hp hv (tc := n.toNat) (by omega)
      (by
        have : ((a.result.rows * n.toNat : Nat) : Int) = (a.result.rows : Int) * n := by
          rw [Int.natCast_mul, hn]
        omega) (by omega) tun ms
    rw [q1, ok_bind]
    refine ⟨_, rfl, outcome_exists _ ?_, ?_⟩
    · intro sc' h ts hts
      injection h with h
      subst h
      have := q2 ts hts
      intro he
      rw [he] at this
      simp at this
      omega
    · intro t ht
      cases ht with
      | pool sc pre post st h hc => exact (storesOf_perm h hc).trans q3

end

/-! ## Transposition -/

theorem rect_swap {γ : Type} {out : Nat → Nat → γ} (m c0 n : Nat) : ∀ r0,
    (rect (fun c r => out r c) c0 n r0 m).Perm (rect out r0 m c0 n) := by
  induction m with
  | zero =>
    intro r0
    rw [rect_zero_cols, rect_zero_rows]
  | succ m ih =>
    intro r0
    rw [rect_succ]
    have h1 := rect_cols (out := fun c r => out r c) n r0 1 m c0
    rw [Nat.add_comm 1 m] at h1
    refine h1.trans (List.Perm.append (List.Perm.of_eq ?_) (ih (r0 + 1)))
    unfold rect
    simp only [List.range'_one, List.map_cons, List.map_nil]
    induction List.range' c0 n with
    | nil => rfl
    | cons x l ih => rw [List.flatMap_cons, ih]; rfl

theorem sumTo_eq_sum (n : Nat) (f : Nat → Int) : sumTo n f = ∑ d ∈ Finset.range n, f d := by
  induction n with
  | zero => rfl
  | succ n ih => rw [Finset.sum_range_succ, sumTo_succ, ih]

theorem exactEntry_eq (t : InputScalar) (depth : Nat) (L R : Nat → Nat → UInt8) (LO RO : Nat → BitVec 32) (r c : Nat) :
    exactEntry t depth L R LO RO r c =
      productEntry t depth L R (fun i => (LO i).toInt) (fun j => (RO j).toInt) r c := by
  unfold exactEntry productEntry
  rw [sumTo_eq_sum]

theorem productEntry_swap (t : InputScalar) (depth : Nat) (L R : Nat → Nat → UInt8) (LO RO : Nat → Int) (r c : Nat) :
    productEntry t depth (fun i d => R d i) (fun d j => L j d) RO LO c r =
      productEntry t depth L R LO RO r c := by
  unfold productEntry
  apply Finset.sum_congr rfl
  intro d _
  rw [mul_comm]

theorem Call.Describes.transpose {c : Call} {L R : Nat → Nat → UInt8} {LO RO : Nat → BitVec 32}
    (h : c.Describes L R LO RO) :
    c.transpose.Describes (fun i d => R d i) (fun d j => L j d) RO LO where
  lhs := by
    intro i d hi hd
    show c.rhsMem (c.rhs.transpose.addr i d) = _
    rw [MatrixMap.transpose_addr]
    exact h.rhs d i (by rw [h.depth]; exact hd) hi
  rhs := by
    intro d j hd hj
    show c.lhsMem (c.lhs.transpose.addr d j) = _
    rw [MatrixMap.transpose_addr]
    exact h.lhs j d hj (by rw [h.depth]; exact hd)
  rows := h.cols
  cols := h.rows
  depth := h.depth.symm
  lhsOffset := OffsetVec.transpose_is h.rhsOffset
  rhsOffset := OffsetVec.transpose_is h.lhsOffset

theorem Env.Ok.transpose {e : Env} {c : Call} {ty : InputScalar} {L R : Nat → Nat → UInt8} (he : e.Ok ty c L R)
    (hd : c.lhs.cols = c.rhs.rows) : e.Ok ty c.transpose (fun i d => R d i) (fun d j => L j d) := by
  obtain ⟨N, hrun, hW⟩ := he.run
  have hdt : c.transpose.lhs.cols = c.lhs.cols := hd.symm
  have hside : ∀ o, o = c.transpose.lhs.order.lhsSide ∨ o = c.transpose.rhs.order.rhsSide →
      o = c.lhs.order.lhsSide ∨ o = c.rhs.order.rhsSide := by
    intro o ho
    rcases ho with h | h
    · refine .inr (h.trans ?_)
      show MapOrder.lhsSide (match c.rhs.order with | .rowMajor => .colMajor | .colMajor => .rowMajor) = _
      cases c.rhs.order <;> rfl
    · refine .inl (h.trans ?_)
      show MapOrder.rhsSide (match c.lhs.order with | .rowMajor => .colMajor | .colMajor => .rowMajor) = _
      cases c.lhs.order <;> rfl
  refine ⟨he.wf, ⟨N, hrun, hW.pad, by rw [hdt]; exact hW.int, ?_, ?_⟩, he.inputLhs, he.inputRhs, ?_, ?_, he.regDvd, he.threads, ?_, ?_⟩
  · intro h i j d hi hj hd
    exact hW.wide h j i d hj hi (by rw [← hdt]; exact hd)
  · intro h i j d hi hj hd
    exact hW.tall h j i d hj hi (by rw [← hdt]; exact hd)
  · intro o ho
    exact he.packLhs o (hside o ho)
  · intro o ho
    exact he.packRhs o (hside o ho)
  · have := he.fits1
    rw [Nat.max_comm] at this; exact this
  · have := he.fits2
    rw [Nat.max_comm] at this; exact this

/-! ## Dispatch -/

/-- The rectangle of stores that a call is meant to perform. -/
def Call.stores (c : Call) (val : Nat → Nat → Int) : List (Nat × Int) :=
  rect (fun r j => (c.result.addr r j, val r j)) 0 c.result.rows 0 c.result.cols

/-- The tall case. -/
theorem dispatch_tall {e : Env} {c : Call} {ty : InputScalar} {L R : Nat → Nat → UInt8} {LO RO : Nat → BitVec 32}
    (hD : c.Describes L R LO RO) (hI : c.InRange ty e.mode LO RO)
    (he : e.Ok ty c L R) (hd0 : 0 < c.lhs.cols) (hr0 : 0 < c.result.rows)
    (hc0 : 0 < c.result.cols) (hrc : c.result.cols ≤ c.result.rows) {val : Nat → Nat → Int}
    (hv : ∀ r j, r < c.result.rows → j < c.result.cols →
      c.pipe.scalar e.mode r j (BitVec.ofInt 32 (productEntry ty c.lhs.cols L R
        (fun i => (LO i).toInt) (fun j => (RO j).toInt) r j)) = .ok (val r j))
    (ho : e.out.Agrees e.mode c.pipe c.result.rows c.result.cols fun r j =>
      BitVec.ofInt 32 (productEntry ty c.lhs.cols L R (fun i => (LO i).toInt) (fun j => (RO j).toInt) r j)) :
    ∃ pl, dispatch e c = .ok pl ∧ (∃ t, Outcome pl t) ∧ ∀ t, Outcome pl t → t.Perm (c.stores val) := by
  unfold dispatch
  rw [decide_eq_true hD.depth]
  simp only [assertM_true, ok_bind]
  rw [if_neg (by omega), dif_neg (by omega)]
  have hmax : max c.result.rows c.result.cols = c.result.rows := by omega
  obtain ⟨N, hrun, hW⟩ := he.run
  have hf1 := he.fits1
  have hf2 := he.fits2
  rw [hmax] at hf1 hf2
  have hval : ∀ i j d, i < c.result.rows → j < c.result.cols → d < c.lhs.cols →
      N.pair (e.k.lhs.unwrap (L i d)) (e.k.rhs.unwrap (R d j)) := by
    intro i j d hi hj hd
    unfold SideFormat.unwrap
    rw [he.inputLhs, he.inputRhs]
    exact hW.tall hrc i j d hi hj hd
  refine multiThreadGemm_ok (a := c.args e) (L := L) (R := R) (LO := LO) (RO := RO)
    (N := N)
    ⟨he.wf, hrun, he.inputLhs, he.inputRhs, he.packLhs _ (.inl rfl), he.packRhs _ (.inr rfl), he.regDvd⟩
    ⟨hW.pad, hW.int, hval⟩ ⟨?_, ?_, hD.rows, hD.cols, hD.depth, hD.lhsOffset, hD.rhsOffset, hI⟩
    hr0 hc0 hd0 hrc (OutBuild.ok ho.supports) ?_ he.threads hf1 hf2 _ _ _
  · intro r d hr hd
    exact hD.lhs r d (by rw [← hD.rows]; exact hr) hd
  · intro d j hd hj
    exact hD.rhs d j (by rw [hD.depth]; exact hd) (by rw [← hD.cols]; exact hj)
  · intro r j hr hj
    rw [exactEntry_eq]
    exact ⟨hv r j hr hj, ho.safe r j hr hj⟩

theorem dispatch_ok {e : Env} {c : Call} {ty : InputScalar} {L R : Nat → Nat → UInt8} {LO RO : Nat → BitVec 32}
    (hD : c.Describes L R LO RO) (hI : c.InRange ty e.mode LO RO)
    (he : e.Ok ty c L R) (hd0 : 0 < c.lhs.cols) {val : Nat → Nat → Int}
    (hv : ∀ r j, r < c.result.rows → j < c.result.cols →
      c.pipe.scalar e.mode r j (BitVec.ofInt 32 (productEntry ty c.lhs.cols L R
        (fun i => (LO i).toInt) (fun j => (RO j).toInt) r j)) = .ok (val r j))
    (ho : e.out.Agrees e.mode c.pipe c.result.rows c.result.cols fun r j =>
      BitVec.ofInt 32 (productEntry ty c.lhs.cols L R (fun i => (LO i).toInt) (fun j => (RO j).toInt) r j)) :
    ∃ pl, dispatch e c = .ok pl ∧ (∃ t, Outcome pl t) ∧ ∀ t, Outcome pl t → t.Perm (c.stores val) := by
  by_cases hz : c.result.rows = 0 ∨ c.result.cols = 0
  · refine ⟨.single [], ?_, ⟨_, .single _⟩, ?_⟩
    · unfold dispatch
      rw [decide_eq_true hD.depth]
      simp only [assertM_true, ok_bind]
      rw [if_pos (by omega)]; rfl
    · intro t ht
      cases ht
      unfold Call.stores
      rcases hz with h | h
      · rw [h, rect_zero_rows]
      · rw [h, rect_zero_cols]
  · by_cases hrc : c.result.cols ≤ c.result.rows
    · exact dispatch_tall hD hI he hd0 (by omega) (by omega) hrc hv ho
    · have hdt : c.transpose.lhs.cols = c.lhs.cols := hD.depth.symm
      obtain ⟨pl, h1, h2, h3⟩ := dispatch_tall (e := e) (c := c.transpose) (val := fun r j => val j r)
        hD.transpose
        (by
          intro hm
          obtain ⟨i1, i2, i3⟩ := hI hm
          exact ⟨by rw [hdt]; exact i1, i3, i2⟩)
        (he.transpose hD.depth)
        (by rw [hdt]; exact hd0) (show 0 < c.result.cols by omega) (show 0 < c.result.rows by omega)
        (show c.result.rows ≤ c.result.cols by omega)
        (by
          intro r j hr hj
          show c.pipe.transpose.scalar _ _ _ _ = _
          rw [pipeline_transpose, hdt, productEntry_swap]
          exact hv j r hj hr)
        (ho.transpose.congr fun r j _ _ => by
          rw [hdt, productEntry_swap])
      refine ⟨pl, ?_, h2, ?_⟩
      · unfold dispatch
        rw [decide_eq_true hD.depth]
        simp only [assertM_true, ok_bind]
        rw [if_neg (by omega), dif_pos (by omega), h1]
      · intro t ht
        refine (h3 t ht).trans ?_
        unfold Call.stores
        have e1 : rect (fun r j => (c.transpose.result.addr r j, val j r)) 0 c.transpose.result.rows 0
            c.transpose.result.cols =
            rect (fun r j => (c.result.addr j r, val j r)) 0 c.result.cols 0 c.result.rows := by
          apply rect_congr
          intro r j _ _ _ _
          show (c.result.transpose.addr r j, _) = _
          rw [MatrixMap.transpose_addr]
        rw [e1]
        exact rect_swap (out := fun r j => (c.result.addr r j, val r j)) _ _ _ _

/-! ## The memory afterwards -/

theorem applyStores_append (mem : Nat → Int) (t u : Trace Int) :
    applyStores mem (t ++ u) = applyStores (applyStores mem t) u := by
  unfold applyStores; rw [List.foldl_append]

theorem applyStores_cons (mem : Nat → Int) (s : Nat × Int) (t : Trace Int) :
    applyStores mem (s :: t) = applyStores (fun a => if a = s.1 then s.2 else mem a) t := rfl

theorem applyStores_other {mem : Nat → Int} {t : Trace Int} {a : Nat} (h : ∀ s ∈ t, s.1 ≠ a) :
    applyStores mem t a = mem a := by
  induction t generalizing mem with
  | nil => rfl
  | cons s t ih =>
    rw [applyStores_cons, ih (fun s' h' => h s' (by simp [h']))]
    rw [if_neg (fun he => h s (by simp) he.symm)]

theorem applyStores_hit {mem : Nat → Int} {t : Trace Int} {a : Nat} {v : Int}
    (h : ∀ s ∈ t, s.1 = a → s.2 = v) (hex : ∃ s ∈ t, s.1 = a) : applyStores mem t a = v := by
  induction t generalizing mem with
  | nil => obtain ⟨s, hs, _⟩ := hex; simp at hs
  | cons s t ih =>
    rw [applyStores_cons]
    by_cases hin : ∃ s ∈ t, s.1 = a
    · exact ih (fun s' h' => h s' (by simp [h'])) hin
    · rw [applyStores_other (fun s' hs' he => hin ⟨s', hs', he⟩)]
      obtain ⟨s', hs', he⟩ := hex
      rcases List.mem_cons.1 hs' with rfl | hmem
      · rw [if_pos he.symm]
        exact h s' (by simp) he
      · exact absurd ⟨s', hmem, he⟩ hin

theorem mem_rect_iff {γ : Type} {out : Nat → Nat → γ} {r0 m c0 n : Nat} {x : γ} :
    x ∈ rect out r0 m c0 n ↔ ∃ r c, r0 ≤ r ∧ r < r0 + m ∧ c0 ≤ c ∧ c < c0 + n ∧ out r c = x := by
  unfold rect
  simp only [List.mem_flatMap, List.mem_range'_1, List.mem_map]
  constructor
  · rintro ⟨r, ⟨h1, h2⟩, c, ⟨h3, h4⟩, rfl⟩
    exact ⟨r, c, h1, h2, h3, h4, rfl⟩
  · rintro ⟨r, c, h1, h2, h3, h4, rfl⟩
    exact ⟨r, ⟨h1, h2⟩, c, ⟨h3, h4⟩, rfl⟩

theorem mem_stores {c : Call} {val : Nat → Nat → Int} {x : Nat × Int} :
    x ∈ c.stores val ↔ ∃ r j, r < c.result.rows ∧ j < c.result.cols ∧
      x = (c.result.addr r j, val r j) := by
  unfold Call.stores
  rw [mem_rect_iff]
  constructor
  · rintro ⟨r, j, _, h1, _, h2, rfl⟩
    exact ⟨r, j, by omega, by omega, rfl⟩
  · rintro ⟨r, j, h1, h2, rfl⟩
    exact ⟨r, j, by omega, by omega, by omega, by omega, rfl⟩

theorem stores_memory {c : Call} {val : Nat → Nat → Int} {t : Trace Int} (hs : c.result.StrideOk)
    (h : t.Perm (c.stores val)) (mem : Nat → Int) :
    (∀ r j, r < c.result.rows → j < c.result.cols → applyStores mem t (c.result.addr r j) = val r j) ∧
    (∀ a, (∀ r j, r < c.result.rows → j < c.result.cols → a ≠ c.result.addr r j) →
      applyStores mem t a = mem a) := by
  constructor
  · intro r j hr hj
    apply applyStores_hit
    · intro s hs' he
      obtain ⟨r', j', h1, h2, rfl⟩ := mem_stores.1 (h.mem_iff.1 hs')
      obtain ⟨rfl, rfl⟩ := MatrixMap.addr_inj hs h1 h2 hr hj he
      rfl
    · exact ⟨_, h.mem_iff.2 (mem_stores.2 ⟨r, j, hr, hj, rfl⟩), rfl⟩
  · intro a ha
    apply applyStores_other
    intro s hs' he
    obtain ⟨r', j', h1, h2, rfl⟩ := mem_stores.1 (h.mem_iff.1 hs')
    exact ha r' j' h1 h2 he.symm

theorem rect_nodup {γ : Type} {out : Nat → Nat → γ} {r0 m c0 n : Nat}
    (h : ∀ r c r' c', r < r0 + m → c < c0 + n → r' < r0 + m → c' < c0 + n → out r c = out r' c' →
      r = r' ∧ c = c') : (rect out r0 m c0 n).Nodup := by
  induction m generalizing r0 with
  | zero => rw [rect_zero_rows]; exact List.nodup_nil
  | succ m ih =>
    rw [rect_succ, List.nodup_append]
    refine ⟨?_, ih (fun r c r' c' h1 h2 h3 h4 he => h r c r' c' (by omega) h2 (by omega) h4 he), ?_⟩
    · apply List.Nodup.map_on
      · intro x hx y hy he
        rw [List.mem_range'_1] at hx hy
        exact (h r0 x r0 y (by omega) (by omega) (by omega) (by omega) he).2
      · exact List.nodup_range'
    · intro x hx y hy he
      subst he
      obtain ⟨j, hj, rfl⟩ := List.mem_map.1 hx
      obtain ⟨r, c, h1, h2, h3, h4, he⟩ := mem_rect_iff.1 hy
      rw [List.mem_range'_1] at hj
      have := (h r c r0 j (by omega) (by omega) (by omega) (by omega) he).1
      omega

theorem stores_nodup {c : Call} {val : Nat → Nat → Int} (hs : c.result.StrideOk) :
    ((c.stores val).map Prod.fst).Nodup := by
  have : (c.stores val).map Prod.fst = rect (fun r j => c.result.addr r j) 0 c.result.rows 0
      c.result.cols := by
    unfold Call.stores rect
    rw [List.map_flatMap]
    simp only [List.map_map]
    rfl
  rw [this]
  apply rect_nodup
  intro r j r' j' h1 h2 h3 h4 he
  exact MatrixMap.addr_inj hs (by omega) (by omega) (by omega) (by omega) he

end Gemmlowp
