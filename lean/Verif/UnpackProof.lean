import Verif.Unpack
/-!
# Unpacking writes every entry of the destination block exactly once
-/
namespace Gemmlowp

/-- The list of `out r c` for the rectangle `[r0, r0+m) × [c0, c0+n)`. -/
def rect {γ : Type} (out : Nat → Nat → γ) (r0 m c0 n : Nat) : List γ :=
  (List.range' r0 m).flatMap fun r => (List.range' c0 n).map (out r)

section
variable {γ : Type} {out : Nat → Nat → γ}

theorem rect_rows (r0 m m' c0 n : Nat) :
    rect out r0 (m + m') c0 n = rect out r0 m c0 n ++ rect out (r0 + m) m' c0 n := by
  unfold rect
  rw [← List.flatMap_append]
  have := List.range'_append (s := r0) (m := m) (n := m') (step := 1)
  rw [Nat.one_mul] at this
  rw [this]

theorem rect_zero_rows (r0 c0 n : Nat) : rect out r0 0 c0 n = [] := rfl

theorem rect_zero_cols (r0 m c0 : Nat) : rect out r0 m c0 0 = [] := by
  unfold rect; simp

theorem rect_succ (r0 m c0 n : Nat) :
    rect out r0 (m + 1) c0 n = (List.range' c0 n).map (out r0) ++ rect out (r0 + 1) m c0 n := by
  unfold rect
  rw [List.range'_succ, List.flatMap_cons]

theorem rect_cols (m c0 n n' : Nat) : ∀ r0, (rect out r0 m c0 (n + n')).Perm
    (rect out r0 m c0 n ++ rect out r0 m (c0 + n) n') := by
  induction m with
  | zero => intro r0; exact List.Perm.refl _
  | succ m ih =>
    intro r0
    rw [rect_succ, rect_succ, rect_succ]
    have h1 := List.range'_append (s := c0) (m := n) (n := n') (step := 1)
    rw [Nat.one_mul] at h1
    rw [← h1, List.map_append, List.append_assoc, List.append_assoc]
    refine List.Perm.append_left _ ?_
    refine (List.Perm.append_left _ (ih (r0 + 1))).trans ?_
    rw [← List.append_assoc, ← List.append_assoc]
    exact List.Perm.append_right _ List.perm_append_comm

theorem mem_rect {r0 m c0 n : Nat} {x : γ} : x ∈ rect out r0 m c0 n ↔
    ∃ r c, (r0 ≤ r ∧ r < r0 + m) ∧ (c0 ≤ c ∧ c < c0 + n) ∧ out r c = x := by
  unfold rect
  simp only [List.mem_flatMap, List.mem_range'_1, List.mem_map]
  constructor
  · rintro ⟨r, hr, c, hc, rfl⟩; exact ⟨r, c, hr, hc, rfl⟩
  · rintro ⟨r, c, hr, hc, rfl⟩; exact ⟨r, hr, c, hc, rfl⟩

theorem rect_congr {out' : Nat → Nat → γ} {r0 m c0 n : Nat}
    (h : ∀ r c, r0 ≤ r → r < r0 + m → c0 ≤ c → c < c0 + n → out r c = out' r c) :
    rect out r0 m c0 n = rect out' r0 m c0 n := by
  unfold rect
  have : ∀ r ∈ List.range' r0 m, (List.range' c0 n).map (out r) = (List.range' c0 n).map (out' r) := by
    intro r hr
    apply List.map_congr_left
    intro c hc
    rw [List.mem_range'_1] at hr hc
    exact h r c hr.1 hr.2 hc.1 hc.2
  rw [List.flatMap_def, List.flatMap_def, List.map_congr_left this]

theorem range'_shift (a s n : Nat) : List.range' (a + s) n = (List.range' s n).map (a + ·) := by
  rw [List.map_add_range']

theorem rect_shift (a b r0 m c0 n : Nat) :
    rect (fun r c => out (a + r) (b + c)) r0 m c0 n = rect out (a + r0) m (b + c0) n := by
  unfold rect
  rw [range'_shift a, range'_shift b]
  simp only [List.flatMap_map, List.map_map]
  rfl

/-- One row more. -/
theorem rect_snoc (r0 m c0 n : Nat) :
    rect out r0 (m + 1) c0 n = rect out r0 m c0 n ++ (List.range' c0 n).map (out (r0 + m)) := by
  rw [rect_rows, rect_succ, rect_zero_rows, List.append_nil]

end

theorem storeTrace_of {β : Type} (dst : MatrixMap) (R C : Nat) (f : Nat → Nat → β)
    (row col : Nat) (t : Trace β) :
    storeFinal storeTrace dst (RBlock.of R C f) row col t =
      .ok (t ++ rect (fun r c => (dst.addr (row + r) (col + c), f r c)) 0 R 0 C) := by
  have h : ∃ t', storeFinal storeTrace dst (RBlock.of R C f) row col t = .ok t' ∧
      t' = t ++ rect (fun r c => (dst.addr (row + r) (col + c), f r c)) 0 R 0 C := by
    unfold storeFinal
    refine forLoop_post (fun i t' => t' = t ++
        rect (fun r c => (dst.addr (row + r) (col + c), f r c)) 0 i 0 C)
      (by rw [rect_zero_rows, List.append_nil]) (fun s hs => hs) ?_
    intro i s hi hs
    refine forLoop_post (fun j t' => t' = s ++
        (List.range' 0 j).map (fun c => (dst.addr (row + i) (col + c), f i c)))
      (by simp) (fun s' hs' => ?_) ?_
    · rw [hs', hs, rect_snoc, List.append_assoc, Nat.zero_add]; rfl
    · intro j s' hj hs'
      have : (RBlock.of R C f).regAt (i + j * (RBlock.of R C f).rows) = .ok (f i j) :=
        RBlock.at_of hi hj
      rw [this, ok_bind]
      refine ⟨_, rfl, ?_⟩
      rw [hs', List.append_assoc, List.range'_1_concat, List.map_append]
      simp
  obtain ⟨t', h1, h2⟩ := h
  rw [h1, h2]

theorem storeLocal_of {β : Type} (C : Nat) (f : Nat → Nat → β) (col : Nat) (hC : col + C ≤ 8)
    (b : Buf (Option β)) (hb : b.size = 64) :
    ∃ b', storeFinal storeLocal (MatrixMap.mk3 .colMajor 0 8 8) (RBlock.of 8 C f) 0 col b = .ok b' ∧
      b'.size = 64 ∧ ∀ r c, r < 8 → c < 8 → b'.get (r + c * 8) =
        if col ≤ c ∧ c < col + C then some (f r (c - col)) else b.get (r + c * 8) := by
  unfold storeFinal
  refine forLoop_post (fun i b' => b'.size = 64 ∧ ∀ r c, r < 8 → c < 8 → b'.get (r + c * 8) =
        if r < i ∧ col ≤ c ∧ c < col + C then some (f r (c - col)) else b.get (r + c * 8))
    ⟨hb, by intro r c _ _; rw [if_neg (by omega)]⟩ ?_ ?_
  · rintro s ⟨h1, h2⟩
    refine ⟨h1, fun r c hr hc => ?_⟩
    rw [h2 r c hr hc]
    have : (r < (RBlock.of 8 C f).rows) := hr
    by_cases hh : col ≤ c ∧ c < col + C
    · rw [if_pos ⟨this, hh⟩, if_pos hh]
    · rw [if_neg (fun h => hh h.2), if_neg hh]
  · rintro i s hi ⟨h1, h2⟩
    have hi8 : i < 8 := hi
    refine forLoop_post (fun j b' => b'.size = 64 ∧ ∀ r c, r < 8 → c < 8 → b'.get (r + c * 8) =
        if (r < i ∧ col ≤ c ∧ c < col + C) ∨ (r = i ∧ col ≤ c ∧ c < col + j)
        then some (f r (c - col)) else b.get (r + c * 8)) ⟨h1, ?_⟩ ?_ ?_
    · intro r c hr hc
      rw [h2 r c hr hc]
      by_cases hh : r < i ∧ col ≤ c ∧ c < col + C
      · rw [if_pos hh, if_pos (Or.inl hh)]
      · rw [if_neg hh, if_neg (by omega)]
    · rintro s' ⟨g1, g2⟩
      refine ⟨g1, fun r c hr hc => ?_⟩
      rw [g2 r c hr hc]
      have hcc : (RBlock.of 8 C f).cols = C := rfl
      rw [hcc]
      by_cases hh : r < i + 1 ∧ col ≤ c ∧ c < col + C
      · rw [if_pos hh, if_pos (by omega)]
      · rw [if_neg hh, if_neg (by omega)]
    · rintro j s' hj ⟨g1, g2⟩
      have hjC : j < C := hj
      have : (RBlock.of 8 C f).regAt (i + j * (RBlock.of 8 C f).rows) = .ok (f i j) :=
        RBlock.at_of hi hj
      rw [this, ok_bind]
      have haddr : (MatrixMap.mk3 .colMajor 0 8 8).addr (0 + i) (col + j) = i + (col + j) * 8 := by
        simp [MatrixMap.addr, MatrixMap.mk3, MatrixMap.rowsStride, MatrixMap.colsStride]
      unfold storeLocal
      rw [haddr, Buf.write_ok (by omega)]
      refine ⟨_, rfl, g1, ?_⟩
      intro r c hr hc
      rw [Buf.upd_get]
      by_cases he : r + c * 8 = i + (col + j) * 8
      · have : r = i ∧ c = col + j := by omega
        obtain ⟨rfl, rfl⟩ := this
        rw [if_pos rfl, if_pos (by omega), Nat.add_sub_cancel_left]
      · rw [if_neg he, g2 r c hr hc]
        by_cases hh : (r < i ∧ col ≤ c ∧ c < col + C) ∨ (r = i ∧ col ≤ c ∧ c < col + j)
        · rw [if_pos hh, if_pos (by omega)]
        · rw [if_neg hh, if_neg (by omega)]

/-! ## The loops -/

theorem whileStep_inv {σ : Type} {sz bound : Nat} {body : Nat → σ → M σ} (Inv : Nat → σ → Prop)
    (hsz : 0 < sz)
    (hbody : ∀ i s, i + sz ≤ bound → Inv i s → ∃ s', body i s = .ok s' ∧ Inv (i + sz) s') :
    ∀ (n i : Nat) (s : σ), bound - i ≤ n → i ≤ bound → Inv i s →
      ∃ i' s', whileStep sz bound body i s = .ok (i', s') ∧ i ≤ i' ∧ i' ≤ bound ∧
        bound < i' + sz ∧ Inv i' s' := by
  intro n
  induction n with
  | zero =>
    intro i s hn hi hI
    refine ⟨i, s, ?_, by omega, hi, by omega, hI⟩
    rw [whileStep, if_neg (by omega)]
  | succ n ih =>
    intro i s hn hi hI
    by_cases hlt : i + sz ≤ bound
    · obtain ⟨s1, h1, h2⟩ := hbody i s hlt hI
      obtain ⟨i', s', k1, k2, k3, k4, k5⟩ := ih (i + sz) s1 (by omega) hlt h2
      refine ⟨i', s', ?_, by omega, k3, k4, k5⟩
      rw [whileStep, if_pos hlt, if_pos hsz, h1, ok_bind, k1]
    · refine ⟨i, s, ?_, by omega, hi, by omega, hI⟩
      rw [whileStep, if_neg hlt]

/-- `t'` is `t` followed by the stores `l`, in some order. -/
def Adds {γ : Type} (t t' l : List γ) : Prop := ∃ u, t' = t ++ u ∧ u.Perm l

theorem Adds.refl {γ : Type} (t : List γ) : Adds t t [] := ⟨[], by simp, List.Perm.refl _⟩

theorem Adds.trans {γ : Type} {t t' t'' l l' l'' : List γ} (h : Adds t t' l) (h' : Adds t' t'' l')
    (hl : (l ++ l').Perm l'') : Adds t t'' l'' := by
  obtain ⟨u, rfl, hu⟩ := h
  obtain ⟨u', rfl, hu'⟩ := h'
  exact ⟨u ++ u', by rw [List.append_assoc], (List.Perm.append hu hu').trans hl⟩

theorem whileStep_rows {γ : Type} {out : Nat → Nat → γ} {sz bound c n : Nat}
    {body : Nat → List γ → M (List γ)} (hsz : 0 < sz)
    (hbody : ∀ r t, r + sz ≤ bound → ∃ t', body r t = .ok t' ∧ Adds t t' (rect out r sz c n))
    {t0 t : List γ} {r : Nat} (hr : r ≤ bound) (h0 : Adds t0 t (rect out 0 r c n)) :
    ∃ r' t', whileStep sz bound body r t = .ok (r', t') ∧ r' ≤ bound ∧ bound < r' + sz ∧
      Adds t0 t' (rect out 0 r' c n) := by
  obtain ⟨r', t', h1, _, h3, h4, h5⟩ := whileStep_inv
    (Inv := fun i t' => Adds t0 t' (rect out 0 i c n)) hsz
    (by
      intro i s hi hI
      obtain ⟨s', a1, a2⟩ := hbody i s hi
      refine ⟨s', a1, hI.trans a2 ?_⟩
      rw [rect_rows, Nat.zero_add]) (bound - r) r t (Nat.le_refl _) hr h0
  exact ⟨r', t', h1, h3, h4, h5⟩

theorem whileStep_cols {γ : Type} {out : Nat → Nat → γ} {sz bound m : Nat}
    {body : Nat → List γ → M (List γ)} (hsz : 0 < sz)
    (hbody : ∀ c t, c + sz ≤ bound → ∃ t', body c t = .ok t' ∧ Adds t t' (rect out 0 m c sz))
    {t0 t : List γ} {c : Nat} (hc : c ≤ bound) (h0 : Adds t0 t (rect out 0 m 0 c)) :
    ∃ c' t', whileStep sz bound body c t = .ok (c', t') ∧ c' ≤ bound ∧ bound < c' + sz ∧
      Adds t0 t' (rect out 0 m 0 c') := by
  obtain ⟨r', t', h1, _, h3, h4, h5⟩ := whileStep_inv
    (Inv := fun i t' => Adds t0 t' (rect out 0 m 0 i)) hsz
    (by
      intro i s hi hI
      obtain ⟨s', a1, a2⟩ := hbody i s hi
      refine ⟨s', a1, hI.trans a2 ?_⟩
      have := rect_cols (out := out) m 0 i sz 0
      rw [Nat.zero_add] at this
      exact this.symm) (bound - c) c t (Nat.le_refl _) hc h0
  exact ⟨r', t', h1, h3, h4, h5⟩

namespace UnpackCtx

variable {β : Type} {x : UnpackCtx} {pipe : PipeEval β} {o : BlockOps β} {rows cols : Nat} {val : Nat → Nat → β}

/-- Every register block inside the destination block evaluates to the values `val`. -/
def Evals (x : UnpackCtx) (pipe : PipeEval β) (rows cols : Nat) (val : Nat → Nat → β) : Prop :=
  ∀ R C r c, 0 < R → 0 < C → r + R ≤ rows → c + C ≤ cols →
    x.evalBlock pipe R C r c (r + x.startRow) (c + x.startCol) =
      .ok (RBlock.of R C fun i j => val (r + i) (c + j))

/-- The store of entry `(r, c)` of the destination block. -/
def outOf (x : UnpackCtx) (val : Nat → Nat → β) (r c : Nat) : Nat × β :=
  (x.dst.addr (r + x.startRow) (c + x.startCol), val r c)

theorem store_adds (x : UnpackCtx) (val : Nat → Nat → β) (R C r c : Nat) (t : Trace β) :
    ∃ t', storeFinal storeTrace x.dst (RBlock.of R C fun i j => val (r + i) (c + j))
        (r + x.startRow) (c + x.startCol) t = .ok t' ∧
      Adds t t' (rect (x.outOf val) r R c C) := by
  refine ⟨_, storeTrace_of _ _ _ _ _ _ _, _, rfl, ?_⟩
  have := rect_shift (out := x.outOf val) r c 0 R 0 C
  rw [Nat.add_zero, Nat.add_zero] at this
  rw [← this]
  refine (List.Perm.of_eq ?_)
  apply rect_congr
  intro i j _ _ _ _
  unfold outOf
  rw [Nat.add_right_comm, Nat.add_right_comm c]

theorem block_ok (h : x.Evals pipe rows cols val) {R C r c : Nat} (hR : 0 < R) (hC : 0 < C)
    (hr : r + R ≤ rows) (hc : c + C ≤ cols) (t : Trace β) :
    ∃ t', x.block pipe R C r c t = .ok t' ∧ Adds t t' (rect (x.outOf val) r R c C) := by
  unfold block
  rw [h R C r c hR hC hr hc, ok_bind]
  exact x.store_adds val R C r c t

theorem block8x8_ok (h : x.Evals pipe rows cols val) {r c : Nat}
    (hr : r + 8 ≤ rows) (hc : c + 8 ≤ cols) (t : Trace β) :
    ∃ t', x.block8x8 pipe r c t = .ok t' ∧ Adds t t' (rect (x.outOf val) r 8 c 8) := by
  unfold block8x8
  dsimp only
  obtain ⟨b1, e1, s1, g1⟩ := storeLocal_of 4 (fun i j => val (r + i) (c + 0 + j)) 0 (by omega)
    { size := 64, get := fun _ => none } rfl
  obtain ⟨b2, e2, s2, g2⟩ := storeLocal_of 4 (fun i j => val (r + i) (c + (0 + 4) + j)) 4 (by omega)
    b1 s1
  have hloop : forLoop 0 8 4 (fun cx buf => do
      let b ← x.evalBlock pipe 8 4 r (c + cx) (r + x.startRow) (c + cx + x.startCol)
      storeFinal storeLocal (MatrixMap.mk3 .colMajor 0 8 8) b 0 cx buf)
      ({ size := 64, get := fun _ => none } : Buf (Option β)) = .ok b2 := by
    rw [forLoop, if_pos (by omega), if_pos (by omega),
      h 8 4 r (c + 0) (by omega) (by omega) hr (by omega), ok_bind, e1, ok_bind,
      forLoop, if_pos (by omega), if_pos (by omega),
      h 8 4 r (c + (0 + 4)) (by omega) (by omega) hr (by omega), ok_bind, e2, ok_bind,
      forLoop, if_neg (by omega)]
  rw [hloop, ok_bind]
  have hload : loadContiguous 8 8 b2 = .ok (RBlock.of 8 8 fun i j => val (r + i) (c + j)) := by
    unfold loadContiguous
    apply RBlock.build_ok
    intro i j hi hj
    rw [Buf.read_ok (by omega), ok_bind, g2 i j hi hj]
    by_cases h4 : 4 ≤ j ∧ j < 4 + 4
    · rw [if_pos h4]
      dsimp only
      rw [show c + (0 + 4) + (j - 4) = c + j by omega]
    · rw [if_neg h4, g1 i j hi hj, if_pos (by omega)]
      dsimp only
      rw [show c + 0 + (j - 0) = c + j by omega]
  rw [hload, ok_bind]
  exact x.store_adds val 8 8 r c t

/-- Register blocks of the shapes that `UnpackResult` uses, inside a destination block of
`rows × cols`, are stored at their places with the values `val`. -/
structure BlocksOk (o : BlockOps β) (x : UnpackCtx) (rows cols : Nat) (val : Nat → Nat → β) : Prop where
  block : ∀ R C r c t, (R = 8 ∨ R = 4 ∨ R = 1) → (C = 4 ∨ C = 1) → r + R ≤ rows → c + C ≤ cols →
    ∃ t', o.block x R C r c t = .ok t' ∧ Adds t t' (rect (x.outOf val) r R c C)
  block8x8 : ∀ r c t, x.dst.order = .rowMajor → r + 8 ≤ rows → c + 8 ≤ cols →
    ∃ t', o.block8x8 x r c t = .ok t' ∧ Adds t t' (rect (x.outOf val) r 8 c 8)

theorem Evals.blocks (h : x.Evals pipe rows cols val) : BlocksOk (scalarOps pipe) x rows cols val where
  block R C r c t hR hC hr hc := block_ok h (by omega) (by omega) hr hc t
  block8x8 r c t _ hr hc := block8x8_ok h hr hc t

theorem pair_ok (h : BlocksOk o x rows cols val) {R r c : Nat} (hR : R = 8 ∨ R = 4 ∨ R = 1)
    (hr : r + R ≤ rows) (hc : c + 8 ≤ cols) (t : Trace β) :
    ∃ t', forLoop 0 8 4 (fun cx t => o.block x R 4 r (c + cx) t) t = .ok t' ∧
      Adds t t' (rect (x.outOf val) r R c 8) := by
  obtain ⟨t1, e1, a1⟩ := h.block R 4 r (c + 0) t hR (by omega) hr (by omega)
  obtain ⟨t2, e2, a2⟩ := h.block R 4 r (c + (0 + 4)) t1 hR (by omega) hr (by omega)
  refine ⟨t2, ?_, a1.trans a2 ?_⟩
  · rw [forLoop, if_pos (by omega), if_pos (by omega), e1, ok_bind,
      forLoop, if_pos (by omega), if_pos (by omega), e2, ok_bind, forLoop, if_neg (by omega)]
  · exact (rect_cols R c 4 4 r).symm

theorem cols8_ok (h : BlocksOk o x rows cols val) (ho : x.dst.order = .rowMajor) {c : Nat} (hc : c + 8 ≤ cols) (t : Trace β) :
    ∃ t', x.cols8 o rows c t = .ok t' ∧ Adds t t' (rect (x.outOf val) 0 rows c 8) := by
  obtain ⟨r1, t1, e1, l1, _, a1⟩ := whileStep_rows (sz := 8) (bound := rows) (by omega)
    (fun r t hr => h.block8x8 r c t ho hr hc) (Nat.zero_le _) (Adds.refl t)
  obtain ⟨r2, t2, e2, l2, _, a2⟩ := whileStep_rows (sz := 4) (bound := rows) (by omega)
    (fun r t hr => pair_ok h (by omega) hr hc t) l1 a1
  obtain ⟨r3, t3, e3, l3, l3', a3⟩ := whileStep_rows (sz := 1) (bound := rows) (by omega)
    (fun r t hr => pair_ok h (by omega) hr hc t) l2 a2
  have : r3 = rows := by omega
  subst this
  refine ⟨t3, ?_, a3⟩
  unfold cols8
  rw [e1, ok_bind]; dsimp only
  rw [e2, ok_bind]; dsimp only
  rw [e3, ok_bind]; rfl

theorem colsN_ok (h : BlocksOk o x rows cols val) {w c : Nat} (hw : w = 4 ∨ w = 1) (hc : c + w ≤ cols)
    (t : Trace β) :
    ∃ t', x.colsN o w rows c t = .ok t' ∧ Adds t t' (rect (x.outOf val) 0 rows c w) := by
  obtain ⟨r1, t1, e1, l1, _, a1⟩ := whileStep_rows (sz := 8) (bound := rows) (by omega)
    (fun r t hr => h.block _ w r c t (by omega) hw hr hc) (Nat.zero_le _) (Adds.refl t)
  obtain ⟨r2, t2, e2, l2, _, a2⟩ := whileStep_rows (sz := 4) (bound := rows) (by omega)
    (fun r t hr => h.block _ w r c t (by omega) hw hr hc) l1 a1
  obtain ⟨r3, t3, e3, l3, l3', a3⟩ := whileStep_rows (sz := 1) (bound := rows) (by omega)
    (fun r t hr => h.block _ w r c t (by omega) hw hr hc) l2 a2
  have : r3 = rows := by omega
  subst this
  refine ⟨t3, ?_, a3⟩
  unfold colsN
  rw [e1, ok_bind]; dsimp only
  rw [e2, ok_bind]; dsimp only
  rw [e3, ok_bind]; rfl

/-- Unpacking a block stores each of its entries exactly once. -/
theorem run_ok (h : BlocksOk o x rows cols val) (hr : x.startRow + rows ≤ x.dst.rows)
    (hc : x.startCol + cols ≤ x.dst.cols) (t : Trace β) :
    ∃ t', x.run o rows cols t = .ok t' ∧ Adds t t' (rect (x.outOf val) 0 rows 0 cols) := by
  have h0 : ∃ c1 t1, x.phase8 o rows cols t = .ok (c1, t1) ∧ c1 ≤ cols ∧
      Adds t t1 (rect (x.outOf val) 0 rows 0 c1) := by
    unfold phase8
    cases ho : x.dst.order with
    | colMajor => exact ⟨0, t, rfl, Nat.zero_le _, by rw [rect_zero_cols]; exact Adds.refl t⟩
    | rowMajor =>
      obtain ⟨c1, t1, e1, l1, _, a1⟩ := whileStep_cols (out := x.outOf val) (m := rows) (sz := 8)
        (bound := cols) (by omega)
        (fun c t hc => cols8_ok h ho hc t) (Nat.zero_le _) (by rw [rect_zero_cols]; exact Adds.refl t)
      exact ⟨c1, t1, e1, l1, a1⟩
  obtain ⟨c1, t1, e1, l1, a1⟩ := h0
  obtain ⟨c2, t2, e2, l2, _, a2⟩ := whileStep_cols (sz := 4) (bound := cols) (by omega)
    (fun c t hc => colsN_ok h (by omega) hc t) l1 a1
  obtain ⟨c3, t3, e3, l3, l3', a3⟩ := whileStep_cols (sz := 1) (bound := cols) (by omega)
    (fun c t hc => colsN_ok h (by omega) hc t) l2 a2
  have : c3 = cols := by omega
  subst this
  refine ⟨t3, ?_, a3⟩
  unfold run
  rw [decide_eq_true hr, decide_eq_true hc, assertM_true, ok_bind, ok_bind, e1, ok_bind]
  dsimp only
  rw [e2, ok_bind]; dsimp only
  rw [e3, ok_bind]; rfl

end UnpackCtx
end Gemmlowp
