import Verif.BenchWSym
/-!
# What `ReferenceKernel` of the benchmark computes from words
-/
namespace Gemmlowp.BenchW
open Bench

variable {α : Type} {k : KernelFormat} {reg : Nat}

/-- Entry `(r, c)` holds the value after `n r c` steps. -/
structure AccV (R C : Nat) (V : Nat → Nat → Nat → α) (n : Nat → Nat → Nat) (acc : Buf α) : Prop where
  size : acc.size = R * C
  val : ∀ r c, r < R → c < C → acc.get (r + c * R) = V r c (n r c)

theorem AccV.congr {R C} {V : Nat → Nat → Nat → α} {n n' acc} (h : AccV R C V n acc)
    (e : ∀ r c, r < R → c < C → n' r c = n r c) : AccV R C V n' acc :=
  ⟨h.size, fun r c hr hc => by rw [e r c hr hc]; exact h.val r c hr hc⟩

theorem AccV.step {R C} {V : Nat → Nat → Nat → α} {n acc} (h : AccV R C V n acc) {r c : Nat} (hr : r < R)
    (_hc : c < C) :
    AccV R C V (fun r' c' => if r' = r ∧ c' = c then n r c + 1 else n r' c')
      (acc.upd (r + c * R) (V r c (n r c + 1))) := by
  refine ⟨h.size, ?_⟩
  intro r' c' hr' hc'
  rw [Buf.upd_get]
  by_cases he : r' + c' * R = r + c * R
  · obtain ⟨rfl, rfl⟩ := mixed_inj hr' hr he
    simp
  · rw [if_neg he, if_neg (by rintro ⟨rfl, rfl⟩; exact he rfl)]
    exact h.val r' c' hr' hc'

theorem word_read {f : SideFormat} (hf : f.WF reg) {b : Buf α} {dc wc wi di rd : Nat}
    (hwi : wi < f.cw) (hwc : wc < f.cells) (hdi : di < f.cd) (hdc : dc * f.cd + f.cd ≤ rd)
    (hsz : f.kw * rd ≤ b.size) :
    b.read ((dc * f.cells + wc) * f.cw * f.cd + cellOff f wi di) =
      .ok (b.get (coeffAt f (wi + wc * f.cw) (di + dc * f.cd))) := by
  obtain ⟨_, e1, e2⟩ := cell_ix hwi hwc
  obtain ⟨_, e3, e4⟩ := cell_ix (cells := dc + 1) hdi (Nat.lt_succ_self dc)
  have hoff := cellOff_lt hf hwi hdi
  have hlt : (dc * f.cells + wc) * f.cw * f.cd + cellOff f wi di < f.kw * rd := by
    have h1 : (dc * f.cells + wc + 1) * (f.cw * f.cd) ≤ (dc + 1) * f.cells * (f.cw * f.cd) := by
      apply Nat.mul_le_mul_right
      rw [Nat.add_mul]; omega
    have h2 : (dc + 1) * f.cells * (f.cw * f.cd) = f.kw * (dc * f.cd + f.cd) := by
      unfold SideFormat.kw
      rw [show dc * f.cd + f.cd = (dc + 1) * f.cd by rw [Nat.add_mul]; omega]
      ac_rfl
    have h3 : f.kw * (dc * f.cd + f.cd) ≤ f.kw * rd := Nat.mul_le_mul_left _ hdc
    rw [Nat.add_mul _ 1, Nat.one_mul] at h1
    have h4 : (dc * f.cells + wc) * f.cw * f.cd = (dc * f.cells + wc) * (f.cw * f.cd) :=
      Nat.mul_assoc _ _ _
    unfold SideFormat.cellSize at hoff
    omega
  rw [Buf.read_ok (by omega)]
  unfold coeffAt SideFormat.cellSize
  rw [e1, e2, e3, e4, Nat.mul_assoc]

/-- The loops of the reference run through the depth levels of every entry in order. -/
theorem reference_ok {mac : α → α → α → α} (hk : k.WF reg) {lhs rhs accum : Buf α} {rd : Nat}
    (hd : k.kDepth ∣ rd) (hl : k.kRows * rd ≤ lhs.size) (hr : k.kCols * rd ≤ rhs.size)
    (hsz : accum.size = k.kRows * k.kCols) :
    ∃ acc, reference (fun a l r => .ok (mac a l r)) k lhs rhs accum rd = .ok acc ∧
      acc.size = k.kRows * k.kCols ∧ ∀ r c, r < k.kRows → c < k.kCols →
      acc.get (r + c * k.kRows) = accW mac k lhs rhs (accum.get (r + c * k.kRows)) r c rd := by
  suffices h : ∃ acc, reference (fun a l r => .ok (mac a l r)) k lhs rhs accum rd = .ok acc ∧
      AccV k.kRows k.kCols (fun r c n => accW mac k lhs rhs (accum.get (r + c * k.kRows)) r c n)
        (fun _ _ => rd) acc by
    obtain ⟨acc, h1, h2⟩ := h
    exact ⟨acc, h1, h2.size, h2.val⟩
  generalize hVd : (fun r c n => accW mac k lhs rhs (accum.get (r + c * k.kRows)) r c n) = V
  have hb : ∀ r c, r < k.kRows → c < k.kCols → accum.get (r + c * k.kRows) = V r c 0 := by
    intro r c _ _; rw [← hVd]; rfl
  have hV : ∀ r c n, V r c (n + 1) =
      mac (V r c n) (lhs.get (coeffAt k.lhs r n)) (rhs.get (coeffAt k.rhs c n)) := by
    intro r c n; rw [← hVd]; rfl
  unfold reference
  obtain ⟨N, hN⟩ := hd
  have hdpos : 0 < k.kDepth := hk.lhs.cd_pos
  have hrc : k.rhs.cd = k.kDepth := hk.depth.symm
  have hlc : k.lhs.cd = k.kDepth := rfl
  have hND : rd / k.kDepth = N := by rw [hN, Nat.mul_div_cancel_left _ hdpos]
  rw [hND]
  -- depth cells
  refine forLoop_post
    (fun dc acc => AccV k.kRows k.kCols V
      (fun _ _ => dc * k.kDepth) acc)
    ⟨hsz, by intro r c hr hc; rw [Nat.zero_mul]; exact hb r c hr hc⟩
    (by
      intro acc h2
      refine h2.congr ?_
      intro r c _ _
      rw [hN, Nat.mul_comm]) ?_
  intro dc a0 hdc hA0
  have hdcr : dc * k.kDepth + k.kDepth ≤ rd := by
    have := Nat.mul_le_mul_left k.kDepth hdc
    rw [Nat.succ_eq_add_one, Nat.mul_add, Nat.mul_comm k.kDepth dc] at this; omega
  -- LHS cells
  refine forLoop_post
    (fun rc acc => AccV k.kRows k.kCols V
      (updBox 0 (rc * k.lhs.cw) 0 k.kCols (dc * k.kDepth + k.kDepth)
        (fun _ _ => dc * k.kDepth)) acc)
    (by rw [updBox_empty (by omega)]; exact hA0)
    (by
      intro acc h2
      refine h2.congr ?_
      intro r c hr hc
      have hkr : k.kRows = k.lhs.cells * k.lhs.cw := Nat.mul_comm _ _
      rw [updBox_in (by omega), Nat.add_mul, Nat.one_mul]) ?_
  intro rc a1 hrc' hA1
  -- RHS cells
  refine forLoop_post
    (fun cc acc => AccV k.kRows k.kCols V
      (updBox (rc * k.lhs.cw) (rc * k.lhs.cw + k.lhs.cw) 0 (cc * k.rhs.cw)
        (dc * k.kDepth + k.kDepth)
        (updBox 0 (rc * k.lhs.cw) 0 k.kCols (dc * k.kDepth + k.kDepth)
          (fun _ _ => dc * k.kDepth))) acc)
    (by rw [updBox_empty (by omega)]; exact hA1)
    (by
      intro acc h2
      refine h2.congr ?_
      intro r c _ hc
      rw [Nat.add_mul, Nat.one_mul]
      have hkc : k.kCols = k.rhs.cells * k.rhs.cw := Nat.mul_comm _ _
      by_cases hin : (rc * k.lhs.cw ≤ r ∧ r < rc * k.lhs.cw + k.lhs.cw) ∧
          (0 ≤ c ∧ c < k.rhs.cells * k.rhs.cw)
      · rw [updBox_in hin, updBox_in (by omega)]
      · rw [updBox_out hin]
        by_cases hin2 : (0 ≤ r ∧ r < rc * k.lhs.cw) ∧ (0 ≤ c ∧ c < k.kCols)
        · rw [updBox_in hin2, updBox_in (by omega)]
        · rw [updBox_out hin2, updBox_out (by omega)]) ?_
  intro cc a2 hcc hA2
  -- depth in the cell
  refine forLoop_post
    (fun di acc => AccV k.kRows k.kCols V
      (updBox (rc * k.lhs.cw) (rc * k.lhs.cw + k.lhs.cw)
        (cc * k.rhs.cw) (cc * k.rhs.cw + k.rhs.cw) (dc * k.kDepth + di)
      (updBox (rc * k.lhs.cw) (rc * k.lhs.cw + k.lhs.cw) 0 (cc * k.rhs.cw)
        (dc * k.kDepth + k.kDepth)
        (updBox 0 (rc * k.lhs.cw) 0 k.kCols (dc * k.kDepth + k.kDepth)
          (fun _ _ => dc * k.kDepth)))) acc)
    (hA2.congr (by
      intro r c _ _
      by_cases hin : (rc * k.lhs.cw ≤ r ∧ r < rc * k.lhs.cw + k.lhs.cw) ∧
        (cc * k.rhs.cw ≤ c ∧ c < cc * k.rhs.cw + k.rhs.cw)
      · rw [updBox_in hin, updBox_out (by omega), updBox_out (by omega)]; rfl
      · rw [updBox_out hin]))
    (by
      intro acc h2
      refine h2.congr ?_
      intro r c _ _
      rw [Nat.add_mul cc, Nat.one_mul]
      by_cases hin : (rc * k.lhs.cw ≤ r ∧ r < rc * k.lhs.cw + k.lhs.cw) ∧
        (cc * k.rhs.cw ≤ c ∧ c < cc * k.rhs.cw + k.rhs.cw)
      · rw [updBox_in hin, updBox_in (by omega)]
      · rw [updBox_out hin]
        by_cases hin2 : (rc * k.lhs.cw ≤ r ∧ r < rc * k.lhs.cw + k.lhs.cw) ∧
          (0 ≤ c ∧ c < cc * k.rhs.cw)
        · rw [updBox_in hin2, updBox_in (by omega)]
        · rw [updBox_out hin2, updBox_out (by omega)]) ?_
  intro di a3 hdi hA3
  generalize hn0 : (updBox (rc * k.lhs.cw) (rc * k.lhs.cw + k.lhs.cw) 0
    (cc * k.rhs.cw) (dc * k.kDepth + k.kDepth)
    (updBox 0 (rc * k.lhs.cw) 0 k.kCols (dc * k.kDepth + k.kDepth)
      (fun _ _ => dc * k.kDepth))) = n0 at hA3 ⊢
  -- rows of the cell
  refine forLoop_post
    (fun ri acc => AccV k.kRows k.kCols V
      (updBox (rc * k.lhs.cw) (rc * k.lhs.cw + ri)
        (cc * k.rhs.cw) (cc * k.rhs.cw + k.rhs.cw) (dc * k.kDepth + di + 1)
      (updBox (rc * k.lhs.cw) (rc * k.lhs.cw + k.lhs.cw)
        (cc * k.rhs.cw) (cc * k.rhs.cw + k.rhs.cw) (dc * k.kDepth + di) n0)) acc)
    (by rw [updBox_empty (by omega)]; exact hA3)
    (by
      intro acc h2
      refine h2.congr ?_
      intro r c _ _
      by_cases hin : (rc * k.lhs.cw ≤ r ∧ r < rc * k.lhs.cw + k.lhs.cw) ∧
        (cc * k.rhs.cw ≤ c ∧ c < cc * k.rhs.cw + k.rhs.cw)
      · rw [updBox_in hin, updBox_in hin]; rfl
      · rw [updBox_out hin, updBox_out hin, updBox_out hin]) ?_
  intro ri a4 hri hA4
  -- columns of the cell
  refine forLoop_post
    (fun ci acc => AccV k.kRows k.kCols V
      (updBox (rc * k.lhs.cw + ri) (rc * k.lhs.cw + ri + 1)
        (cc * k.rhs.cw) (cc * k.rhs.cw + ci) (dc * k.kDepth + di + 1)
      (updBox (rc * k.lhs.cw) (rc * k.lhs.cw + ri)
        (cc * k.rhs.cw) (cc * k.rhs.cw + k.rhs.cw) (dc * k.kDepth + di + 1)
      (updBox (rc * k.lhs.cw) (rc * k.lhs.cw + k.lhs.cw)
        (cc * k.rhs.cw) (cc * k.rhs.cw + k.rhs.cw) (dc * k.kDepth + di) n0)))
        acc)
    (by rw [updBox_empty (by omega)]; exact hA4)
    (by
      intro acc h2
      refine h2.congr ?_
      intro r c _ _
      by_cases hin : (rc * k.lhs.cw + ri ≤ r ∧ r < rc * k.lhs.cw + ri + 1) ∧
        (cc * k.rhs.cw ≤ c ∧ c < cc * k.rhs.cw + k.rhs.cw)
      · rw [updBox_in hin, updBox_in (by omega)]
      · rw [updBox_out hin]
        by_cases hin2 : (rc * k.lhs.cw ≤ r ∧ r < rc * k.lhs.cw + ri) ∧
          (cc * k.rhs.cw ≤ c ∧ c < cc * k.rhs.cw + k.rhs.cw)
        · rw [updBox_in hin2, updBox_in (by omega)]
        · rw [updBox_out hin2, updBox_out (by omega)]) ?_
  intro ci a5 hci hA5
  have r1 := word_read (b := lhs) (wc := rc) (dc := dc) (rd := rd)
    hk.lhs hri hrc' hdi (by rw [hlc]; exact hdcr) hl
  have s1 := word_read (b := rhs) (wc := cc) (dc := dc) (rd := rd)
    (di := di) hk.rhs hci hcc (by rw [hrc]; exact hdi)
    (by rw [hrc]; exact hdcr) hr
  rw [hlc] at r1
  rw [hrc] at s1
  have hR := (cell_ix hri hrc').1
  have hC := (cell_ix hci hcc).1
  have hst := hA5.step (r := ri + rc * k.lhs.cw) (c := ci + cc * k.rhs.cw) hR hC
  rw [updBox_out (by omega), updBox_out (by omega), updBox_in (by omega)] at hst
  have hval := hA5.val (ri + rc * k.lhs.cw) (ci + cc * k.rhs.cw) hR hC
  rw [updBox_out (by omega), updBox_out (by omega), updBox_in (by omega)] at hval
  refine ⟨_, ?_, hst.congr ?_⟩
  · rw [offsetIntoCell_ok hk.lhs, ok_bind, offsetIntoCell_ok hk.rhs, ok_bind, r1, ok_bind, s1, ok_bind]
    dsimp only
    rw [Buf.read_ok (by rw [hA5.size]; exact mixed_lt hR hC), ok_bind, hval, ok_bind,
      Buf.write_ok (by rw [hA5.size]; exact mixed_lt hR hC), hV, Nat.add_comm di]
  · intro r c _ _
    by_cases hin : r = ri + rc * k.lhs.cw ∧ c = ci + cc * k.rhs.cw
    · rw [if_pos hin, updBox_in (by omega)]
    · rw [if_neg hin]
      by_cases hin2 : (rc * k.lhs.cw + ri ≤ r ∧ r < rc * k.lhs.cw + ri + 1) ∧
        (cc * k.rhs.cw ≤ c ∧ c < cc * k.rhs.cw + ci)
      · rw [updBox_in hin2, updBox_in (by omega)]
      · rw [updBox_out hin2, updBox_out (by omega)]

/-- If a loop with some body is defined, it is with any body that is defined where the first is. -/
theorem forLoop_mono {σ : Type} {f g : Nat → σ → M σ} (h : ∀ i s s', f i s = .ok s' → g i s = .ok s') (hi : Nat) :
    ∀ (d lo : Nat) (s s' : σ), hi - lo = d → forLoop lo hi 1 f s = .ok s' → forLoop lo hi 1 g s = .ok s' := by
  intro d
  induction d with
  | zero =>
    intro lo s s' e hf
    rw [forLoop, if_neg (by omega)] at hf ⊢
    exact hf
  | succ d ih =>
    intro lo s s' e hf
    rw [forLoop, if_pos (by omega), if_pos (by omega)] at hf ⊢
    cases hx : f lo s with
    | error e => rw [hx] at hf; cases hf
    | ok t =>
      rw [hx] at hf
      rw [h lo s t hx]
      exact ih (lo + 1) t s' (by omega) hf

/-- Where the operation is defined in the reference, the result is that of the total operation. -/
theorem reference_mono {op : α → α → α → M α} {mac : α → α → α → α}
    (h : ∀ a l r v, op a l r = .ok v → v = mac a l r) {lhs rhs accum acc : Buf α} {rd : Nat}
    (hr : reference op k lhs rhs accum rd = .ok acc) :
    reference (fun a l r => .ok (mac a l r)) k lhs rhs accum rd = .ok acc := by
  unfold reference at hr ⊢
  refine forLoop_mono ?_ _ _ 0 _ _ rfl hr
  intro dc a0 b0 h0
  refine forLoop_mono ?_ _ _ 0 _ _ rfl h0
  intro rc a1 b1 h1
  refine forLoop_mono ?_ _ _ 0 _ _ rfl h1
  intro cc a2 b2 h2
  refine forLoop_mono ?_ _ _ 0 _ _ rfl h2
  intro di a3 b3 h3
  refine forLoop_mono ?_ _ _ 0 _ _ rfl h3
  intro ri a4 b4 h4
  refine forLoop_mono ?_ _ _ 0 _ _ rfl h4
  intro ci a5 b5 h5
  revert h5
  cases offsetIntoCell k.lhs ri di with
  | error e => intro h5; cases h5
  | ok lo =>
  rw [ok_bind, ok_bind]
  cases offsetIntoCell k.rhs ci di with
  | error e => intro h5; cases h5
  | ok ro =>
  rw [ok_bind, ok_bind]
  cases lhs.read ((dc * k.lhs.cells + rc) * k.lhs.cw * k.kDepth + lo) with
  | error e => intro h5; cases h5
  | ok l =>
  rw [ok_bind, ok_bind]
  cases rhs.read ((dc * k.rhs.cells + cc) * k.rhs.cw * k.kDepth + ro) with
  | error e => intro h5; cases h5
  | ok r =>
  rw [ok_bind, ok_bind]
  dsimp only
  cases a5.read (ri + rc * k.lhs.cw + (ci + cc * k.rhs.cw) * k.kRows) with
  | error e => intro h5; cases h5
  | ok old =>
  rw [ok_bind, ok_bind]
  cases hop : op old l r with
  | error e => intro h5; cases h5
  | ok new =>
  rw [ok_bind, ok_bind, h old l r new hop]
  exact id

end Gemmlowp.BenchW
