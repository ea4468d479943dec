import Verif.BenchW
import Mathlib.Tactic.Ring
/-!
# Symbolic execution of the kernels on words
-/
namespace Gemmlowp.BenchW
open Bench

/-- What is known of a word: nothing, a coefficient by its position after the current cells, an accumulator with
some products added in order. -/
inductive SW
  | no
  | l (i : Nat)
  | r (i : Nat)
  | a (k : Nat) (ps : List (Nat × Nat))
  deriving DecidableEq

structure SSt where
  x : List SW
  lp : Nat
  rp : Nat
  hl : Nat
  hr : Nat

def symTerm (pre : Bool) (x : List SW) : WTerm → SW
  | .mov q => x.getD q .no
  | .mac a l r => match x.getD a .no, x.getD l .no, x.getD r .no with
    | .a k ps, .l i, .r j => .a k (ps ++ [(i, j)])
    | _, _, _ => .no
  | .acc k => if pre then .a k [] else .no
  | .zero => .no

def symStep (pre : Bool) (i : WIns) (s : SSt) : SSt :=
  match i with
  | .ld .lhs off d => { s with x := s.x.set d (.l (s.lp + off)), hl := max s.hl (s.lp + off + 1) }
  | .ld .rhs off d => { s with x := s.x.set d (.r (s.rp + off)), hr := max s.hr (s.rp + off + 1) }
  | .adv .lhs n => { s with lp := s.lp + n }
  | .adv .rhs n => { s with rp := s.rp + n }
  | .op outs => { s with x := outs.foldl (fun y o => y.set o.1 (symTerm pre s.x o.2)) s.x }

def symExec (pre : Bool) : List WIns → SSt → SSt
  | [], s => s
  | i :: p, s => symExec pre p (symStep pre i s)

/-- Position of a coefficient. -/
def coeffAt (f : SideFormat) (w d : Nat) : Nat :=
  (d / f.cd * f.cells + w / f.cw) * f.cellSize + cellOff f (w % f.cw) (d % f.cd)

/-- The products a pass has to add to accumulator `k`. -/
def expected (F : KernelFormat) (k : Nat) : List (Nat × Nat) :=
  (List.range F.kDepth).map (fun j => (coeffAt F.lhs (k % F.kRows) j, coeffAt F.rhs (k / F.kRows) j))

def headSt (K : WKern) : SSt := symExec true K.pre ⟨List.replicate 130 .no, 0, 0, 0, 0⟩

def headAgain (K : WKern) (h : SSt) : SSt := symExec false K.body { h with hl := 0, hr := 0 }

/-- What a word has to be after a pass. -/
def nextW (F : KernelFormat) : SW → SW
  | .no => .no
  | .l i => .l (i + F.kRows * F.kDepth)
  | .r i => .r (i + F.kCols * F.kDepth)
  | .a k ps => .a k (ps ++ expected F k)

def wOk (F : KernelFormat) (a b : SW) : Bool :=
  match a with
  | .no => true
  | .a _ ps => decide (ps = []) && decide (b = nextW F a)
  | _ => decide (b = nextW F a)

/-- The check of a kernel; it may read `pl` and `pr` words after the end of the buffers. -/
def okW (K : WKern) (pl pr : Nat) : Bool :=
  let h := headSt K
  let b := headAgain K h
  let e := symExec false K.last { h with hl := 0, hr := 0 }
  decide (h.hl ≤ K.F.kRows * K.F.kDepth + pl) && decide (h.hr ≤ K.F.kCols * K.F.kDepth + pr) &&
  decide (b.hl ≤ K.F.kRows * K.F.kDepth + pl) && decide (b.hr ≤ K.F.kCols * K.F.kDepth + pr) &&
  decide (b.lp = h.lp + K.F.kRows * K.F.kDepth) && decide (b.rp = h.rp + K.F.kCols * K.F.kDepth) &&
  decide (e.hl ≤ pl) && decide (e.hr ≤ pr) &&
  (List.range 130).all (fun q => wOk K.F (h.x.getD q .no) (b.x.getD q .no)) &&
  (List.range (K.F.kRows * K.F.kCols)).all (fun k => decide (e.x.getD (K.out.getD k 0) .no = .a k []))

/-! ## Soundness -/

variable {α : Type} {mac : α → α → α → α} {m : WMem α} {lb rb : Nat} {A : Nat → α}

/-- The accumulator with the products. -/
def addAll (mac : α → α → α → α) (m : WMem α) (lb rb : Nat) (a : α) (ps : List (Nat × Nat)) : α :=
  ps.foldl (fun s p => mac s (m.lhs.get (lb + p.1)) (m.rhs.get (rb + p.2))) a

theorem addAll_append (a : α) (ps qs : List (Nat × Nat)) :
    addAll mac m lb rb a (ps ++ qs) = addAll mac m lb rb (addAll mac m lb rb a ps) qs := List.foldl_append

def SW.Is (mac : α → α → α → α) (m : WMem α) (lb rb : Nat) (A : Nat → α) : SW → α → Prop
  | .no, _ => True
  | .l i, v => v = m.lhs.get (lb + i)
  | .r i, v => v = m.rhs.get (rb + i)
  | .a k ps, v => v = addAll mac m lb rb (A k) ps

def RegsIs (mac : α → α → α → α) (m : WMem α) (lb rb : Nat) (A : Nat → α) (t : List SW) (x : Nat → α) : Prop :=
  ∀ q, (t.getD q .no).Is mac m lb rb A (x q)

structure StIs (mac : α → α → α → α) (m : WMem α) (lb rb : Nat) (A : Nat → α) (t : SSt) (s : WSt α) : Prop where
  x : RegsIs mac m lb rb A t.x s.x
  lp : s.lp = lb + t.lp
  rp : s.rp = rb + t.rp
  ok : s.ok = true ↔ lb + t.hl ≤ m.lhs.size ∧ rb + t.hr ≤ m.rhs.size

theorem RegsIs.set {t : List SW} {x : Nat → α} (h : RegsIs mac m lb rb A t x) {v : SW} {w : α}
    (hv : v.Is mac m lb rb A w) (d : Nat) : RegsIs mac m lb rb A (t.set d v) (setW x d w) := by
  intro q
  unfold setW
  rw [List.getD_eq_getElem?_getD, List.getElem?_set]
  by_cases e : d = q
  · subst e
    rw [if_pos rfl, if_pos rfl]
    by_cases hl : d < t.length
    · rw [if_pos hl]; exact hv
    · rw [if_neg hl]; trivial
  · rw [if_neg e, if_neg (fun h => e h.symm), ← List.getD_eq_getElem?_getD]
    exact h q

theorem symTerm_is {pre : Bool} (hp : pre = true → A = m.acc) {t : List SW} {x : Nat → α}
    (h : RegsIs mac m lb rb A t x) (o : WTerm) : (symTerm pre t o).Is mac m lb rb A (evalW mac m x o) := by
  cases o with
  | mov q => exact h q
  | zero => trivial
  | acc k =>
    rw [symTerm, evalW]
    cases pre with
    | false => trivial
    | true => rw [if_pos rfl, ← hp rfl]; rfl
  | mac a l r =>
    have ha := h a
    have hl := h l
    have hr := h r
    rw [symTerm, evalW]
    split
    · rename_i k ps i j e1 e2 e3
      rw [e1] at ha
      rw [e2] at hl
      rw [e3] at hr
      simp only [SW.Is] at ha hl hr ⊢
      rw [ha, hl, hr]
      unfold addAll
      rw [List.foldl_append]
      rfl
    · trivial

theorem outs_is {pre : Bool} (hp : pre = true → A = m.acc) {t : List SW} {x : Nat → α}
    (h : RegsIs mac m lb rb A t x) : ∀ (outs : List (Nat × WTerm)) (t' : List SW) (x' : Nat → α),
    RegsIs mac m lb rb A t' x' →
    RegsIs mac m lb rb A (outs.foldl (fun y o => y.set o.1 (symTerm pre t o.2)) t')
      (outs.foldl (fun y o => setW y o.1 (evalW mac m x o.2)) x')
  | [], _, _, h' => h'
  | o :: outs, _, _, h' => outs_is hp h outs _ _ (h'.set (symTerm_is hp h o.2) o.1)

theorem step_is {pre : Bool} (hp : pre = true → A = m.acc) {t : SSt} {s : WSt α} (h : StIs mac m lb rb A t s)
    (i : WIns) : StIs mac m lb rb A (symStep pre i t) (stepW mac m i s) := by
  obtain ⟨h1, h2, h3, h4⟩ := h
  cases i with
  | ld p off d =>
    cases p with
    | lhs =>
      refine ⟨h1.set ?_ d, h2, h3, ?_⟩
      · show _ = _
        rw [h2, Nat.add_assoc]
      · show (s.ok && decide (s.lp + off < m.lhs.size)) = true ↔
          lb + max t.hl (t.lp + off + 1) ≤ m.lhs.size ∧ rb + t.hr ≤ m.rhs.size
        rw [Bool.and_eq_true, decide_eq_true_eq, h4, h2]
        omega
    | rhs =>
      refine ⟨h1.set ?_ d, h2, h3, ?_⟩
      · show _ = _
        rw [h3, Nat.add_assoc]
      · show (s.ok && decide (s.rp + off < m.rhs.size)) = true ↔
          lb + t.hl ≤ m.lhs.size ∧ rb + max t.hr (t.rp + off + 1) ≤ m.rhs.size
        rw [Bool.and_eq_true, decide_eq_true_eq, h4, h3]
        omega
  | adv p n =>
    cases p with
    | lhs => exact ⟨h1, by show s.lp + n = lb + (t.lp + n); omega, h3, h4⟩
    | rhs => exact ⟨h1, h2, by show s.rp + n = rb + (t.rp + n); omega, h4⟩
  | op outs => exact ⟨outs_is hp h1 outs _ _ h1, h2, h3, h4⟩

theorem exec_is {pre : Bool} (hp : pre = true → A = m.acc) : ∀ (p : List WIns) {t : SSt} {s : WSt α},
    StIs mac m lb rb A t s → StIs mac m lb rb A (symExec pre p t) (execW mac m p s)
  | [], _, _, h => h
  | i :: p, _, _, h => exec_is hp p (step_is hp h i)

/-- The accumulator after `n` depth levels. -/
def accW (mac : α → α → α → α) (F : KernelFormat) (lhs rhs : Buf α) (a : α) (r c : Nat) : Nat → α
  | 0 => a
  | n + 1 => mac (accW mac F lhs rhs a r c n) (lhs.get (coeffAt F.lhs r n)) (rhs.get (coeffAt F.rhs c n))

theorem coeffAt_pass (f : SideFormat) (hcd : 0 < f.cd) (w i : Nat) {j : Nat} (hj : j < f.cd) :
    coeffAt f w (i * f.cd + j) = i * (f.kw * f.cd) + coeffAt f w j := by
  have e1 : (i * f.cd + j) / f.cd = i := by
    rw [Nat.mul_comm, Nat.mul_add_div hcd, Nat.div_eq_of_lt hj, Nat.add_zero]
  have e2 : (i * f.cd + j) % f.cd = j := by
    rw [Nat.mul_comm, Nat.mul_add_mod, Nat.mod_eq_of_lt hj]
  unfold coeffAt
  rw [e1, e2, Nat.div_eq_of_lt hj, Nat.mod_eq_of_lt hj]
  unfold SideFormat.kw SideFormat.cellSize
  ring

theorem expected_acc (F : KernelFormat) (hd : F.rhs.cd = F.lhs.cd) (hcd : 0 < F.lhs.cd) (a : α) (k i : Nat) :
    ∀ j, j ≤ F.kDepth →
    addAll mac m (i * (F.kRows * F.kDepth)) (i * (F.kCols * F.kDepth))
      (accW mac F m.lhs m.rhs a (k % F.kRows) (k / F.kRows) (i * F.kDepth))
      ((List.range j).map (fun j => (coeffAt F.lhs (k % F.kRows) j, coeffAt F.rhs (k / F.kRows) j))) =
      accW mac F m.lhs m.rhs a (k % F.kRows) (k / F.kRows) (i * F.kDepth + j)
  | 0, _ => rfl
  | j + 1, hj => by
    have ih := expected_acc F hd hcd a k i j (by omega)
    have h1 := coeffAt_pass F.lhs hcd (k % F.kRows) i (j := j) hj
    have h2 := coeffAt_pass F.rhs (by rw [hd]; exact hcd) (k / F.kRows) i (j := j) (by rw [hd]; exact hj)
    rw [List.range_succ, List.map_append, addAll_append, ih]
    show mac _ _ _ = accW mac F m.lhs m.rhs a _ _ (i * F.kDepth + j + 1)
    rw [accW]
    have h2 : coeffAt F.rhs (k / F.kRows) (i * F.lhs.cd + j) = i * (F.rhs.kw * F.lhs.cd) +
      coeffAt F.rhs (k / F.kRows) j := by rw [← hd]; exact h2
    unfold KernelFormat.kDepth KernelFormat.kRows KernelFormat.kCols at *
    rw [h1, h2]

/-- What is known at the beginning of pass `i`. -/
def AtHead (K : WKern) (mac : α → α → α → α) (m : WMem α) (i : Nat) (s : WSt α) : Prop :=
  RegsIs mac m (i * (K.F.kRows * K.F.kDepth)) (i * (K.F.kCols * K.F.kDepth))
    (fun k => accW mac K.F m.lhs m.rhs (m.acc k) (k % K.F.kRows) (k / K.F.kRows) (i * K.F.kDepth))
    (headSt K).x s.x ∧
  s.lp = i * (K.F.kRows * K.F.kDepth) + (headSt K).lp ∧ s.rp = i * (K.F.kCols * K.F.kDepth) + (headSt K).rp ∧
  s.ok = true

theorem symOuts_length (pre : Bool) (t : List SW) : ∀ (outs : List (Nat × WTerm)) (t' : List SW),
    (outs.foldl (fun y o => y.set o.1 (symTerm pre t o.2)) t').length = t'.length
  | [], _ => rfl
  | o :: outs, t' => by
    rw [List.foldl_cons, symOuts_length pre t outs, List.length_set]

theorem symExec_length (pre : Bool) : ∀ (p : List WIns) (t : SSt), (symExec pre p t).x.length = t.x.length
  | [], _ => rfl
  | i :: p, t => by
    rw [symExec, symExec_length pre p]
    cases i with
    | ld q off d => cases q <;> exact List.length_set
    | adv q n => cases q <;> rfl
    | op outs => exact symOuts_length pre _ outs _

theorem passesW_succ (p : List WIns) : ∀ (n : Nat) (s : WSt α),
    passesW mac m p (n + 1) s = execW mac m p (passesW mac m p n s)
  | 0, _ => rfl
  | n + 1, s => passesW_succ p n (execW mac m p s)

/-- After `n` passes inside of the buffers. -/
theorem okW_head {K : WKern} {pl pr : Nat} (hK : okW K pl pr = true) (hd : K.F.rhs.cd = K.F.lhs.cd)
    (hcd : 0 < K.F.lhs.cd) {n : Nat}
    (hpl : (headSt K).hl ≤ m.lhs.size) (hpr : (headSt K).hr ≤ m.rhs.size)
    (hl : n * (K.F.kRows * K.F.kDepth) + pl ≤ m.lhs.size) (hr : n * (K.F.kCols * K.F.kDepth) + pr ≤ m.rhs.size)
    (x : Nat → α) : AtHead K mac m n (passesW mac m K.body n (execW mac m K.pre ⟨x, 0, 0, true⟩)) := by
  unfold okW at hK
  simp only [Bool.and_eq_true, decide_eq_true_eq, List.all_eq_true, List.mem_range] at hK
  obtain ⟨⟨⟨⟨⟨⟨⟨⟨⟨k1, k2⟩, k3⟩, k4⟩, k5⟩, k6⟩, k7⟩, k8⟩, k9⟩, k10⟩ := hK
  have hpass : ∀ i, i < n → i * (K.F.kRows * K.F.kDepth) + (K.F.kRows * K.F.kDepth + pl) ≤ m.lhs.size ∧
      i * (K.F.kCols * K.F.kDepth) + (K.F.kCols * K.F.kDepth + pr) ≤ m.rhs.size := by
    intro i hi
    have h1 := Nat.mul_le_mul_right (K.F.kRows * K.F.kDepth) (show i + 1 ≤ n from hi)
    have h2 := Nat.mul_le_mul_right (K.F.kCols * K.F.kDepth) (show i + 1 ≤ n from hi)
    rw [Nat.add_mul, Nat.one_mul] at h1 h2
    omega
  have hlen : (headSt K).x.length = 130 := by
    unfold headSt; rw [symExec_length]; exact List.length_replicate
  -- before the loop
  have h0 : AtHead K mac m 0 (execW mac m K.pre ⟨x, 0, 0, true⟩) := by
    have hs : StIs mac m 0 0 m.acc ⟨List.replicate 130 .no, 0, 0, 0, 0⟩ (⟨x, 0, 0, true⟩ : WSt α) := by
      refine ⟨?_, rfl, rfl, ⟨fun _ => ⟨Nat.zero_le _, Nat.zero_le _⟩, fun _ => rfl⟩⟩
      intro q
      rw [List.getD_eq_getElem?_getD, List.getElem?_replicate]
      split <;> trivial
    obtain ⟨e1, e2, e3, e4⟩ := exec_is (pre := true) (fun _ => rfl) K.pre hs
    unfold AtHead
    rw [Nat.zero_mul, Nat.zero_mul, Nat.zero_mul]
    exact ⟨e1, e2, e3, e4.2 ⟨by rw [Nat.zero_add]; exact hpl, by rw [Nat.zero_add]; exact hpr⟩⟩
  -- a pass
  have hstep : ∀ i s, i < n → AtHead K mac m i s → AtHead K mac m (i + 1) (execW mac m K.body s) := by
    rintro i s hi ⟨a1, a2, a3, a4⟩
    have hs : StIs mac m (i * (K.F.kRows * K.F.kDepth)) (i * (K.F.kCols * K.F.kDepth))
        (fun k => accW mac K.F m.lhs m.rhs (m.acc k) (k % K.F.kRows) (k / K.F.kRows) (i * K.F.kDepth))
        { headSt K with hl := 0, hr := 0 } s :=
      ⟨a1, a2, a3, ⟨fun _ => ⟨Nat.le_trans (Nat.le_add_right _ _) (hpass i hi).1,
        Nat.le_trans (Nat.le_add_right _ _) (hpass i hi).2⟩, fun _ => a4⟩⟩
    obtain ⟨e1, e2, e3, e4⟩ := exec_is (pre := false) (fun h => by cases h) K.body hs
    have b := hpass i hi
    have e2 : _ = i * (K.F.kRows * K.F.kDepth) + (headAgain K (headSt K)).lp := e2
    have e3 : _ = i * (K.F.kCols * K.F.kDepth) + (headAgain K (headSt K)).rp := e3
    refine ⟨?_, ?_, ?_, e4.2 ⟨Nat.le_trans (Nat.add_le_add_left k3 _) b.1,
      Nat.le_trans (Nat.add_le_add_left k4 _) b.2⟩⟩
    · intro q
      by_cases hq : q < 130
      · have hw := k9 q hq
        have hv := e1 q
        change ((headAgain K (headSt K)).x.getD q .no).Is mac m _ _ _ _ at hv
        revert hw hv
        cases hx : (headSt K).x.getD q .no with
        | no => intro _ _; trivial
        | l o =>
          intro hw hv
          have hw := of_decide_eq_true hw
          rw [hw] at hv
          show _ = _
          have hv : _ = _ := hv
          rw [hv, Nat.add_mul, Nat.one_mul]
          congr 1; omega
        | r o =>
          intro hw hv
          have hw := of_decide_eq_true hw
          rw [hw] at hv
          show _ = _
          have hv : _ = _ := hv
          rw [hv, Nat.add_mul, Nat.one_mul]
          congr 1; omega
        | a k ps =>
          intro hw hv
          rw [wOk, Bool.and_eq_true] at hw
          obtain ⟨h1, hw⟩ := hw
          obtain rfl := of_decide_eq_true h1
          have hw := of_decide_eq_true hw
          rw [hw] at hv
          have hv : _ = addAll mac m _ _ _ ([] ++ expected K.F k) := hv
          rw [List.nil_append, expected, expected_acc K.F hd hcd (m.acc k) k i _ (Nat.le_refl _)] at hv
          show _ = accW mac K.F m.lhs m.rhs (m.acc k) (k % K.F.kRows) (k / K.F.kRows) ((i + 1) * K.F.kDepth)
          rw [hv, Nat.add_mul i 1 K.F.kDepth, Nat.one_mul]
      · have : (headSt K).x.getD q .no = .no := by
          rw [List.getD_eq_getElem?_getD, List.getElem?_eq_none (by omega)]; rfl
        rw [this]; trivial
    · rw [e2, k5, Nat.add_mul, Nat.one_mul]; omega
    · rw [e3, k6, Nat.add_mul, Nat.one_mul]; omega
  have hloop : ∀ j i s, i + j = n → AtHead K mac m i s → AtHead K mac m n (passesW mac m K.body j s) := by
    intro j
    induction j with
    | zero => intro i s e h; rw [← e]; exact h
    | succ j ih => intro i s e h; exact ih (i + 1) _ (by omega) (hstep i s (by omega) h)
  exact hloop n 0 _ (by omega) h0

/-- A kernel that passes the check leaves the right words and stays inside of the buffers, if they are as long as the
`n` cells need and have the padding. -/
theorem okW_sound {K : WKern} {pl pr : Nat} (hK : okW K pl pr = true) (hd : K.F.rhs.cd = K.F.lhs.cd)
    (hcd : 0 < K.F.lhs.cd) {n : Nat} (hn : 0 < n)
    (hl : n * (K.F.kRows * K.F.kDepth) + pl ≤ m.lhs.size) (hr : n * (K.F.kCols * K.F.kDepth) + pr ≤ m.rhs.size)
    (x : Nat → α) :
    (K.run mac m n ⟨x, 0, 0, true⟩).ok = true ∧ ∀ k, k < K.F.kRows * K.F.kCols →
      K.word (K.run mac m n ⟨x, 0, 0, true⟩) k =
        accW mac K.F m.lhs m.rhs (m.acc k) (k % K.F.kRows) (k / K.F.kRows) (n * K.F.kDepth) := by
  have hK' := hK
  unfold okW at hK'
  simp only [Bool.and_eq_true, decide_eq_true_eq, List.all_eq_true, List.mem_range] at hK'
  obtain ⟨⟨⟨⟨⟨⟨⟨⟨⟨k1, k2⟩, k3⟩, k4⟩, k5⟩, k6⟩, k7⟩, k8⟩, k9⟩, k10⟩ := hK'
  have g1 := Nat.mul_le_mul_right (K.F.kRows * K.F.kDepth) (show 1 ≤ n from hn)
  have g2 := Nat.mul_le_mul_right (K.F.kCols * K.F.kDepth) (show 1 ≤ n from hn)
  rw [Nat.one_mul] at g1 g2
  obtain ⟨a1, a2, a3, a4⟩ := okW_head (mac := mac) (m := m) hK hd hcd (n := n) (by omega) (by omega) hl hr x
  have hs : StIs mac m (n * (K.F.kRows * K.F.kDepth)) (n * (K.F.kCols * K.F.kDepth))
      (fun k => accW mac K.F m.lhs m.rhs (m.acc k) (k % K.F.kRows) (k / K.F.kRows) (n * K.F.kDepth))
      { headSt K with hl := 0, hr := 0 } (passesW mac m K.body n (execW mac m K.pre ⟨x, 0, 0, true⟩)) :=
    ⟨a1, a2, a3, ⟨fun _ => ⟨Nat.le_trans (Nat.le_add_right _ _) hl, Nat.le_trans (Nat.le_add_right _ _) hr⟩,
      fun _ => a4⟩⟩
  obtain ⟨e1, e2, e3, e4⟩ := exec_is (pre := false) (fun h => by cases h) K.last hs
  refine ⟨e4.2 ⟨Nat.le_trans (Nat.add_le_add_left k7 _) hl, Nat.le_trans (Nat.add_le_add_left k8 _) hr⟩,
    fun k hk => ?_⟩
  have := e1 (K.out.getD k 0)
  rw [k10 k hk] at this
  exact this

theorem execW_bad : ∀ (p : List WIns) (s : WSt α), s.ok = false → (execW mac m p s).ok = false
  | [], _, h => h
  | i :: p, s, h => by
    refine execW_bad p _ ?_
    cases i with
    | ld q off d => cases q <;> (show (s.ok && _) = false; rw [h]; rfl)
    | adv q n => cases q <;> exact h
    | op outs => exact h

/-- A kernel that in a pass reads further than the padding reaches leaves the buffers in its last pass. -/
theorem okW_outside {K : WKern} {pl pr : Nat} (hK : okW K pl pr = true) (hd : K.F.rhs.cd = K.F.lhs.cd)
    (hcd : 0 < K.F.lhs.cd) {n : Nat}
    (hpl : (headSt K).hl ≤ m.lhs.size) (hpr : (headSt K).hr ≤ m.rhs.size)
    (hl : n * (K.F.kRows * K.F.kDepth) + pl ≤ m.lhs.size) (hr : n * (K.F.kCols * K.F.kDepth) + pr ≤ m.rhs.size)
    (hout : m.lhs.size < n * (K.F.kRows * K.F.kDepth) + (headAgain K (headSt K)).hl) (x : Nat → α) :
    (K.run mac m (n + 1) ⟨x, 0, 0, true⟩).ok = false := by
  obtain ⟨a1, a2, a3, a4⟩ := okW_head (mac := mac) (m := m) hK hd hcd (n := n) hpl hpr hl hr x
  have hs : StIs mac m (n * (K.F.kRows * K.F.kDepth)) (n * (K.F.kCols * K.F.kDepth))
      (fun k => accW mac K.F m.lhs m.rhs (m.acc k) (k % K.F.kRows) (k / K.F.kRows) (n * K.F.kDepth))
      { headSt K with hl := 0, hr := 0 } (passesW mac m K.body n (execW mac m K.pre ⟨x, 0, 0, true⟩)) :=
    ⟨a1, a2, a3, ⟨fun _ => ⟨Nat.le_trans (Nat.le_add_right _ _) hl, Nat.le_trans (Nat.le_add_right _ _) hr⟩,
      fun _ => a4⟩⟩
  obtain ⟨e1, e2, e3, e4⟩ := exec_is (pre := false) (fun h => by cases h) K.body hs
  unfold WKern.run
  rw [passesW_succ]
  apply execW_bad
  apply Bool.eq_false_iff.2
  intro h
  exact absurd (e4.1 h).1 (Nat.not_le.2 hout)

end Gemmlowp.BenchW
