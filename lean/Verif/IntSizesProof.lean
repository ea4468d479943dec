import Verif.IntSizes
/-!
# No overflow in the `int` arithmetic of sizes and addresses: proofs
-/
namespace Gemmlowp
namespace IntSizes

/-! ## Basic operations -/

theorem cint_nat {x : Nat} (h : x ≤ 2147483647) : cint (x : Int) = .ok (x : Int) :=
  cint_ok (by unfold InI32; omega)

theorem cint_le {x : Int} (h0 : 0 ≤ x) (h : x ≤ 2147483647) : cint x = .ok x :=
  cint_ok (by unfold InI32; omega)

theorem toI32_id {x : Int} (h0 : 0 ≤ x) (h : x ≤ 2147483647) : toI32 x = x :=
  toInt_ofInt32 (by unfold InI32; omega)

theorem roundDownI_eq {m i : Nat} (h : i ≤ 2147483647) :
    roundDownI m (i : Int) = (roundDown m i : Nat) := by
  unfold roundDownI roundDown
  have e : (i : Int) % 4294967296 = i := Int.emod_eq_of_lt (by omega) (by omega)
  simp only [e]
  have hm : (i : Int) % (m : Int) = ((i % m : Nat) : Int) := by push_cast; rfl
  have hle := Nat.mod_le i m
  rw [hm, toI32_id (by omega) (by omega)]
  omega

theorem roundUpI_eq {m i : Nat} (hm : 0 < m) (h : i + m ≤ 2147483648) :
    roundUpI m (i : Int) = (roundUp m i : Nat) := by
  unfold roundUpI roundUp
  have e : ((i : Int) + m - 1) % 4294967296 = ((i + m - 1 : Nat) : Int) := by
    rw [Int.emod_eq_of_lt (by omega) (by omega)]; omega
  rw [e, roundDownI_eq (by omega)]

theorem cdivI_nat {a b : Nat} (hb : 0 < b) (h : a ≤ 2147483647) :
    cdivI (a : Int) (b : Int) = .ok ((a / b : Nat) : Int) := by
  unfold cdivI
  rw [cdiv_ok (by omega), ok_bind, Int.tdiv_eq_ediv_of_nonneg (by omega)]
  have e : (a : Int) / (b : Int) = ((a / b : Nat) : Int) := by push_cast; rfl
  have := Nat.div_le_self a b
  rw [e, cint_nat (by omega)]

/-- Division by a positive number: the quotient fits if the dividend does. -/
theorem cdivI_pos {a b : Int} (hb : 0 < b) (h : InI32 a) : cdivI a b = .ok (a.tdiv b) := by
  unfold InI32 at h
  unfold cdivI
  rw [cdiv_ok (by omega), ok_bind, cint_ok]
  unfold InI32
  rcases (by omega : a < 0 ∨ a ≥ 0) with ha | ha
  · have e : a.tdiv b = -((-a).tdiv b) := by rw [Int.neg_tdiv, Int.neg_neg]
    have h1 : (-a).tdiv b = -a / b := Int.tdiv_eq_ediv_of_nonneg (by omega)
    have h2 : -a / b ≤ -a := Int.ediv_le_self _ (by omega)
    have h3 : 0 ≤ -a / b := Int.ediv_nonneg (by omega) (by omega)
    omega
  · have h1 : a.tdiv b = a / b := Int.tdiv_eq_ediv_of_nonneg ha
    have h2 : a / b ≤ a := Int.ediv_le_self _ (by omega)
    have h3 : 0 ≤ a / b := Int.ediv_nonneg (by omega) (by omega)
    omega

theorem tdiv_le_of_le {a b m : Int} (hb : 0 < b) (ha : a ≤ m) (hm : 0 ≤ m) : a.tdiv b ≤ m := by
  rcases (by omega : a < 0 ∨ a ≥ 0) with h | h
  · have e : a.tdiv b = -((-a).tdiv b) := by rw [Int.neg_tdiv, Int.neg_neg]
    have h3 : 0 ≤ (-a).tdiv b := Int.tdiv_nonneg (by omega) (by omega)
    omega
  · have := Int.tdiv_le_self b h
    omega

theorem ceilQuotientI_nat {a b : Nat} (hb : 0 < b) (h : a + b ≤ 2147483647) :
    ceilQuotientI (a : Int) (b : Int) = .ok ((ceilQuotient a b : Nat) : Int) := by
  unfold ceilQuotientI ceilQuotient
  rw [cint_le (by omega) (by omega), ok_bind, cint_le (by omega) (by omega), ok_bind,
    cdiv_ok (by omega), Int.tdiv_eq_ediv_of_nonneg (by omega)]
  have e : (a : Int) + b - 1 = ((a + b - 1 : Nat) : Int) := by omega
  rw [e]; push_cast; rfl

theorem max1_eq (x : Int) : max 1 x = ((max1 x : Nat) : Int) := by unfold max1; omega

/-! ## Loops -/

theorem forI_end {σ : Type} {lo hi step : Int} {f : Int → σ → M σ} {s : σ} (h : hi ≤ lo) :
    forI lo hi step f s = .ok s := by
  rw [forI, if_neg (by omega)]

theorem forI_step {σ : Type} {lo hi step : Int} {f : Int → σ → M σ} {s s' : σ} (h : lo < hi)
    (hs : 0 < step) (hb : lo + step ≤ 2147483647) (hf : f lo s = .ok s') :
    forI lo hi step f s = forI (lo + step) hi step f s' := by
  rw [forI, if_pos h, hf]
  show (if 0 < step then _ else _) = _
  rw [if_pos hs, if_pos hb]

/-- Invariant rule. -/
theorem forI_inv {σ : Type} {lo hi step : Int} {f : Int → σ → M σ} (Inv : Int → σ → Prop)
    (hs : 0 < step) (hb : hi + step ≤ 2147483648)
    (hf : ∀ i s, lo ≤ i → i < hi → step ∣ i - lo → Inv i s → ∃ s', f i s = .ok s' ∧ Inv (i + step) s')
    {s : σ} (h0 : Inv lo s) :
    ∃ s' e, forI lo hi step f s = .ok s' ∧ Inv e s' ∧ lo ≤ e ∧ hi ≤ e ∧ step ∣ e - lo ∧
      (e = lo ∨ e < hi + step) := by
  suffices H : ∀ n : Nat, ∀ i s, (hi - i).toNat ≤ n → lo ≤ i → step ∣ i - lo → (i = lo ∨ i < hi + step) →
      Inv i s → ∃ s' e, forI i hi step f s = .ok s' ∧ Inv e s' ∧ lo ≤ e ∧ hi ≤ e ∧ step ∣ e - lo ∧
      (e = lo ∨ e < hi + step) by
    exact H (hi - lo).toNat lo s (Nat.le_refl _) (Int.le_refl _) ⟨0, by omega⟩ (Or.inl rfl) h0
  intro n
  induction n with
  | zero =>
    intro i s hn hl hd hu hI
    exact ⟨s, i, forI_end (by omega), hI, hl, by omega, hd, hu⟩
  | succ n ih =>
    intro i s hn hl hd hu hI
    by_cases hlt : i < hi
    · obtain ⟨s1, e1, hI1⟩ := hf i s hl hlt hd hI
      rw [forI_step hlt hs (by omega) e1]
      refine ih (i + step) s1 (by omega) (by omega) ?_ (Or.inr (by omega)) hI1
      have : i + step - lo = (i - lo) + step := by omega
      rw [this]; exact Int.dvd_add hd (Int.dvd_refl _)
    · exact ⟨s, i, forI_end (by omega), hI, hl, by omega, hd, hu⟩

theorem forI_unit {lo hi step : Int} {f : Int → Unit → M Unit} (hs : 0 < step)
    (hb : hi + step ≤ 2147483648)
    (hf : ∀ i, lo ≤ i → i < hi → step ∣ i - lo → f i () = .ok ()) :
    forI lo hi step f () = .ok () := by
  obtain ⟨s', e, h, _⟩ := forI_inv (fun _ _ => True) hs hb
    (fun i s h1 h2 h3 _ => ⟨(), hf i h1 h2 h3, trivial⟩) (s := ()) trivial
  exact h

theorem rect_ok {r c : Int} {f : Int → Int → M Unit} (hr : r ≤ 2147483647) (hc : c ≤ 2147483647)
    (hf : ∀ i j, 0 ≤ i → i < r → 0 ≤ j → j < c → f i j = .ok ()) : rect r c f = .ok () := by
  unfold rect
  exact forI_unit (by omega) (by omega) fun i h0 h1 _ =>
    forI_unit (by omega) (by omega) fun j h2 h3 _ => hf i j h0 h1 h2 h3

theorem strip_ok {n : Int} {step : Nat} {body : Int → M Unit} {r : Int} (hs : 0 < step) (hr : 0 ≤ r)
    (hn0 : 0 ≤ n) (hn : n + step ≤ 2147483647)
    (hrn : r ≤ n)
    (hb : ∀ i, r ≤ i → i + step ≤ n → body i = .ok ()) :
    ∃ r', strip n step body r = .ok r' ∧ r ≤ r' ∧ r' ≤ n ∧ n < r' + step := by
  unfold strip
  rw [cint_ok (by unfold InI32; omega), ok_bind]
  obtain ⟨s', e, h, hI, h1, h2, _, h4⟩ := forI_inv (lo := r) (hi := n - step + 1) (step := step)
    (f := fun r _ => do
      body r
      cint (r + step)) (fun i s => s = i) (by omega) (by omega)
    (fun i s h1 h2 _ _ => ⟨i + step, by
      rw [hb i h1 (by omega), ok_bind, cint_ok (by unfold InI32; omega)], rfl⟩) (s := r) rfl
  refine ⟨s', h, by omega, by omega, by omega⟩

/-! ## Block parameters -/

/-- The `int` version of the block parameters of the model. -/
def Params.of (b : BlockParams) : Params :=
  { l1_rows := b.l1_rows, l1_cols := b.l1_cols, l1_depth := b.l1_depth
    l2_rows := b.l2_rows, l2_cols := b.l2_cols, l2_depth := b.l2_depth }

/-- Cache sizes up to 512 MB, and a factor that leaves the quotient below that. -/
structure TuningOk (t : Tuning) : Prop where
  l1_nonneg : 0 ≤ t.l1Bytes
  l1_le : t.l1Bytes ≤ 536870912
  l2_nonneg : 0 ≤ t.l2Bytes
  l2_le : t.l2Bytes ≤ 536870912
  rhs_ge : ∀ q, 0 ≤ q → q ≤ t.l2Bytes → -2147483648 ≤ t.rhsTerm q
  rhs_le : ∀ q, 0 ≤ q → q ≤ t.l2Bytes → t.rhsTerm q ≤ 536870912

theorem max1_le {x : Int} {n : Nat} (h : x ≤ n) (hn : 0 < n) : max1 x ≤ n := by unfold max1; omega

theorem max_cast (n : Nat) : max 1 (n : Int) = ((max 1 n : Nat) : Int) := by omega

theorem findL2_eq {k : KernelFormat} {reg rows cols depth nt : Nat} {t : Tuning} (hk : k.WF reg)
    (ht : TuningOk t) (hr : 0 < rows) (hc : 0 < cols) (hd : 0 < depth) (hnt : 0 < nt)
    (hnt2 : nt ≤ 2147483647)
    (hR : roundUp k.kRows rows ≤ 1073741823) (hC : roundUp k.kCols cols ≤ 1073741823)
    (hD : roundUp reg depth ≤ 1073741823) (hkr : k.kRows ≤ 1073741823) (hkc : k.kCols ≤ 1073741823)
    (hreg : reg ≤ 1073741823)
    (hCD : t.factorIsOne = false → roundUp k.kCols cols * roundUp reg depth ≤ 2147483647)
    (hT : t.factorIsOne = false → nt * (roundUp reg depth + 4 * roundUp k.kCols cols) ≤ 2147483647)
    {l2r l2c l2d : Nat} (h : findL2BlockSizes k reg rows cols depth nt t = .ok (l2r, l2c, l2d)) :
    findL2 k reg rows cols depth nt t = .ok ((l2r : Int), (l2c : Int), (l2d : Int)) := by
  have hkr0 : 0 < k.kRows := hk.lhs.kw_pos
  have hkc0 : 0 < k.kCols := hk.rhs.kw_pos
  have hreg0 : 0 < reg := hk.lhs.reg_pos
  have hl2d : 0 < roundUp reg depth := roundUp_pos hreg0 hd
  have lr := le_roundUp hkr0 rows
  have lc := le_roundUp hkc0 cols
  have ld := le_roundUp hreg0 depth
  unfold findL2BlockSizes at h
  unfold findL2
  rw [cdiv_ok (by omega), ok_bind] at h
  dsimp only at h
  rw [cdiv_ok (by omega), ok_bind] at h
  rw [roundUpI_eq hkr0 (by omega), cdivI_pos (by omega) (by unfold InI32; omega), ok_bind]
  dsimp only
  rw [roundUpI_eq hreg0 (by omega), cdivI_pos (by omega)
    (by have := ht.l2_nonneg; have := ht.l2_le; unfold InI32; omega), ok_bind]
  have hper : max1 (Int.tdiv (roundUp k.kRows rows : Nat) nt) ≤ roundUp k.kRows rows :=
    max1_tdiv_le (roundUp_pos hkr0 hr)
  have hper0 := max1_pos (Int.tdiv (roundUp k.kRows rows : Nat) nt)
  have hq0 : 0 ≤ t.l2Bytes.tdiv (roundUp reg depth : Nat) := Int.tdiv_nonneg ht.l2_nonneg (by omega)
  have hq1 : t.l2Bytes.tdiv (roundUp reg depth : Nat) ≤ t.l2Bytes := by
    rw [Int.tdiv_eq_ediv_of_nonneg ht.l2_nonneg]; exact Int.ediv_le_self _ ht.l2_nonneg
  rw [max1_eq (Int.tdiv (roundUp k.kRows rows : Nat) nt)]
  generalize max1 (Int.tdiv (roundUp k.kRows rows : Nat) nt) = per at h hper hper0 ⊢
  generalize t.l2Bytes.tdiv (roundUp reg depth : Nat) = q at h hq0 hq1 ⊢
  have hf1 := ht.rhs_ge q hq0 hq1
  have hf2 := ht.rhs_le q hq0 hq1
  unfold castI
  rw [cint_ok (by unfold InI32; omega), ok_bind, max1_eq]
  have hm1 := max1_le (n := 536870912) hf2 (by omega)
  have hm0 := max1_pos (t.rhsTerm q)
  generalize max1 (t.rhsTerm q) = mc at h hm1 hm0 ⊢
  rw [ceilQuotientI_nat hm0 (by omega), ok_bind]
  have hcq := ceilQuotient_le (a := cols) hm0
  generalize ceilQuotient cols mc = cq at h hcq ⊢
  rw [max_cast, ceilQuotientI_nat (by omega) (by omega), ok_bind]
  have hcq2 := ceilQuotient_le (a := cols) (b := max 1 cq) (by omega)
  have hle : roundUp k.kCols (ceilQuotient cols (max 1 cq)) ≤ roundUp k.kCols cols :=
    roundUp_mono hkc0 hcq2
  generalize ceilQuotient cols (max 1 cq) = cc at h hcq2 hle ⊢
  rw [roundUpI_eq hkc0 (by omega)]
  generalize roundUp k.kCols cc = LC at h hle ⊢
  generalize roundUp reg depth = LD at h hD hCD hT hl2d ld ⊢
  cases hfac : t.factorIsOne with
  | true =>
    rw [hfac, if_pos rfl, pure_ok, ok_bind, pure_ok] at h
    rw [if_pos rfl, roundUpI_eq hkr0 (by omega), pure_ok, ok_bind, pure_ok]
    injection h with h
    injection h with h1 h2
    injection h2 with h2 h3
    rw [h1, h2, h3]
  | false =>
    have hCD' := hCD hfac
    have hT' := hT hfac
    have hm : LC * LD ≤ 2147483647 := Nat.le_trans (Nat.mul_le_mul_right LD hle) hCD'
    have hm' : nt * (LD + 4 * LC) ≤ 2147483647 :=
      Nat.le_trans (Nat.mul_le_mul_left nt (by omega)) hT'
    have h1 : LD + 4 * LC ≤ nt * (LD + 4 * LC) := Nat.le_mul_of_pos_left _ hnt
    have h0 : 0 < nt * (LD + 4 * LC) := by omega
    have c1 : (LD : Int) * LC = ((LC * LD : Nat) : Int) := by push_cast; exact Int.mul_comm _ _
    have c2 : (nt : Int) * (LD + 4 * LC) = ((nt * (LD + 4 * LC) : Nat) : Int) := by push_cast; rfl
    have b0 := ht.l2_nonneg
    have b1 := ht.l2_le
    rw [hfac, if_neg (by decide), c1, c2, cdiv_ok (by omega), ok_bind] at h
    rw [if_neg (by decide), c1, cint_ok (by unfold InI32; omega), ok_bind,
      cint_ok (by unfold InI32; omega), ok_bind, cint_ok (by unfold InI32; omega), ok_bind,
      cint_ok (by unfold InI32; omega), ok_bind, c2, cint_ok (by unfold InI32; omega), ok_bind,
      cdivI_pos (by omega) (by unfold InI32; omega), ok_bind, max1_eq]
    have hq : Int.tdiv (t.l2Bytes - ((LC * LD : Nat) : Int)) ((nt * (LD + 4 * LC) : Nat) : Int) ≤
        536870912 := by
      exact tdiv_le_of_le (by omega) (by omega) (by omega)
    generalize Int.tdiv (t.l2Bytes - ((LC * LD : Nat) : Int)) ((nt * (LD + 4 * LC) : Nat) : Int) = qq at h hq ⊢
    have hm1 := max1_le (n := 536870912) hq (by omega)
    have hm0 := max1_pos qq
    generalize max1 qq = mr at h hm1 hm0 ⊢
    rw [ceilQuotientI_nat hm0 (by omega), ok_bind]
    have hcq := ceilQuotient_le (a := per) hm0
    generalize ceilQuotient per mr = cq at h hcq ⊢
    rw [max_cast, ceilQuotientI_nat (by omega) (by omega), ok_bind]
    have hcq2 := ceilQuotient_le (a := per) (b := max 1 cq) (by omega)
    generalize ceilQuotient per (max 1 cq) = cc at h hcq2 ⊢
    rw [roundUpI_eq hkr0 (by omega), pure_ok, ok_bind, pure_ok]
    rw [pure_ok, ok_bind, pure_ok] at h
    injection h with h
    injection h with h1 h2
    injection h2 with h2 h3
    rw [h1, h2, h3]

theorem findL1_eq {k : KernelFormat} {reg rows cols depth : Nat} {t : Tuning} (hk : k.WF reg)
    (ht : TuningOk t) (hr : 0 < rows) (hc : 0 < cols) (hd : 0 < depth)
    (hrd : k.kRows ∣ rows) (hcd : k.kCols ∣ cols) (hdd : reg ∣ depth)
    (hR : rows ≤ 1073741823) (hC : cols ≤ 134217728) (hD : depth ≤ 1073741823)
    (hkr : k.kRows ≤ 1024) (hkc : k.kCols ≤ 1024) (hreg : reg ≤ 1073741823)
    {l1r l1c l1d : Nat} (h : findL1BlockSizes k reg rows cols depth t = .ok (l1r, l1c, l1d)) :
    findL1 k reg rows cols depth t = .ok ((l1r : Int), (l1c : Int), (l1d : Int)) := by
  have hkr0 : 0 < k.kRows := hk.lhs.kw_pos
  have hkc0 : 0 < k.kCols := hk.rhs.kw_pos
  have hreg0 : 0 < reg := hk.lhs.reg_pos
  have hkd : k.kDepth ∣ depth := Nat.dvd_trans hk.lhs.cd_dvd hdd
  have b0 := ht.l1_nonneg
  have b1 := ht.l1_le
  have hrm := Nat.mod_eq_zero_of_dvd hrd
  have hcm := Nat.mod_eq_zero_of_dvd hcd
  have hdm := Nat.mod_eq_zero_of_dvd hkd
  unfold findL1BlockSizes at h
  rw [decide_eq_true hrm, decide_eq_true hcm, decide_eq_true hdm] at h
  simp only [assertM_true, ok_bind] at h
  unfold findL1
  rw [decide_eq_true (by omega : (rows : Int) % k.kRows = 0), decide_eq_true (by omega : (cols : Int) % k.kCols = 0),
    decide_eq_true (by omega : (depth : Int) % k.kDepth = 0)]
  simp only [assertM_true, ok_bind]
  have hkk : k.kRows * k.kCols ≤ 1024 * 1024 := Nat.mul_le_mul hkr hkc
  have c1 : 4 * (k.kRows : Int) * k.kCols = ((4 * (k.kRows * k.kCols) : Nat) : Int) := by
    push_cast; exact Int.mul_assoc _ _ _
  rw [c1, cdiv_ok (by omega), ok_bind] at h
  rw [c1, cint_ok (by unfold InI32; omega), ok_bind, cdivI_pos (by omega) (by unfold InI32; omega), ok_bind,
    max1_eq]
  have hq : Int.tdiv (t.l1Bytes - ((4 * (k.kRows * k.kCols) : Nat) : Int)) (k.kRows + k.kCols) ≤ 536870912 :=
    tdiv_le_of_le (by omega) (by omega) (by omega)
  generalize Int.tdiv (t.l1Bytes - ((4 * (k.kRows * k.kCols) : Nat) : Int)) (k.kRows + k.kCols) = qq at h hq ⊢
  have hm1 := max1_le (n := 536870912) hq (by omega)
  have hm0 := max1_pos qq
  generalize max1 qq = md at h hm1 hm0 ⊢
  rw [ceilQuotientI_nat hm0 (by omega), ok_bind]
  have hcq := ceilQuotient_le (a := depth) hm0
  generalize ceilQuotient depth md = cq at h hcq ⊢
  rw [max_cast, ceilQuotientI_nat (by omega) (by omega), ok_bind]
  have hcq2 := roundUp_ceil_le (a := depth) (b := max 1 cq) hreg0 (by omega) hdd (Nat.le_refl _)
  have hcq3 := ceilQuotient_le (a := depth) (b := max 1 cq) (by omega)
  generalize ceilQuotient depth (max 1 cq) = cc at h hcq2 hcq3 ⊢
  rw [roundUpI_eq hreg0 (by omega)]
  generalize roundUp reg cc = LD at h hcq2 ⊢
  rw [cdiv_ok (by omega), ok_bind] at h
  rw [cint_ok (by unfold InI32; omega), ok_bind, cint_ok (by unfold InI32; omega), ok_bind,
    cdivI_pos (by omega) (by unfold InI32; omega), ok_bind, max1_eq]
  have hq2 : Int.tdiv t.l1Bytes ((LD : Int) + 4 * (cols : Int)) ≤ 536870912 :=
    tdiv_le_of_le (by omega) (by omega) (by omega)
  generalize Int.tdiv t.l1Bytes ((LD : Int) + 4 * (cols : Int)) = q2 at h hq2 ⊢
  have hm1 := max1_le (n := 536870912) hq2 (by omega)
  have hm0 := max1_pos q2
  generalize max1 q2 = mr at h hm1 hm0 ⊢
  rw [ceilQuotientI_nat hm0 (by omega), ok_bind]
  have hcq := ceilQuotient_le (a := rows) hm0
  generalize ceilQuotient rows mr = cr at h hcq ⊢
  rw [max_cast, ceilQuotientI_nat (by omega) (by omega), ok_bind]
  have hcq3 := ceilQuotient_le (a := rows) (b := max 1 cr) (by omega)
  generalize ceilQuotient rows (max 1 cr) = cc2 at h hcq3 ⊢
  rw [roundUpI_eq hkr0 (by omega), pure_ok]
  rw [pure_ok] at h
  injection h with h
  injection h with h1 h2
  injection h2 with h2 h3
  rw [h1, h2, h3]

end IntSizes
end Gemmlowp
