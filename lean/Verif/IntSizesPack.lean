import Verif.IntSizesProof
import Mathlib.Tactic.Linarith
import Mathlib.Tactic.Ring
/-!
# No overflow in the `int` arithmetic of packing
-/
namespace Gemmlowp
namespace IntSizes

theorem roundDownI_int {m : Nat} {x : Int} (h0 : 0 ≤ x) (h : x ≤ 2147483647) :
    roundDownI m x = x - x % m := by
  unfold roundDownI
  have e : x % 4294967296 = x := Int.emod_eq_of_lt h0 (by omega)
  simp only [e]
  rcases Nat.eq_zero_or_pos m with rfl | hm
  · simp [toI32_id]
  · have h1 := Int.emod_nonneg x (by omega : (m : Int) ≠ 0)
    have h2 : x % (m : Int) ≤ x := by
      have := Int.emod_lt_of_pos x (by omega : (0 : Int) < m)
      have := Int.mul_ediv_add_emod x m
      have : 0 ≤ (m : Int) * (x / m) := Int.mul_nonneg (by omega) (Int.ediv_nonneg h0 (by omega))
      omega
    exact toI32_id (by omega) (by omega)

/-! ## Maps -/

/-- The products that `data` computes fit for all entries. -/
structure MapOk (m : Map) : Prop where
  a_nonneg : 0 ≤ m.a
  a_le : m.a ≤ 1073741823
  b_nonneg : 0 ≤ m.b
  b_le : m.b ≤ 1073741823
  stride_nonneg : 0 ≤ m.stride
  fa : (m.a - 1) * m.strideA ≤ 2147483647
  fb : (m.b - 1) * m.strideB ≤ 2147483647

theorem MapOk.strideA_nonneg {m : Map} (h : MapOk m) : 0 ≤ m.strideA := by
  have := h.stride_nonneg
  unfold Map.strideA; split <;> omega

theorem MapOk.strideB_nonneg {m : Map} (h : MapOk m) : 0 ≤ m.strideB := by
  have := h.stride_nonneg
  unfold Map.strideB; split <;> omega

theorem data_ok {m : Map} (h : MapOk m) {i j : Int} (hi0 : 0 ≤ i) (hi : i < m.a) (hj0 : 0 ≤ j)
    (hj : j < m.b) : m.data i j = .ok (m.base + i * m.strideA + j * m.strideB) := by
  have sa := h.strideA_nonneg
  have sb := h.strideB_nonneg
  have h1 : i * m.strideA ≤ (m.a - 1) * m.strideA := Int.mul_le_mul_of_nonneg_right (by omega) sa
  have h2 : j * m.strideB ≤ (m.b - 1) * m.strideB := Int.mul_le_mul_of_nonneg_right (by omega) sb
  have h3 := Int.mul_nonneg hi0 sa
  have h4 := Int.mul_nonneg hj0 sb
  have := h.fa
  have := h.fb
  unfold Map.data
  rw [cint_le h3 (by omega), ok_bind, cint_le h4 (by omega), ok_bind, pure_ok]

theorem sub_ok {m : Map} (h : MapOk m) {p da db : Int} (ha0 : 0 ≤ da) (ha : da ≤ m.a) (hb0 : 0 ≤ db)
    (hb : db ≤ m.b) : MapOk { m with base := p, a := da, b := db } := by
  have sa := h.strideA_nonneg
  have sb := h.strideB_nonneg
  have h1 : (da - 1) * m.strideA ≤ (m.a - 1) * m.strideA := Int.mul_le_mul_of_nonneg_right (by omega) sa
  have h2 : (db - 1) * m.strideB ≤ (m.b - 1) * m.strideB := Int.mul_le_mul_of_nonneg_right (by omega) sb
  have := h.fa
  have := h.fb
  have := h.a_le
  have := h.b_le
  exact ⟨ha0, by show da ≤ _; omega, hb0, by show db ≤ _; omega, h.stride_nonneg,
    by show (da - 1) * m.strideA ≤ _; omega, by show (db - 1) * m.strideB ≤ _; omega⟩

theorem block_data {m : Map} {i j da db p : Int} (hd : m.data i j = .ok p)
    (hi0 : 0 ≤ i) (hda : 0 ≤ da) (ha : i + da ≤ m.a) (hj0 : 0 ≤ j) (hdb : 0 ≤ db) (hb : j + db ≤ m.b)
    (ha2 : m.a ≤ 2147483647) (hb2 : m.b ≤ 2147483647) :
    m.block i j da db = .ok { m with base := p, a := da, b := db } := by
  unfold Map.block
  rw [decide_eq_true hi0, decide_eq_true hj0]
  simp only [assertM_true, ok_bind]
  rw [cint_le (by omega) (by omega), ok_bind, decide_eq_true ha]
  simp only [assertM_true, ok_bind]
  rw [cint_le (by omega) (by omega), ok_bind, decide_eq_true hb]
  simp only [assertM_true, ok_bind]
  rw [hd, ok_bind, pure_ok]

theorem block_ok {m : Map} (h : MapOk m) {i j da db : Int} (hi0 : 0 ≤ i) (hi : i < m.a) (hda : 0 ≤ da)
    (ha : i + da ≤ m.a) (hj0 : 0 ≤ j) (hj : j < m.b) (hdb : 0 ≤ db) (hb : j + db ≤ m.b) :
    ∃ p, m.block i j da db = .ok { m with base := p, a := da, b := db } ∧
      MapOk { m with base := p, a := da, b := db } :=
  ⟨_, block_data (data_ok h hi0 hi hj0 hj) hi0 hda ha hj0 hdb hb (by have := h.a_le; omega)
    (by have := h.b_le; omega), sub_ok h hda (by omega) hdb (by omega)⟩

theorem flip_ok {m : Map} (h : MapOk m) : MapOk m.flip := by
  have e1 : m.flip.strideA = m.strideB := by
    unfold Map.strideA Map.strideB Map.flip; cases m.majorA <;> rfl
  have e2 : m.flip.strideB = m.strideA := by
    unfold Map.strideA Map.strideB Map.flip; cases m.majorA <;> rfl
  exact ⟨h.b_nonneg, h.b_le, h.a_nonneg, h.a_le, h.stride_nonneg, by rw [e1]; exact h.fb,
    by rw [e2]; exact h.fa⟩

/-! ## Packing -/

/-- What packing needs to know about a format. -/
structure FmtOk (f : SideFormat) (reg : Nat) : Prop where
  wf : f.WF reg
  kw_le : f.kw ≤ 1024
  reg_le : reg ≤ 1024

theorem FmtOk.cw_le {f : SideFormat} {reg : Nat} (h : FmtOk f reg) : f.cw ≤ f.kw :=
  Nat.le_mul_of_pos_right _ h.wf.cells_pos

theorem FmtOk.cd_le {f : SideFormat} {reg : Nat} (h : FmtOk f reg) : f.cd ≤ reg :=
  Nat.le_of_dvd h.wf.reg_pos h.wf.cd_dvd

theorem FmtOk.cells_le {f : SideFormat} {reg : Nat} (h : FmtOk f reg) : f.cells ≤ f.kw :=
  Nat.le_mul_of_pos_left _ h.wf.cw_pos

theorem mult_le {a b s : Int} (hs : 0 < s) (ha : s ∣ a) (hb : s ∣ b) (h : a < b) : a + s ≤ b := by
  obtain ⟨x, rfl⟩ := ha
  obtain ⟨y, rfl⟩ := hb
  have h1 : x < y := by
    by_contra hn
    have := Int.mul_le_mul_of_nonneg_left (by omega : y ≤ x) (by omega : 0 ≤ s)
    omega
  have h2 := Int.mul_le_mul_of_nonneg_left (by omega : x + 1 ≤ y) (by omega : 0 ≤ s)
  rw [Int.mul_add, Int.mul_one] at h2
  exact h2

theorem pack_ok {f : SideFormat} {reg : Nat} (hf : FmtOk f reg) {src : Map} (hs : MapOk src)
    (ha : src.a = f.kw) (hb : src.b = reg) {pos : Int} (h0 : 0 ≤ pos)
    (h1 : pos + f.kw * reg ≤ 2147483647) : pack f reg src pos = .ok (pos + f.kw * reg) := by
  have hkw := hf.wf.kw_pos
  have hcw := hf.wf.cw_pos
  have hcd := hf.wf.cd_pos
  have e1 := hf.cw_le
  have e2 := hf.cd_le
  have e3 := hf.cells_le
  have e4 := hf.kw_le
  have e5 := hf.reg_le
  have hcwk : (f.cw : Int) ∣ f.kw := Int.natCast_dvd_natCast.mpr (Nat.dvd_mul_right _ _)
  have hcdr : (f.cd : Int) ∣ reg := Int.natCast_dvd_natCast.mpr hf.wf.cd_dvd
  unfold pack
  rw [forI_unit (by omega) (by omega) (fun csd hd0 hd1 hd2 =>
    forI_unit (by omega) (by omega) (fun csw hw0 hw1 hw2 => by
      have a1 := mult_le (by omega) (by simpa using hw2) hcwk hw1
      have a2 := mult_le (by omega) (by simpa using hd2) hcdr hd1
      obtain ⟨p, hp, hm⟩ := block_ok hs (i := csw) (j := csd) (da := f.cw) (db := f.cd) hw0 (by omega)
        (by omega) (by omega) hd0 (by omega) (by omega) (by omega)
      rw [hp, ok_bind]
      exact rect_ok (by omega) (by omega) fun w d h0 h1 h2 h3 => by
        rw [data_ok hm h0 h1 h2 h3]; rfl))]
  rw [ok_bind]
  have hcr : f.cells * reg ≤ 1024 * 1024 := Nat.mul_le_mul (by omega) e5
  have c1 : (f.cells : Int) * reg = ((f.cells * reg : Nat) : Int) := by push_cast; rfl
  rw [c1, cint_nat (by omega), ok_bind, cdivI_nat hcd (by omega), ok_bind]
  unfold seekForward
  have hsz : f.cells * reg / f.cd * f.cellSize = f.kw * reg := by
    obtain ⟨e, he⟩ := hf.wf.cd_dvd
    have : f.cells * reg = f.cd * (f.cells * e) := by rw [he]; ring
    rw [this, Nat.mul_div_cancel_left _ hcd, he]
    unfold SideFormat.kw SideFormat.cellSize
    ring
  have c2 : ((f.cells * reg / f.cd : Nat) : Int) * (f.cellSize : Int) = (f.kw : Int) * reg := by
    exact_mod_cast congrArg (Nat.cast (R := Int)) hsz
  have h3 : 0 ≤ (f.kw : Int) * reg := Int.mul_nonneg (by omega) (by omega)
  rw [c2, cint_le h3 (by omega), ok_bind, cint_le (by omega) (by omega)]

theorem small_map {a b s : Int} {mj : Bool} (ha0 : 0 ≤ a) (ha : a ≤ 1024) (hb0 : 0 ≤ b) (hb : b ≤ 1024)
    (hs0 : 0 ≤ s) (hs : s ≤ 1024) : MapOk { base := 0, a := a, b := b, stride := s, majorA := mj } := by
  have h1 : ∀ x y : Int, x ≤ 1024 → 0 ≤ y → y ≤ 1024 → (x - 1) * y ≤ 2147483647 := by
    intro x y hx hy0 hy
    have := Int.mul_le_mul_of_nonneg_right (by omega : x - 1 ≤ 1024) hy0
    omega
  refine ⟨ha0, by show a ≤ _; omega, hb0, by show b ≤ _; omega, hs0, ?_, ?_⟩
  · unfold Map.strideA
    cases mj
    · exact h1 _ _ ha (by simp) (by simp)
    · exact h1 _ _ ha hs0 hs
  · unfold Map.strideB
    cases mj
    · exact h1 _ _ hb hs0 hs
    · exact h1 _ _ hb (by simp) (by simp)

theorem makeComplete_ok {f : SideFormat} {reg : Nat} (hf : FmtOk f reg) {src : Map} (hs : MapOk src)
    (ha0 : 0 < src.a) (ha : src.a ≤ f.kw) (hb0 : 0 < src.b) (hb : src.b ≤ reg) :
    ∃ m, makeComplete f reg src = .ok m ∧ MapOk m ∧ m.a = f.kw ∧ m.b = reg := by
  have e4 := hf.kw_le
  have e5 := hf.reg_le
  have hm : ∀ x y : Int, 0 ≤ x → x ≤ 1024 → 0 ≤ y → y ≤ 1024 → cint (x * y) = .ok (x * y) := by
    intro x y hx0 hx hy0 hy
    have h1 := Int.mul_nonneg hx0 hy0
    have h2 := Int.mul_le_mul hx hy hy0 (by omega)
    exact cint_le h1 (by omega)
  refine ⟨{ base := 0, a := f.kw, b := reg, stride := if src.majorA then reg else f.kw
            majorA := src.majorA }, ?_, ?_, rfl, rfl⟩
  · unfold makeComplete
    by_cases hmaj : src.majorA = true
    · rw [if_pos hmaj, forI_unit (by omega) (by omega) fun w h0 h1 _ => by
        rw [hm w reg h0 (by omega) (by omega) (by omega), ok_bind, data_ok hs h0 h1 (by omega) hb0]; rfl]
      rfl
    · rw [if_neg hmaj, forI_unit (by omega) (by omega) fun d h0 h1 _ => by
        rw [hm d f.kw h0 (by omega) (by omega) (by omega), ok_bind, data_ok hs (by omega) ha0 h0 h1]; rfl]
      rfl
  · apply small_map <;> (try split) <;> omega

theorem packRun_ok {f : SideFormat} {reg : Nat} (hf : FmtOk f reg) {src : Map} (hs : MapOk src)
    {sw width sd depth pos e : Int} (hw0 : 0 < width) (hw : width ≤ f.kw) (hsw0 : 0 ≤ sw)
    (hsw : sw + width ≤ src.a) (hd0 : 0 < depth) (hsd0 : 0 ≤ sd) (hsd : sd + depth ≤ src.b)
    (he : (reg : Int) ∣ e) (hde : depth ≤ e) (hp0 : 0 ≤ pos) (hp : pos + f.kw * e ≤ 2147483647) :
    ∃ q, packRun f reg src sw width sd depth pos = .ok q := by
  have e4 := hf.kw_le
  have e5 := hf.reg_le
  have hr0 : 0 < reg := hf.wf.reg_pos
  have al := hs.a_le
  have bl := hs.b_le
  have hkw0 : (0 : Int) ≤ f.kw := by omega
  -- one register block at depth `d`
  have key : ∀ d : Int, 0 ≤ d → d < depth → (reg : Int) ∣ d → pos + f.kw * d + f.kw * reg ≤ 2147483647 := by
    intro d h0 h1 h2
    have h3 := mult_le (by omega) h2 he (by omega)
    have h4 := Int.mul_le_mul_of_nonneg_left h3 hkw0
    rw [Int.mul_add] at h4
    omega
  have nn : ∀ d : Int, 0 ≤ d → 0 ≤ pos + f.kw * d := by
    intro d h0
    have := Int.mul_nonneg hkw0 h0
    omega
  have comp : ∀ d ds : Int, 0 ≤ d → d < depth → (reg : Int) ∣ d → 0 < ds → ds ≤ reg → d + ds ≤ depth →
      ∃ blk c, src.block sw (sd + d) width ds = .ok blk ∧ makeComplete f reg blk = .ok c ∧
        pack f reg c (pos + f.kw * d) = .ok (pos + f.kw * (d + reg)) := by
    intro d ds h0 h1 h2 h3 h4 h5
    obtain ⟨p, hb, hm⟩ := block_ok hs (i := sw) (j := sd + d) (da := width) (db := ds) hsw0 (by omega)
      (by omega) hsw (by omega) (by omega) (by omega) (by omega)
    obtain ⟨c, hc, hcm, hca, hcb⟩ := makeComplete_ok hf hm hw0 hw h3 h4
    refine ⟨_, c, hb, hc, ?_⟩
    rw [pack_ok hf hcm hca hcb (nn d h0) (key d h0 h1 h2)]
    congr 1; ring
  unfold packRun
  by_cases hwk : width = f.kw
  · rw [if_pos hwk, roundDownI_int (by omega) (by omega)]
    have m0 := Int.emod_nonneg depth (by omega : (reg : Int) ≠ 0)
    have m1 := Int.emod_lt_of_pos depth (by omega : (0 : Int) < reg)
    have hal : (reg : Int) ∣ depth - depth % reg := Int.dvd_self_sub_emod
    dsimp only
    obtain ⟨q, e', hl, hI, h1, h2, h3, h4⟩ := forI_inv (lo := 0) (hi := depth - depth % reg) (step := reg)
      (f := fun d pos => do
        let x ← cint (sd + d)
        let blk ← src.block sw x width reg
        pack f reg blk pos) (fun i s => s = pos + f.kw * i) (by omega) (by omega)
      (fun d s h0 h1 h2 hI => by
        have h2' : (reg : Int) ∣ d := by simpa using h2
        have h3 := mult_le (by omega) h2' hal h1
        obtain ⟨p, hb, hm⟩ := block_ok hs (i := sw) (j := sd + d) (da := width) (db := reg) hsw0 (by omega)
          (by omega) hsw (by omega) (by omega) (by omega) (by omega)
        refine ⟨pos + f.kw * (d + reg), ?_, rfl⟩
        rw [cint_le (by omega) (by omega), ok_bind, hb, ok_bind, hI,
          pack_ok hf hm (by show width = _; exact hwk) rfl (nn d h0) (key d h0 (by omega) h2')]
        congr 1; ring) (s := pos) (by simp)
    rw [hl, ok_bind]
    have he' : e' = depth - depth % reg := by
      rcases h4 with h4 | h4
      · have : 0 ≤ depth - depth % reg := by
          have := Int.mul_ediv_add_emod depth reg
          have : 0 ≤ (reg : Int) * (depth / reg) := Int.mul_nonneg (by omega) (Int.ediv_nonneg (by omega) (by omega))
          omega
        omega
      · by_contra hne
        have := mult_le (by omega) hal (by simpa using h3) (by omega)
        omega
    by_cases hlt : depth - depth % reg < depth
    · rw [if_pos hlt]
      obtain ⟨blk, c, hb, hc, hpk⟩ := comp (depth - depth % reg) (depth - (depth - depth % reg)) (by omega) hlt
        hal (by omega) (by omega) (by omega)
      rw [cint_le (by omega) (by omega), ok_bind, cint_le (by omega) (by omega), ok_bind, hb, ok_bind, hc,
        ok_bind, hI, he', hpk]
      exact ⟨_, rfl⟩
    · rw [if_neg hlt]; exact ⟨_, rfl⟩
  · rw [if_neg hwk, decide_eq_true (by omega), assertM_true, ok_bind]
    obtain ⟨q, e', hl, _⟩ := forI_inv (lo := 0) (hi := depth) (step := reg)
      (f := fun d pos => do
        let y ← cint (depth - d)
        let ds := min (reg : Int) y
        let x ← cint (sd + d)
        let blk ← src.block sw x width ds
        let c ← makeComplete f reg blk
        pack f reg c pos) (fun i s => s = pos + f.kw * i) (by omega) (by omega)
      (fun d s h0 h1 h2 hI => by
        obtain ⟨blk, c, hb, hc, hpk⟩ := comp d (min (reg : Int) (depth - d)) h0 h1 (by simpa using h2)
          (by omega) (by omega) (by omega)
        refine ⟨pos + f.kw * (d + reg), ?_, rfl⟩
        rw [cint_le (by omega) (by omega), ok_bind]
        dsimp only
        rw [cint_le (by omega) (by omega), ok_bind, hb, ok_bind, hc, ok_bind, hI, hpk]) (s := pos) (by simp)
    exact ⟨q, hl⟩

/-- The parameters of one side. -/
structure SideOk (p : SidePar) (f : SideFormat) (reg : Nat) : Prop where
  fmt : FmtOk f reg
  l1w_pos : 0 < p.l1_width
  l1d_pos : 0 < p.l1_depth
  l1w_dvd : (f.kw : Int) ∣ p.l1_width
  l1d_dvd : (reg : Int) ∣ p.l1_depth
  l2w_dvd : (f.kw : Int) ∣ p.l2_width
  l2d_dvd : (reg : Int) ∣ p.l2_depth
  l1w_le : p.l1_width ≤ p.l2_width
  l1d_le : p.l1_depth ≤ p.l2_depth
  l2w_le : p.l2_width ≤ 1073741823
  l2d_le : p.l2_depth ≤ 1073741823
  size : p.l2_width * p.l2_depth ≤ 2147483647

theorem seekRun_ok {p : SidePar} {f : SideFormat} {reg : Nat} (hp : SideOk p f reg) {x sd : Int}
    (hx0 : 0 ≤ x) (hx : x ≤ p.l2_width) (hd0 : 0 ≤ sd) (hd : sd ≤ p.l2_depth) :
    seekRun p x sd = .ok (p.l2_width * sd + x * min p.l1_depth (p.l2_depth - sd)) ∧
      0 ≤ p.l2_width * sd + x * min p.l1_depth (p.l2_depth - sd) ∧
      p.l2_width * sd + x * min p.l1_depth (p.l2_depth - sd) ≤ 2147483647 := by
  have := hp.l2d_le
  have := hp.l2w_le
  have := hp.l1d_pos
  have h1 := hp.size
  have hw0 : 0 ≤ p.l2_width := by omega
  have h2 : p.l2_width * sd ≤ p.l2_width * p.l2_depth := Int.mul_le_mul_of_nonneg_left hd hw0
  have h3 := Int.mul_nonneg hw0 hd0
  unfold seekRun
  rw [cint_le (by omega) (by omega), ok_bind]
  dsimp only
  have hrun0 : 0 ≤ min p.l1_depth (p.l2_depth - sd) := by omega
  have hrun1 : min p.l1_depth (p.l2_depth - sd) ≤ p.l2_depth - sd := by omega
  generalize min p.l1_depth (p.l2_depth - sd) = run at hrun0 hrun1 ⊢
  have h4 : x * run ≤ p.l2_width * run := Int.mul_le_mul_of_nonneg_right hx hrun0
  have h5 : p.l2_width * run ≤ p.l2_width * (p.l2_depth - sd) := Int.mul_le_mul_of_nonneg_left hrun1 hw0
  rw [Int.mul_sub] at h5
  have h6 := Int.mul_nonneg hx0 hrun0
  refine ⟨?_, by omega, by omega⟩
  rw [cint_le h3 (by omega), ok_bind, cint_le h6 (by omega), ok_bind, cint_le (by omega) (by omega)]

theorem packL1_ok {p : SidePar} {f : SideFormat} {reg : Nat} (hp : SideOk p f reg) {src : Map} (hs : MapOk src)
    (ha : src.a ≤ p.l2_width) (hb : src.b ≤ p.l2_depth) {sw width sd depth : Int} (hsw0 : 0 ≤ sw)
    (hswd : (f.kw : Int) ∣ sw) (hw0 : 0 ≤ width) (hsw : sw + width ≤ src.a) (hsd0 : 0 ≤ sd)
    (hsdd : p.l1_depth ∣ sd) (hd0 : 0 < depth) (hd : depth ≤ p.l1_depth) (hsd : sd + depth ≤ src.b) :
    packL1 f reg p src sw width sd depth = .ok () := by
  have e4 := hp.fmt.kw_le
  have hkw := hp.fmt.wf.kw_pos
  have := hs.a_le
  have := hs.b_le
  have := hp.l2d_le
  have := hp.l2w_le
  unfold packL1
  apply forI_unit (by omega) (by omega)
  intro w h0 h1 h2
  have h2' : (f.kw : Int) ∣ w := by simpa using h2
  obtain ⟨e1, e2, e3⟩ := seekRun_ok hp (x := sw + w) (sd := sd) (by omega) (by omega) hsd0 (by omega)
  rw [cint_le (by omega) (by omega), ok_bind]
  dsimp only
  rw [cint_le (by omega) (by omega), ok_bind, e1, ok_bind]
  have hx := mult_le (by omega) (Int.dvd_add hswd h2') hp.l2w_dvd (by omega)
  have hrd : (reg : Int) ∣ min p.l1_depth (p.l2_depth - sd) := by
    have h3 : (reg : Int) ∣ p.l2_depth - sd := Int.dvd_sub hp.l2d_dvd (Int.dvd_trans hp.l1d_dvd hsdd)
    rcases Int.le_total p.l1_depth (p.l2_depth - sd) with h | h
    · rw [Int.min_eq_left h]; exact hp.l1d_dvd
    · rw [Int.min_eq_right h]; exact h3
  have hrun0 : 0 ≤ min p.l1_depth (p.l2_depth - sd) := by omega
  have hrun1 : min p.l1_depth (p.l2_depth - sd) ≤ p.l2_depth - sd := by omega
  have hrun2 : depth ≤ min p.l1_depth (p.l2_depth - sd) := by omega
  generalize min p.l1_depth (p.l2_depth - sd) = run at hrun0 hrun1 hrun2 hrd e1 e2 e3 ⊢
  have hbound : p.l2_width * sd + (sw + w) * run + f.kw * run ≤ 2147483647 := by
    have a1 : (sw + w + f.kw) * run ≤ p.l2_width * run := Int.mul_le_mul_of_nonneg_right hx hrun0
    have a2 : p.l2_width * run ≤ p.l2_width * (p.l2_depth - sd) :=
      Int.mul_le_mul_of_nonneg_left hrun1 (by omega)
    rw [Int.mul_sub] at a2
    rw [Int.add_mul] at a1
    have := hp.size
    omega
  obtain ⟨q, hq⟩ := packRun_ok hp.fmt hs (sw := sw + w) (width := min (f.kw : Int) (width - w)) (sd := sd)
    (depth := depth) (by omega) (by omega) (by omega) (by omega) hd0 hsd0 hsd hrd hrun2 e2 hbound
  rw [hq, ok_bind, pure_ok]

theorem prefetchL1_ok {src : Map} (hs : MapOk src) {sw width sd depth : Int} (hsw0 : 0 ≤ sw)
    (hsw : sw + width ≤ src.a) (hsd0 : 0 ≤ sd) (hsd : sd + depth ≤ src.b) :
    prefetchL1 src sw width sd depth = .ok () := by
  have := hs.a_le
  have := hs.b_le
  unfold prefetchL1
  have s1 : (0 : Int) < (if src.majorA = true then 64 else 1) ∧ (if src.majorA = true then 64 else 1) ≤ (64 : Int) := by
    split <;> omega
  have s2 : (0 : Int) < (if src.majorA = true then 1 else 64) ∧ (if src.majorA = true then 1 else 64) ≤ (64 : Int) := by
    split <;> omega
  dsimp only
  apply forI_unit s1.1 (by omega)
  intro d h0 h1 _
  apply forI_unit s2.1 (by omega)
  intro w h2 h3 _
  rw [cint_le (by omega) (by omega), ok_bind, cint_le (by omega) (by omega), ok_bind,
    data_ok hs (by omega) (by omega) (by omega) (by omega)]
  rfl

theorem packL2_ok {p : SidePar} {f : SideFormat} {reg : Nat} (hp : SideOk p f reg) {src : Map} (hs : MapOk src)
    (ha : src.a ≤ p.l2_width) (hb : src.b ≤ p.l2_depth) : packL2 f reg p src = .ok () := by
  have := hs.a_le
  have := hs.b_le
  have := hp.l2d_le
  have := hp.l2w_le
  have := hp.l1w_le
  have := hp.l1d_le
  have p1 := hp.l1w_pos
  have p2 := hp.l1d_pos
  unfold packL2
  apply forI_unit p2 (by omega)
  intro d h0 h1 h2
  rw [cint_le (by omega) (by omega), ok_bind]
  dsimp only
  apply forI_unit p1 (by omega)
  intro w h3 h4 h5
  rw [cint_le (by omega) (by omega), ok_bind]
  rw [prefetchL1_ok hs h3 (by omega) h0 (by omega), ok_bind]
  exact packL1_ok hp hs ha hb h3 (Int.dvd_trans hp.l1w_dvd (by simpa using h5)) (by omega) (by omega) h0
    (by simpa using h2) (by omega) (by omega) (by omega)

end IntSizes
end Gemmlowp
