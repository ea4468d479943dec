import Verif.PackEffect
/-!
# Packing a whole L2 block
-/
namespace Gemmlowp

/-- The coefficient at `(w, d)` in the kernel's number system: the input value minus the
zero point, and 0 outside of the source. -/
def packVal (f : SideFormat) (W D : Nat) (B : Nat → Nat → UInt8) (w d : Nat) : Int :=
  if w < W ∧ d < D then f.unwrap (B w d) else 0

theorem packVal_bound (f : SideFormat) (W D : Nat) (B : Nat → Nat → UInt8) (w d : Nat) :
    -255 ≤ packVal f W D B w d ∧ packVal f W D B w d ≤ 255 := by
  unfold packVal
  split
  · exact unwrap_bound f _
  · omega

theorem zp_lt (f : SideFormat) : f.zp < 256 := by
  unfold SideFormat.zp; split <;> omega

/-- The padding stands for zero. -/
theorem unwrap_zp (f : SideFormat) : f.unwrap (UInt8.ofNat f.zp) = 0 := by
  unfold SideFormat.unwrap SideFormat.zp SideFormat.input
  cases f.scalar <;> decide

section
variable {pb : BlockPacker} {mode : OvMode} {p : SideParams} {f : SideFormat} {reg W : Nat}
  {mem : Mem} {src : SideMap} {B : Nat → Nat → UInt8}

local notation "VV" => packVal f src.width src.depth B

/-- Columns `[sw, sw + kw)` have been packed up to depth `t`, others up to `n`. -/
def stripAt (sw kw t : Nat) (n : Nat → Nat) : Nat → Nat :=
  fun x => if sw ≤ x ∧ x < sw + kw then t else n x

/-- Packing progress together with the cursor. -/
structure RunState (p : SideParams) (f : SideFormat) (W : Nat) (V : Nat → Nat → Int)
    (n : Nat → Nat) (pos : Nat) (ps : PackedSide) : Prop where
  data : DataDone p f W V n ps.data
  sums : SumsDone p W V n ps.sums
  pos : ps.pos = pos

/-- One register-size block, taken in place. -/
theorem run_inplace (hpb : PackerMeetsFor pb mode f reg src.order) (hp : p.Ok f reg) (hr : PackRange mode p)
    (hW : W ≤ p.l2_width)
    (hc : SrcIs mem src B) {n : Nat → Nat} {ps : PackedSide} {sw a e : Nat}
    (hsw : f.kw ∣ sw) (he : reg ∣ e) (hsW : sw + f.kw ≤ W)
    (hel : e + reg ≤ p.l1_depth) (hel2 : p.l1_depth * a + e + reg ≤ p.l2_depth)
    (hw : sw + f.kw ≤ src.width) (hd : p.l1_depth * a + e + reg ≤ src.depth)
    (hs : RunState p f W VV (stripAt sw f.kw (p.l1_depth * a + e) n) (posIn p f sw a e) ps) :
    ∃ ps', (do
        let blk ← src.block sw (p.l1_depth * a + e) f.kw reg
        pb mode f reg mem blk sw ps : M PackedSide) = .ok ps' ∧
      RunState p f W VV (stripAt sw f.kw (p.l1_depth * a + e + reg) n) (posIn p f sw a (e + reg))
        ps' := by
  obtain ⟨m', b1, b2, b3, b5, b4⟩ := SideMap.block_ok (sw := sw) (sd := p.l1_depth * a + e)
    (bw := f.kw) (bd := reg) hc hw hd
  obtain ⟨ps', c1, c2, c3, c4⟩ := hpb.ok (ps := ps) hp hr
    (packVal_bound f src.width src.depth B) hW
    hs.data hs.sums hsw he hsW hel hel2
    (by intro w h1 h2; unfold stripAt; rw [if_pos ⟨h1, h2⟩]) b4 b5 b2 b3
    (by
      intro w d hw' hd'
      unfold packVal
      rw [if_pos (by omega)]) hs.pos
  refine ⟨ps', ?_, ?_, ?_, c4⟩
  · rw [b1, ok_bind, c1]
  · exact c2.congr (by
      intro x _; unfold stripAt
      by_cases hx : sw ≤ x ∧ x < sw + f.kw
      · rw [if_pos hx, if_pos hx]
      · rw [if_neg hx, if_neg hx, if_neg hx])
  · exact c3.congr (by
      intro x _; unfold stripAt
      by_cases hx : sw ≤ x ∧ x < sw + f.kw
      · rw [if_pos hx, if_pos hx]
      · rw [if_neg hx, if_neg hx, if_neg hx])

/-- One register-size block, taken from a zero-padded copy. -/
theorem run_complete (hpb : PackerMeetsFor pb mode f reg src.order) (hp : p.Ok f reg) (hr : PackRange mode p)
    (hW : W ≤ p.l2_width)
    (hc : SrcIs mem src B) {n : Nat → Nat} {ps : PackedSide} {sw a e ws ds : Nat}
    (hsw : f.kw ∣ sw) (he : reg ∣ e) (hsW : sw + f.kw ≤ W)
    (hel : e + reg ≤ p.l1_depth) (hel2 : p.l1_depth * a + e + reg ≤ p.l2_depth)
    (hws : (ws = f.kw ∧ sw + ws ≤ src.width) ∨ (ws < f.kw ∧ sw + ws = src.width))
    (hds : (ds = reg ∧ p.l1_depth * a + e + ds ≤ src.depth) ∨
      (ds < reg ∧ p.l1_depth * a + e + ds = src.depth))
    (hs : RunState p f W VV (stripAt sw f.kw (p.l1_depth * a + e) n) (posIn p f sw a e) ps) :
    ∃ ps', (do
        let blk ← src.block sw (p.l1_depth * a + e) ws ds
        let buf ← makeCompleteSrc f reg mem blk
        pb mode f reg buf.toMem (completeMap f reg src.order) sw ps : M PackedSide) = .ok ps' ∧
      RunState p f W VV (stripAt sw f.kw (p.l1_depth * a + e + reg) n) (posIn p f sw a (e + reg))
        ps' := by
  obtain ⟨m', b1, b2, b3, b5, b4⟩ := SideMap.block_ok (sw := sw) (sd := p.l1_depth * a + e)
    (bw := ws) (bd := ds) hc (by omega) (by omega)
  obtain ⟨buf, e1, e2⟩ := makeCompleteSrc_ok (f := f) (reg := reg) b4 (by omega) (by omega)
    hp.wf.reg_pos hp.wf.kw_pos
  rw [b5] at e2
  obtain ⟨ps', c1, c2, c3, c4⟩ := hpb.ok (ps := ps) hp hr
    (packVal_bound f src.width src.depth B) hW
    hs.data hs.sums hsw he hsW hel hel2
    (by intro w h1 h2; unfold stripAt; rw [if_pos ⟨h1, h2⟩]) e2 rfl rfl rfl
    (by
      intro w d hw' hd'
      unfold packVal
      rw [b2, b3]
      by_cases h : w < ws ∧ d < ds
      · rw [if_pos h, if_pos (by omega)]
      · rw [if_neg h, if_neg (by omega), unwrap_zp]) hs.pos
  refine ⟨ps', ?_, ?_, ?_, c4⟩
  · rw [b1, ok_bind, e1, ok_bind, c1]
  · exact c2.congr (by
      intro x _; unfold stripAt
      by_cases hx : sw ≤ x ∧ x < sw + f.kw
      · rw [if_pos hx, if_pos hx]
      · rw [if_neg hx, if_neg hx, if_neg hx])
  · exact c3.congr (by
      intro x _; unfold stripAt
      by_cases hx : sw ≤ x ∧ x < sw + f.kw
      · rw [if_pos hx, if_pos hx]
      · rw [if_neg hx, if_neg hx, if_neg hx])

theorem packRun_ok (hpb : PackerMeetsFor pb mode f reg src.order) (hp : p.Ok f reg) (hr : PackRange mode p)
    (hW : W ≤ p.l2_width)
    (hc : SrcIs mem src B) {n : Nat → Nat} {ps : PackedSide} {sw a ws ds : Nat}
    (hsw : f.kw ∣ sw) (hsW : sw + f.kw ≤ W)
    (hel : ds ≤ p.l1_depth) (hel2 : p.l1_depth * a + roundUp reg ds ≤ p.l2_depth)
    (hws : (ws = f.kw ∧ sw + ws ≤ src.width) ∨ (ws < f.kw ∧ sw + ws = src.width))
    (hds : p.l1_depth * a + ds ≤ src.depth)
    (hds2 : reg ∣ ds ∨ p.l1_depth * a + ds = src.depth)
    (hs : RunState p f W VV (stripAt sw f.kw (p.l1_depth * a) n) (posIn p f sw a 0) ps) :
    ∃ ps' pos, packRun pb mode f reg mem src sw ws (p.l1_depth * a) ds ps = .ok ps' ∧
      RunState p f W VV (stripAt sw f.kw (p.l1_depth * a + roundUp reg ds) n) pos ps' := by
  have hreg := hp.wf.reg_pos
  have hru_l1 : roundUp reg ds ≤ p.l1_depth := roundUp_le_of_dvd hreg hp.l1d_dvd hel
  unfold packRun
  by_cases hwk : ws = f.kw
  · rw [if_pos hwk]
    dsimp only
    have hal := roundDown_le reg ds
    have hal2 := lt_roundDown_add (i := ds) hreg
    obtain ⟨A, hA⟩ := roundDown_dvd reg ds
    have hru : roundUp reg ds = if roundDown reg ds < ds then roundDown reg ds + reg
        else roundDown reg ds := by
      split
      · rename_i h
        apply Nat.le_antisymm
        · apply roundUp_le_of_dvd hreg _ (by omega)
          exact Nat.dvd_add (roundDown_dvd _ _) (Nat.dvd_refl _)
        · have h1 := le_roundUp hreg ds
          obtain ⟨C, hC⟩ := roundUp_dvd reg ds
          have h2 : reg * A < reg * C := by omega
          have h3 := Nat.lt_of_mul_lt_mul_left h2
          have := Nat.mul_le_mul_left reg h3
          rw [Nat.succ_eq_add_one, Nat.mul_add] at this; omega
      · have : roundDown reg ds = ds := by omega
        rw [this]
        exact roundUp_eq_self hreg (by rw [← this]; exact roundDown_dvd _ _)
    have hle_ru : roundDown reg ds ≤ roundUp reg ds := by rw [hru]; split <;> omega
    -- the loop over aligned blocks
    have hloop : ∃ ps1, (if roundDown reg ds ≠ 0 then
        forLoop 0 (roundDown reg ds) reg (fun d ps => do
          let blk ← src.block sw (p.l1_depth * a + d) ws reg
          pb mode f reg mem blk sw ps) ps
        else pure ps : M PackedSide) = .ok ps1 ∧
        RunState p f W VV (stripAt sw f.kw (p.l1_depth * a + roundDown reg ds) n)
          (posIn p f sw a (roundDown reg ds)) ps1 := by
      by_cases h0 : roundDown reg ds = 0
      · rw [if_neg (by simpa using h0), h0]; exact ⟨ps, rfl, hs⟩
      · rw [if_pos h0]
        obtain ⟨ps1, k, g1, g2, g3, g4⟩ := forLoop_inv (lo := 0) (hi := roundDown reg ds)
          (step := reg) (s := ps)
          (f := fun d ps => do
            let blk ← src.block sw (p.l1_depth * a + d) ws reg
            pb mode f reg mem blk sw ps)
          (fun i st => RunState p f W VV (stripAt sw f.kw (p.l1_depth * a + i) n)
            (posIn p f sw a i) st) hreg hs
          (by
            intro k s hk hI
            simp only [Nat.zero_add] at hk hI ⊢
            have hkA : reg * k + reg ≤ roundDown reg ds := by
              rw [hA] at hk ⊢
              have := Nat.mul_le_mul_left reg (Nat.lt_of_mul_lt_mul_left hk)
              rw [Nat.succ_eq_add_one, Nat.mul_add] at this; omega
            obtain ⟨s', r1, r2⟩ := run_inplace (mode := mode) (pb := pb) hpb hp hr hW hc hsw
              (Nat.dvd_mul_right reg k) hsW (by omega) (by omega) (by omega) (by omega) hI
            refine ⟨s', ?_, ?_⟩
            · rw [hwk]; exact r1
            · rw [Nat.mul_add, Nat.mul_one, ← Nat.add_assoc]; exact r2)
        refine ⟨ps1, g1, ?_⟩
        have : reg * k = roundDown reg ds := by
          simp only [Nat.zero_add] at g2 g3
          rw [hA] at g2 g3 h0 ⊢
          have a1 := Nat.le_of_mul_le_mul_left g2 hreg
          rcases g3 with g3 | g3
          · subst g3; have : A = 0 := by omega
            subst this; rfl
          · have := Nat.lt_of_mul_lt_mul_left g3
            have : k = A := by omega
            rw [this]
        rw [Nat.zero_add, this] at g4; exact g4
    obtain ⟨ps1, g1, g2⟩ := hloop
    rw [g1, ok_bind]
    by_cases hlt : roundDown reg ds < ds
    · rw [if_pos hlt] at hru ⊢
      have hds3 : p.l1_depth * a + ds = src.depth := by
        rcases hds2 with h | h
        · exfalso
          have : roundDown reg ds = ds := by
            unfold roundDown; rw [Nat.mod_eq_zero_of_dvd h]; rfl
          omega
        · exact h
      obtain ⟨s', r1, r2⟩ := run_complete (mode := mode) (pb := pb) (ws := ws) (ds := ds - roundDown reg ds)
        hpb hp hr hW hc hsw (roundDown_dvd _ _) hsW (by omega) (by omega) hws (by omega) g2
      exact ⟨s', _, r1, by rw [hru, ← Nat.add_assoc]; exact r2⟩
    · rw [if_neg hlt] at hru ⊢
      exact ⟨ps1, _, rfl, by rw [hru]; exact g2⟩
  · rw [if_neg hwk, decide_eq_true (by omega : ws < f.kw), assertM_true, ok_bind]
    obtain ⟨R, hR⟩ := roundUp_dvd reg ds
    have hRl := roundUp_lt hreg ds
    have hRg := le_roundUp hreg ds
    obtain ⟨ps1, k, g1, g2, g3, g4⟩ := forLoop_inv (lo := 0) (hi := ds)
      (step := reg) (s := ps)
      (f := fun d ps => do
        let ds := min reg (ds - d)
        let blk ← src.block sw (p.l1_depth * a + d) ws ds
        let buf ← makeCompleteSrc f reg mem blk
        pb mode f reg buf.toMem (completeMap f reg src.order) sw ps)
      (fun i st => RunState p f W VV (stripAt sw f.kw (p.l1_depth * a + i) n)
        (posIn p f sw a i) st) hreg hs
      (by
        intro k s hk hI
        simp only [Nat.zero_add] at hk hI ⊢
        have hkA : reg * k + reg ≤ roundUp reg ds := by
          have h1 : reg * k < reg * R := by omega
          have := Nat.mul_le_mul_left reg (Nat.lt_of_mul_lt_mul_left h1)
          rw [Nat.succ_eq_add_one, Nat.mul_add] at this; omega
        have hmin : (min reg (ds - reg * k) = reg ∧
            p.l1_depth * a + reg * k + min reg (ds - reg * k) ≤ src.depth) ∨
            (min reg (ds - reg * k) < reg ∧
              p.l1_depth * a + reg * k + min reg (ds - reg * k) = src.depth) := by
          by_cases h : reg ≤ ds - reg * k
          · left; omega
          · right
            rcases hds2 with h' | h'
            · exfalso
              have := roundUp_eq_self hreg h'
              omega
            · omega
        obtain ⟨s', r1, r2⟩ := run_complete (mode := mode) (pb := pb) (ws := ws)
          (ds := min reg (ds - reg * k)) hpb hp hr hW hc hsw
          (Nat.dvd_mul_right reg k) hsW (by omega) (by omega) hws hmin hI
        refine ⟨s', r1, ?_⟩
        · rw [Nat.mul_add, Nat.mul_one, ← Nat.add_assoc]; exact r2)
    refine ⟨ps1, posIn p f sw a (0 + reg * k), g1, ?_⟩
    have : reg * k = roundUp reg ds := by
      simp only [Nat.zero_add] at g2 g3
      apply Nat.le_antisymm
      · rcases g3 with g3 | g3
        · subst g3; omega
        · have h1 : reg * (k - 1) < reg * R := by omega
          have h2 := Nat.lt_of_mul_lt_mul_left h1
          have h3 := Nat.mul_le_mul_left reg (show k ≤ R by omega)
          omega
      · exact roundUp_le_of_dvd hreg (Nat.dvd_mul_right _ _) g2
    rw [Nat.zero_add] at g4 ⊢; rw [this] at g4 ⊢; exact g4

theorem packL1_ok (hpb : PackerMeetsFor pb mode f reg src.order) (hp : p.Ok f reg) (hr : PackRange mode p)
    (hW : W ≤ p.l2_width)
    (hkW : f.kw ∣ W)
    (hc : SrcIs mem src B) {n : Nat → Nat} {ps : PackedSide} {w0 a ws ds : Nat}
    (hsw : f.kw ∣ w0) (hsW : w0 + ws ≤ src.width) (hsW2 : src.width ≤ W)
    (hel : ds ≤ p.l1_depth) (hel2 : p.l1_depth * a + roundUp reg ds ≤ p.l2_depth)
    (hws : f.kw ∣ ws ∨ w0 + ws = src.width)
    (hds : p.l1_depth * a + ds ≤ src.depth)
    (hds2 : reg ∣ ds ∨ p.l1_depth * a + ds = src.depth)
    (hn : ∀ x, w0 ≤ x → x < W → n x = p.l1_depth * a)
    (hD : DataDone p f W VV n ps.data) (hS : SumsDone p W VV n ps.sums) :
    ∃ ps', packL1 pb mode f reg p mem src w0 ws (p.l1_depth * a) ds ps = .ok ps' ∧
      DataDone p f W VV (fun x => if w0 ≤ x ∧ x < w0 + roundUp f.kw ws then
        p.l1_depth * a + roundUp reg ds else n x) ps'.data ∧
      SumsDone p W VV (fun x => if w0 ≤ x ∧ x < w0 + roundUp f.kw ws then
        p.l1_depth * a + roundUp reg ds else n x) ps'.sums := by
  unfold packL1
  have hkw := hp.wf.kw_pos
  obtain ⟨R, hR⟩ := roundUp_dvd f.kw ws
  have hRl := roundUp_lt hkw ws
  have hRg := le_roundUp hkw ws
  obtain ⟨ps1, k, g1, g2, g3, g4, g5⟩ := forLoop_inv (lo := 0) (hi := ws)
    (step := f.kw) (s := ps)
    (f := fun w ps =>
      let ws := min f.kw (ws - w)
      packRun pb mode f reg mem src (w0 + w) ws (p.l1_depth * a) ds
        (ps.seekRun p (w0 + w) (p.l1_depth * a)))
    (fun i st => DataDone p f W VV (fun x => if w0 ≤ x ∧ x < w0 + i then
        p.l1_depth * a + roundUp reg ds else n x) st.data ∧
      SumsDone p W VV (fun x => if w0 ≤ x ∧ x < w0 + i then
        p.l1_depth * a + roundUp reg ds else n x) st.sums) hkw
    ⟨hD.congr (by intro x _; rw [if_neg (by omega)]),
     hS.congr (by intro x _; rw [if_neg (by omega)])⟩
    (by
      intro k s hk ⟨hD1, hS1⟩
      simp only [Nat.zero_add] at hk hD1 hS1 ⊢
      have hdv : f.kw ∣ w0 + f.kw * k := Nat.dvd_add hsw (Nat.dvd_mul_right _ _)
      have hend : w0 + f.kw * k + f.kw ≤ W := by
        obtain ⟨A, hA⟩ := hdv
        obtain ⟨C, hC⟩ := hkW
        have h1 : f.kw * A < f.kw * C := by omega
        have := Nat.mul_le_mul_left f.kw (Nat.lt_of_mul_lt_mul_left h1)
        rw [Nat.succ_eq_add_one, Nat.mul_add] at this; omega
      have e0 : ∀ x, x < W → stripAt (w0 + f.kw * k) f.kw (p.l1_depth * a)
          (fun x => if w0 ≤ x ∧ x < w0 + f.kw * k then p.l1_depth * a + roundUp reg ds else n x) x
          = (fun x => if w0 ≤ x ∧ x < w0 + f.kw * k then p.l1_depth * a + roundUp reg ds else n x) x := by
        intro x hx
        unfold stripAt
        split
        · dsimp only
          rw [if_neg (by omega), hn x (by omega) hx]
        · rfl
      obtain ⟨s', pos, r1, r2⟩ := packRun_ok (mode := mode) (pb := pb) (sw := w0 + f.kw * k) (a := a)
        (ws := min f.kw (ws - f.kw * k)) (ds := ds)
        (ps := s.seekRun p (w0 + f.kw * k) (p.l1_depth * a)) hpb hp hr hW hc hdv hend hel hel2
        (by
          by_cases h : f.kw ≤ ws - f.kw * k
          · left; omega
          · right
            rcases hws with h' | h'
            · exfalso
              obtain ⟨C, hC⟩ := h'
              have h1 : f.kw * k < f.kw * C := by omega
              have := Nat.mul_le_mul_left f.kw (Nat.lt_of_mul_lt_mul_left h1)
              rw [Nat.succ_eq_add_one, Nat.mul_add] at this; omega
            · omega)
        hds hds2 (n := fun x => if w0 ≤ x ∧ x < w0 + f.kw * k then
          p.l1_depth * a + roundUp reg ds else n x)
        ⟨hD1.congr e0, hS1.congr e0, by
          simp only [PackedSide.seekRun, posIn, runLen, Nat.mul_zero, Nat.add_zero]⟩
      have e1 : ∀ x, x < W → (if w0 ≤ x ∧ x < w0 + f.kw * (k + 1) then
          p.l1_depth * a + roundUp reg ds else n x) =
          stripAt (w0 + f.kw * k) f.kw (p.l1_depth * a + roundUp reg ds)
          (fun x => if w0 ≤ x ∧ x < w0 + f.kw * k then p.l1_depth * a + roundUp reg ds else n x) x := by
        intro x hx
        unfold stripAt
        rw [Nat.mul_add, Nat.mul_one]
        by_cases h1 : w0 + f.kw * k ≤ x ∧ x < w0 + f.kw * k + f.kw
        · rw [if_pos h1, if_pos (by omega)]
        · rw [if_neg h1]
          dsimp only
          by_cases h2 : w0 ≤ x ∧ x < w0 + f.kw * k
          · rw [if_pos h2, if_pos (by omega)]
          · rw [if_neg h2, if_neg (by omega)]
      exact ⟨s', r1, r2.data.congr e1, r2.sums.congr e1⟩)
  have hk : f.kw * k = roundUp f.kw ws := by
    simp only [Nat.zero_add] at g2 g3
    apply Nat.le_antisymm
    · rcases g3 with g3 | g3
      · subst g3; omega
      · have h1 : f.kw * (k - 1) < f.kw * R := by omega
        have h2 := Nat.lt_of_mul_lt_mul_left h1
        have h3 := Nat.mul_le_mul_left f.kw (show k ≤ R by omega)
        omega
    · exact roundUp_le_of_dvd hkw (Nat.dvd_mul_right _ _) g2
  rw [Nat.zero_add, hk] at g4 g5
  exact ⟨ps1, g1, g4, g5⟩

theorem roundUp_add_mul {m a b : Nat} (hm : 0 < m) (ha : m ∣ a) :
    a + roundUp m b = roundUp m (a + b) := by
  apply Nat.le_antisymm
  · obtain ⟨C, hC⟩ := roundUp_dvd m (a + b)
    obtain ⟨A, hA⟩ := ha
    have h1 := le_roundUp hm (a + b)
    have h2 : roundUp m b ≤ roundUp m (a + b) - a := by
      apply roundUp_le_of_dvd hm _ (by omega)
      rw [hC, hA]
      exact Nat.dvd_sub (Nat.dvd_mul_right _ _) (Nat.dvd_mul_right _ _)
    omega
  · apply roundUp_le_of_dvd hm
    · exact Nat.dvd_add ha (roundUp_dvd _ _)
    · have := le_roundUp hm b; omega

/-- What a packed side block contains after packing a `width` × `depth` source. -/
structure Packed (p : SideParams) (f : SideFormat) (reg : Nat) (width depth : Nat)
    (V : Nat → Nat → Int) (ps : PackedSide) : Prop where
  dataSize : ps.data.size = p.l2_width * p.l2_depth
  sumsSize : ps.sums.size = p.l2_width
  data : ∀ w d, w < roundUp f.kw width → d < roundUp reg depth →
    ps.data.get (packAddr p f w d) = toByte (V w d)
  sums : ∀ w, w < roundUp f.kw width →
    ps.sums.get w = BitVec.ofInt 32 (sumTo (roundUp reg depth) (V w))

theorem packL2_ok (hpb : PackerMeetsFor pb mode f reg src.order) (hp : p.Ok f reg) (hr : PackRange mode p)
    (hc : SrcIs mem src B) {ps : PackedSide}
    (hw : src.width ≤ p.l2_width) (hd : src.depth ≤ p.l2_depth)
    (hds : ps.data.size = p.l2_width * p.l2_depth) (hss : ps.sums.size = p.l2_width) :
    ∃ ps', packL2 pb mode f reg p mem src ps = .ok ps' ∧
      Packed p f reg src.width src.depth VV ps' := by
  unfold packL2
  have hkw := hp.wf.kw_pos
  have hreg := hp.wf.reg_pos
  have hWle : roundUp f.kw src.width ≤ p.l2_width := roundUp_le_of_dvd hkw hp.l2w_dvd hw
  have hDle : roundUp reg src.depth ≤ p.l2_depth := roundUp_le_of_dvd hreg hp.l2d_dvd hd
  have hWg := le_roundUp hkw src.width
  have hDg := le_roundUp hreg src.depth
  rw [if_neg (by omega)]
  simp only [pure_ok, ok_bind]
  obtain ⟨ps', k, g1, g2, g3, g4, g5⟩ := forLoop_inv (lo := 0) (hi := src.depth)
    (step := p.l1_depth)
    (s := ({ ps with sums := { ps.sums with
      get := fun i => if i < p.l2_width then 0#32 else ps.sums.get i } } : PackedSide))
    (f := fun d ps =>
      let ds := min p.l1_depth (src.depth - d)
      forLoop 0 src.width p.l1_width (fun w ps =>
        let ws := min p.l1_width (src.width - w)
        packL1 pb mode f reg p mem src w ws d ds ps) ps)
    (fun i st =>
      DataDone p f (roundUp f.kw src.width) VV (fun _ => min i (roundUp reg src.depth)) st.data ∧
      SumsDone p (roundUp f.kw src.width) VV (fun _ => min i (roundUp reg src.depth)) st.sums)
    hp.l1d_pos
    ⟨⟨hds, by intro w _; simp, by intro w d _ hd; simp at hd⟩,
     ⟨hss, by
      intro w hw'
      dsimp only
      rw [if_pos (by omega)]; simp⟩⟩
    (by
      intro a s ha ⟨hD, hS⟩
      simp only [Nat.zero_add] at ha hD hS ⊢
      have hda : reg ∣ p.l1_depth * a := Nat.dvd_trans hp.l1d_dvd (Nat.dvd_mul_right _ _)
      have hmin1 : min (p.l1_depth * a) (roundUp reg src.depth) = p.l1_depth * a := by omega
      rw [hmin1] at hD hS
      -- the new depth
      have hnew : p.l1_depth * a + roundUp reg (min p.l1_depth (src.depth - p.l1_depth * a)) =
          min (p.l1_depth * (a + 1)) (roundUp reg src.depth) := by
        rw [Nat.mul_add, Nat.mul_one]
        by_cases h : p.l1_depth ≤ src.depth - p.l1_depth * a
        · rw [Nat.min_eq_left h, roundUp_eq_self hreg hp.l1d_dvd]; omega
        · rw [Nat.min_eq_right (by omega), roundUp_add_mul hreg hda,
            show p.l1_depth * a + (src.depth - p.l1_depth * a) = src.depth by omega]
          have : roundUp reg src.depth ≤ p.l1_depth * a + p.l1_depth :=
            roundUp_le_of_dvd hreg (Nat.dvd_add hda hp.l1d_dvd) (by omega)
          omega
      obtain ⟨s', j, e1, e2, e3, e4, e5⟩ := forLoop_inv (lo := 0) (hi := src.width)
        (step := p.l1_width) (s := s)
        (f := fun w ps =>
          let ws := min p.l1_width (src.width - w)
          packL1 pb mode f reg p mem src w ws (p.l1_depth * a)
            (min p.l1_depth (src.depth - p.l1_depth * a)) ps)
        (fun i st =>
          DataDone p f (roundUp f.kw src.width) VV (fun x => if x < i then
            min (p.l1_depth * (a + 1)) (roundUp reg src.depth) else p.l1_depth * a) st.data ∧
          SumsDone p (roundUp f.kw src.width) VV (fun x => if x < i then
            min (p.l1_depth * (a + 1)) (roundUp reg src.depth) else p.l1_depth * a) st.sums)
        hp.l1w_pos
        ⟨hD.congr (by intro x _; rw [if_neg (by omega)]),
         hS.congr (by intro x _; rw [if_neg (by omega)])⟩
        (by
          intro b s hb ⟨hD1, hS1⟩
          simp only [Nat.zero_add] at hb hD1 hS1 ⊢
          have hdb : f.kw ∣ p.l1_width * b := Nat.dvd_trans hp.l1w_dvd (Nat.dvd_mul_right _ _)
          obtain ⟨s', r1, r2, r3⟩ := packL1_ok (mode := mode) (pb := pb) (W := roundUp f.kw src.width)
            (w0 := p.l1_width * b) (a := a) (ps := s)
            (ws := min p.l1_width (src.width - p.l1_width * b))
            (ds := min p.l1_depth (src.depth - p.l1_depth * a))
            hpb hp hr hWle (roundUp_dvd _ _) hc hdb (by omega) hWg (by omega)
            (by rw [hnew]; omega)
            (by
              by_cases h : p.l1_width ≤ src.width - p.l1_width * b
              · left; rw [Nat.min_eq_left h]; exact hp.l1w_dvd
              · right; omega)
            (by omega)
            (by
              by_cases h : p.l1_depth ≤ src.depth - p.l1_depth * a
              · left; rw [Nat.min_eq_left h]; exact hp.l1d_dvd
              · right; omega)
            (by intro x hx1 _; rw [if_neg (by omega)])
            hD1 hS1
          have hcong : ∀ x, x < roundUp f.kw src.width → (if x < p.l1_width * (b + 1) then
              min (p.l1_depth * (a + 1)) (roundUp reg src.depth) else p.l1_depth * a) =
              if p.l1_width * b ≤ x ∧ x < p.l1_width * b +
                  roundUp f.kw (min p.l1_width (src.width - p.l1_width * b)) then
                p.l1_depth * a + roundUp reg (min p.l1_depth (src.depth - p.l1_depth * a))
              else if x < p.l1_width * b then
                min (p.l1_depth * (a + 1)) (roundUp reg src.depth) else p.l1_depth * a := by
            intro x hx
            rw [hnew, Nat.mul_add p.l1_width, Nat.mul_one]
            by_cases hx0 : x < p.l1_width * b
            · rw [if_pos (by omega), if_neg (by omega), if_pos hx0]
            · by_cases h : p.l1_width ≤ src.width - p.l1_width * b
              · rw [Nat.min_eq_left h, roundUp_eq_self hkw hp.l1w_dvd]
                by_cases hx1 : x < p.l1_width * b + p.l1_width
                · rw [if_pos hx1, if_pos (by omega)]
                · rw [if_neg hx1, if_neg (by omega), if_neg hx0]
              · rw [Nat.min_eq_right (a := p.l1_width) (by omega), roundUp_add_mul hkw hdb,
                  show p.l1_width * b + (src.width - p.l1_width * b) = src.width by omega,
                  if_pos (c := _ ∧ _) (by omega)]
                have : roundUp f.kw src.width ≤ p.l1_width * b + p.l1_width :=
                  roundUp_le_of_dvd hkw (Nat.dvd_add hdb hp.l1w_dvd) (by omega)
                rw [if_pos (by omega)]
          exact ⟨s', r1, r2.congr hcong, r3.congr hcong⟩)
      have hcong : ∀ x, x < roundUp f.kw src.width →
          min (p.l1_depth * (a + 1)) (roundUp reg src.depth) =
          if x < 0 + p.l1_width * j then
            min (p.l1_depth * (a + 1)) (roundUp reg src.depth) else p.l1_depth * a := by
        intro x hx
        have : roundUp f.kw src.width ≤ p.l1_width * j :=
          roundUp_le_of_dvd hkw (Nat.dvd_trans hp.l1w_dvd (Nat.dvd_mul_right _ _)) (by omega)
        rw [if_pos (by omega)]
      exact ⟨s', e1, e4.congr hcong, e5.congr hcong⟩)
  have hfin : min (0 + p.l1_depth * k) (roundUp reg src.depth) = roundUp reg src.depth := by
    have : roundUp reg src.depth ≤ p.l1_depth * k :=
      roundUp_le_of_dvd hreg (Nat.dvd_trans hp.l1d_dvd (Nat.dvd_mul_right _ _)) (by omega)
    omega
  rw [hfin] at g4 g5
  exact ⟨ps', g1, g4.size, g5.size, g4.val, g5.val⟩

end

end Gemmlowp
