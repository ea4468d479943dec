import Verif.X86Proof
/-!
# The x86 kernels meet the kernel contract: loops, stores
-/
namespace Gemmlowp.Asm

/-! ## The loops -/

section
variable {L Q : Nat} {bc : Nat → VReg → VReg} {init body2 body1 : List X86} {m : Mem} {w : Nat}

/-- The accumulator for register block `q` and column `c` after `u` cells. -/
def accAfter (m : Mem) (L Q : Nat) (bc : Nat → VReg → VReg) (lp rp q c : Nat) : Nat → VReg
  | 0 => fun _ => 0#16
  | u + 1 => tileStep m L bc (lp + u * (2 * L * Q)) (rp + u * 8) q c
      (accAfter m L Q bc lp rp q c u)

/-- The state after `u` cells. -/
structure After (m : Mem) (L Q : Nat) (bc : Nat → VReg → VReg) (lp rp u : Nat) (s : St) : Prop where
  lpos : s.lp = lp + u * (2 * L * Q)
  rpos : s.rp = rp + u * 8
  x : ∀ q c, q < Q → c < 4 → s.x (4 + 4 * q + c) = accAfter m L Q bc lp rp q c u
  ok : s.ok = true

/-- `u` cells can be read. -/
def Readable (m : Mem) (L Q lp rp u : Nat) : Prop :=
  lp + u * (2 * L * Q) ≤ m.lhs.size + m.slack ∧ rp + u * 8 + 2 * L ≤ m.rhs.size + m.slack + 8

theorem After.step1 (hp : Parts L Q bc init body2 body1) {lp rp u : Nat} {s : St}
    (h : After m L Q bc lp rp u s) (hr : Readable m L Q lp rp (u + 1)) :
    After m L Q bc lp rp (u + 1) (exec m body1 s) := by
  obtain ⟨r1, r2⟩ := hr
  rw [Nat.add_mul, Nat.one_mul] at r1 r2
  refine ⟨?_, ?_, ?_, ?_⟩
  · rw [(hp.p1 m s).1, h.lpos, Nat.add_mul u 1, Nat.one_mul]; omega
  · rw [(hp.p1 m s).2, h.rpos]; omega
  · intro q c hq hc
    rw [hp.x1 m s q c hq hc, h.x q c hq hc, h.lpos, h.rpos]; rfl
  · rw [exec_ok]
    exact ⟨h.ok, hp.ok1 m _ _ (by rw [h.lpos]; omega) (by rw [h.rpos]; omega)⟩

theorem After.step2 (hp : Parts L Q bc init body2 body1) {lp rp u : Nat} {s : St}
    (h : After m L Q bc lp rp u s) (hr : Readable m L Q lp rp (u + 2)) :
    After m L Q bc lp rp (u + 2) (exec m body2 s) := by
  obtain ⟨r1, r2⟩ := hr
  have e2 : (u + 2) * (2 * L * Q) = u * (2 * L * Q) + 2 * L * Q + 2 * L * Q := by
    rw [Nat.add_mul]; omega
  have e1 : (u + 1) * (2 * L * Q) = u * (2 * L * Q) + 2 * L * Q := by rw [Nat.add_mul]; omega
  rw [e2] at r1
  refine ⟨?_, ?_, ?_, ?_⟩
  · rw [(hp.p2 m s).1, h.lpos, e2]; omega
  · rw [(hp.p2 m s).2, h.rpos]; omega
  · intro q c hq hc
    rw [hp.x2 m s q c hq hc, h.x q c hq hc, h.lpos, h.rpos]
    show _ = tileStep m L bc (lp + (u + 1) * (2 * L * Q)) (rp + (u + 1) * 8) q c
      (tileStep m L bc (lp + u * (2 * L * Q)) (rp + u * 8) q c (accAfter m L Q bc lp rp q c u))
    rw [e1, show lp + (u * (2 * L * Q) + 2 * L * Q) = lp + u * (2 * L * Q) + 2 * L * Q by omega,
      show rp + (u + 1) * 8 = rp + u * 8 + 8 by omega]
  · rw [exec_ok]
    exact ⟨h.ok, hp.ok2 m _ _ (by rw [h.lpos]; omega) (by rw [h.rpos]; omega)⟩

theorem Readable.mono {lp rp u v : Nat} (h : Readable m L Q lp rp v) (huv : u ≤ v) :
    Readable m L Q lp rp u := by
  obtain ⟨h1, h2⟩ := h
  have := Nat.mul_le_mul_right (2 * L * Q) huv
  exact ⟨by omega, by omega⟩

theorem toNat_sub_ofNat {x : BitVec w} {k : Nat} (hk : k < 2 ^ w) :
    (x - BitVec.ofNat w k).toNat = if k ≤ x.toNat then x.toNat - k else 2 ^ w + x.toNat - k := by
  have hl := x.isLt
  rw [BitVec.toNat_sub, BitVec.toNat_ofNat, Nat.mod_eq_of_lt hk]
  split
  · rw [show 2 ^ w - k + x.toNat = (x.toNat - k) + 2 ^ w by omega, Nat.add_mod_right,
      Nat.mod_eq_of_lt (by omega)]
  · rw [Nat.mod_eq_of_lt (by omega)]; omega

theorem sub_two_toNat {x : BitVec w} (hx : 2 ≤ x.toNat) :
    (x - BitVec.ofNat w 2).toNat = x.toNat - 2 := by
  have hl := x.isLt
  rw [toNat_sub_ofNat (by omega), if_pos hx]

/-- The counter after the loop over pairs of cells. -/
theorem loop2_counter : ∀ (N : Nat) (cells : BitVec w) (s : St), cells.toNat = N → 0 < N →
    (loop2 m body2 cells s).2 = BitVec.ofNat w (N % 2) - BitVec.ofNat w (2 * (N % 2)) := by
  intro N
  induction N using Nat.strongRecOn with
  | ind N ih =>
    intro cells s hN h0
    rw [loop2]
    by_cases h : 2 < N
    · rw [dif_pos (by omega)]
      have := ih (N - 2) (by omega) (cells - BitVec.ofNat w 2) (exec m body2 s)
        (by rw [sub_two_toNat (by omega), hN]) (by omega)
      rw [show (N - 2) % 2 = N % 2 by omega] at this
      exact this
    · rw [dif_neg (by omega)]
      have hc : cells = BitVec.ofNat w N := by
        rw [← hN, BitVec.ofNat_toNat, BitVec.setWidth_eq]
      dsimp only
      rw [hc]
      have : N = 1 ∨ N = 2 := by omega
      rcases this with rfl | rfl
      · rfl
      · simp

/-- The loop over pairs of cells takes the number of cells rounded up to a multiple of 2. -/
theorem loop2_ok (hp : Parts L Q bc init body2 body1) {lp rp : Nat} :
    ∀ (N u : Nat) (cells : BitVec w) (s : St), cells.toNat = N → 0 < N →
    After m L Q bc lp rp u s → Readable m L Q lp rp (u + 2 * ((N + 1) / 2)) →
    After m L Q bc lp rp (u + 2 * ((N + 1) / 2)) (loop2 m body2 cells s).1 := by
  intro N
  induction N using Nat.strongRecOn with
  | ind N ih =>
    intro u cells s hN h0 hs hr
    rw [loop2]
    by_cases h : 2 < N
    · rw [dif_pos (by omega)]
      have hA := hs.step2 hp (hr.mono (by omega))
      have e : u + 2 + 2 * ((N - 2 + 1) / 2) = u + 2 * ((N + 1) / 2) := by omega
      have := ih (N - 2) (by omega) (u + 2) (cells - BitVec.ofNat w 2) (exec m body2 s)
        (by rw [sub_two_toNat (by omega), hN]) (by omega) hA (by rw [e]; exact hr)
      rw [e] at this
      exact this
    · rw [dif_neg (by omega)]
      have e : u + 2 * ((N + 1) / 2) = u + 2 := by omega
      rw [e] at hr ⊢
      exact hs.step2 hp hr

/-- The number of cells the main loop takes. -/
def cellsRead (N : Nat) : Nat := if N = 1 then 1 else 2 * ((N + 1) / 2)

theorem msb_of_lt {x : BitVec w} (h : x.toNat < 2 ^ (w - 1)) : x.msb = false := by
  rw [BitVec.msb_eq_decide, decide_eq_false (by omega)]

theorem msb_of_le (x : BitVec w) (h : 2 ^ (w - 1) ≤ x.toNat) : x.msb = true := by
  rw [BitVec.msb_eq_decide, decide_eq_true h]

/-- After the loop over pairs of cells, `js finish` jumps. -/
theorem loop2_msb (hw : 3 ≤ w) {N : Nat} {cells : BitVec w} (hc : cells.toNat = N) (h0 : 0 < N)
    (hN : N < 2 ^ (w - 1)) (s : St) :
    ((loop2 m body2 cells s).2 - BitVec.ofNat w 1).msb = true := by
  have e : 2 ^ w = 2 * 2 ^ (w - 1) := by
    rw [show 2 * 2 ^ (w - 1) = 2 ^ (w - 1 + 1) by rw [Nat.pow_succ]; omega]
    congr 1; omega
  have h8 : 2 ^ 2 ≤ 2 ^ (w - 1) := Nat.pow_le_pow_right (by omega) (by omega)
  rw [loop2_counter N cells s hc h0]
  have hmod : (BitVec.ofNat w (N % 2)).toNat = N % 2 := by
    rw [BitVec.toNat_ofNat]; exact Nat.mod_eq_of_lt (by omega)
  apply msb_of_le
  rw [toNat_sub_ofNat (by omega), toNat_sub_ofNat (by omega), hmod]
  split <;> split <;> omega

theorem mainLoop_ok (hp : Parts L Q bc init body2 body1) (hw : 3 ≤ w) {N lp rp : Nat}
    (h0 : 0 < N) (hN : N < 2 ^ (w - 1)) {s : St} (hs : s.ok = true) (hl : s.lp = lp) (hrp : s.rp = rp)
    (hr : Readable m L Q lp rp (cellsRead N)) :
    After m L Q bc lp rp (cellsRead N) (mainLoop m init body2 body1 (BitVec.ofNat w N) s) := by
  have hA : After m L Q bc lp rp 0 (exec m init s) := by
    refine ⟨?_, ?_, hp.x0 m s, ?_⟩
    · rw [(hp.p0 m s).1, hl]; omega
    · rw [(hp.p0 m s).2, hrp]; omega
    · rw [exec_ok]; exact ⟨hs, hp.ok0 m _ _⟩
  have e : 2 ^ w = 2 * 2 ^ (w - 1) := by
    rw [show 2 * 2 ^ (w - 1) = 2 ^ (w - 1 + 1) by rw [Nat.pow_succ]; omega]
    congr 1; omega
  have h8 : 2 ^ 2 ≤ 2 ^ (w - 1) := Nat.pow_le_pow_right (by omega) (by omega)
  have hNt : (BitVec.ofNat w N).toNat = N := by
    rw [BitVec.toNat_ofNat]; exact Nat.mod_eq_of_lt (by omega)
  unfold mainLoop
  dsimp only
  by_cases h1 : N = 1
  · subst h1
    have hm : (BitVec.ofNat w 1 - BitVec.ofNat w 2).msb = true := by
      apply msb_of_le
      rw [toNat_sub_ofNat (by omega), if_neg (by omega), hNt]; omega
    rw [if_pos hm, loop1, dif_neg (by simp)]
    exact hA.step1 hp hr
  · have hm : (BitVec.ofNat w N - BitVec.ofNat w 2).msb = false := by
      apply msb_of_lt
      rw [sub_two_toNat (by omega), hNt]; omega
    rw [if_neg (by rw [hm]; decide)]
    have hcr : cellsRead N = 2 * ((N + 1) / 2) := if_neg h1
    rw [hcr] at hr ⊢
    have a1 := loop2_ok (w := w) hp N 0 (BitVec.ofNat w N) _ hNt h0 hA
      (by rw [Nat.zero_add]; exact hr)
    rw [Nat.zero_add] at a1
    have hm2 := loop2_msb (w := w) (m := m) (body2 := body2) hw hNt h0 hN (exec m init s)
    rw [if_pos hm2]
    exact a1

/-! ## The accumulators -/

/-- The format of the kernels: left-hand cells of `L` rows, `Q` of them, right-hand cells of 4
columns, two levels of depth, width-major. -/
def x86Format (L Q : Nat) : KernelFormat where
  lhs := { cw := L, cd := 2, order := .widthMajor, cells := Q, scalar := .uint8 }
  rhs := { cw := 4, cd := 2, order := .widthMajor, cells := 1, scalar := .uint8 }

theorem lhsCoeff {b : Buf UInt8} {pos q i u e : Nat} (hi : i < L) (he : e < 2) :
    runCoeff (x86Format L Q).lhs b pos (L * q + i) (2 * u + e) =
      ((b.get (pos + u * (2 * L * Q) + 2 * L * q + (2 * i + e))).toNat : Int) := by
  unfold runCoeff SideFormat.kval x86Format cellOff SideFormat.cellSize
  dsimp only
  have h1 : (2 * u + e) / 2 = u := by omega
  have h2 : (2 * u + e) % 2 = e := by omega
  have h3 : (L * q + i) / L = q := by
    rw [Nat.mul_add_div (by omega), Nat.div_eq_of_lt hi]; rfl
  have h4 : (L * q + i) % L = i := by rw [Nat.mul_add_mod]; exact Nat.mod_eq_of_lt hi
  rw [h1, h2, h3, h4]
  have h5 : (u * Q + q) * (L * 2) = u * (2 * L * Q) + 2 * L * q := by
    rw [Nat.add_mul]
    congr 1 <;> ac_rfl
  rw [h5, show pos + (u * (2 * L * Q) + 2 * L * q) + (e + i * 2) =
    pos + u * (2 * L * Q) + 2 * L * q + (2 * i + e) by omega]

theorem rhsCoeff {b : Buf UInt8} {pos c u e : Nat} (he : e < 2) :
    runCoeff (x86Format L Q).rhs b pos c (2 * u + e) =
      ((b.get (pos + u * 8 + (2 * c + e))).toNat : Int) := by
  unfold runCoeff SideFormat.kval x86Format cellOff SideFormat.cellSize
  dsimp only
  rw [show (2 * u + e) / 2 = u by omega, show (2 * u + e) % 2 = e by omega,
    show pos + (u * 1 + c / 4) * (4 * 2) + (e + c % 4 * 2) = pos + u * 8 + (2 * c + e) by omega]

theorem accAfter_lane (hb : Broadcasts L bc) {lp rp q c i : Nat} (hc : c < 4) (hi : i < L) (u : Nat) :
    (accAfter m L Q bc lp rp q c u).lane i = BitVec.ofInt 32 (sumTo (2 * u) (fun d =>
      runCoeff (x86Format L Q).lhs m.lhs lp (L * q + i) d *
        runCoeff (x86Format L Q).rhs m.rhs rp c d)) := by
  induction u with
  | zero =>
    show 0#16 ++ 0#16 = BitVec.ofInt 32 0
    decide
  | succ u ih =>
    show (tileStep m L bc _ _ q c _).lane i = _
    rw [tileStep_lane hb hc hi, ih, ← BitVec.ofInt_add]
    congr 1
    rw [show 2 * (u + 1) = 2 * u + 1 + 1 by omega, sumTo_succ, sumTo_succ, Int.add_assoc]
    congr 1
    have a0 := lhsCoeff (Q := Q) (b := m.lhs) (pos := lp) (q := q) (u := u) (e := 0) hi (by omega)
    have a1 := lhsCoeff (Q := Q) (b := m.lhs) (pos := lp) (q := q) (u := u) (e := 1) hi (by omega)
    have b0 := rhsCoeff (L := L) (Q := Q) (b := m.rhs) (pos := rp) (c := c) (u := u) (e := 0) (by omega)
    have b1 := rhsCoeff (L := L) (Q := Q) (b := m.rhs) (pos := rp) (c := c) (u := u) (e := 1) (by omega)
    rw [Nat.add_zero] at a0 b0
    rw [a0, a1, b0, b1]
    rfl

end

/-! ## The contract -/

/-- The three kernels, in one definition. -/
def x86Kernel (w L align : Nat) (init body2 body1 : List X86) (tiles : List Tile) (x0 : Nat → VReg)
    (slack : Nat) : KernelRun :=
  fun dst dp rs cs lhs lp rhs rp startDepth runDepth => do
    assertM (decide (rs = 1))
    let s := mainLoop { lhs, rhs, slack } init body2 body1
      (BitVec.ofNat w (runDepth / 2)) { x := x0, lp, rp, ok := true }
    if s.ok then finish L align tiles dst dp cs startDepth (fun r => (s.x r).lane) else .error .oob

/-- The kernels need the packed data to be padded with zeros, and a depth that fits an `int`. -/
def x86Needs : KernelNeeds := { pair := fun _ _ => True, pad := True, int := True }

/-- The register blocks of the kernels: `4 + 4q + c` holds rows `Lq …` of column `c`. -/
structure TilesAre (L Q : Nat) (tiles : List Tile) : Prop where
  nodup : (tiles.map Tile.reg).Nodup
  all : ∀ q c, q < Q → c < 4 → ⟨4 + 4 * q + c, L * q, c⟩ ∈ tiles
  only : ∀ t ∈ tiles, ∃ q c, q < Q ∧ c < 4 ∧ t = ⟨4 + 4 * q + c, L * q, c⟩

theorem TilesAre.covers {L Q : Nat} {tiles : List Tile} (hL : 0 < L) (h : TilesAre L Q tiles) :
    Covers L (L * Q) 4 tiles where
  nodup := h.nodup
  inside := by
    intro t ht
    obtain ⟨q, c, hq, hc, rfl⟩ := h.only t ht
    refine ⟨?_, hc, Nat.dvd_mul_right _ _⟩
    have := Nat.mul_le_mul_left L (Nat.succ_le_of_lt hq)
    rw [Nat.succ_eq_add_one, Nat.mul_add] at this
    dsimp only; omega
  find := by
    intro r c hr hc
    have hq : r / L < Q := by rw [Nat.div_lt_iff_lt_mul hL, Nat.mul_comm]; exact hr
    exact ⟨_, h.all (r / L) c hq hc, by dsimp only; rw [Nat.mul_comm], rfl⟩
  unique := by
    intro t ht t' ht' hr hc
    obtain ⟨q, c, -, -, rfl⟩ := h.only t ht
    obtain ⟨q', c', -, -, rfl⟩ := h.only t' ht'
    dsimp only at hr hc ⊢
    have := Nat.eq_of_mul_eq_mul_left hL hr
    omega

/-- What a run does, whatever follows the packed data: the product over the levels that are read,
which are an even number of cells unless there is only one. -/
theorem x86Kernel_exact {w L Q align slack : Nat} {bc : Nat → VReg → VReg}
    {init body2 body1 : List X86} {tiles : List Tile} (hp : Parts L Q bc init body2 body1)
    (ht : TilesAre L Q tiles) (hL : 4 ≤ L) (hw : 32 ≤ w) (hal : align ∣ L) (x0 : Nat → VReg)
    {dst : Buf (BitVec 32)} {dp cs : Nat} {lhs : Buf UInt8} {lp : Nat} {rhs : Buf UInt8}
    {rp sd N : Nat} (hdp : L * Q ∣ dp) (hcs : L * Q ∣ cs) (hN0 : 0 < N) (hNi : 2 * N ≤ 2147483647)
    (hread : Readable { lhs, rhs, slack } L Q lp rp (cellsRead N))
    (hsz : ∀ r c, r < L * Q → c < 4 → dp + (r * 1 + c * cs) < dst.size)
    (hinj : ∀ r c r' c', r < L * Q → c < 4 → r' < L * Q → c' < 4 →
      r * 1 + c * cs = r' * 1 + c' * cs → r = r' ∧ c = c') :
    ∃ dst', x86Kernel w L align init body2 body1 tiles x0 slack dst dp 1 cs lhs lp rhs rp sd (2 * N) =
        .ok dst' ∧ dst'.size = dst.size ∧
      (∀ r c, r < L * Q → c < 4 → dst'.get (dp + (r * 1 + c * cs)) =
        BitVec.ofInt 32 (kernelExact (x86Format L Q) dst lhs lp rhs rp sd (2 * cellsRead N)
          (dp + (r * 1 + c * cs)) r c)) ∧
      (∀ j, (∀ r c, r < L * Q → c < 4 → j ≠ dp + (r * 1 + c * cs)) → dst'.get j = dst.get j) := by
  have hpow : 2 ^ 31 ≤ 2 ^ (w - 1) := Nat.pow_le_pow_right (by omega) (by omega)
  have hA := mainLoop_ok (m := { lhs, rhs, slack }) (w := w) hp (by omega) hN0 (by omega)
    (s := { x := x0, lp, rp, ok := true }) rfl rfl rfl hread
  have hdiv : 2 * N / 2 = N := by omega
  unfold x86Kernel
  rw [decide_eq_true rfl, assertM_true, ok_bind, hdiv]
  dsimp only
  generalize mainLoop { lhs, rhs, slack } init body2 body1 (BitVec.ofNat w N)
    { x := x0, lp, rp, ok := true } = s at hA
  rw [if_pos hA.ok]
  obtain ⟨dst', f1, f2, f3, f4⟩ := finish_ok (n := L) (align := align) (dp := dp) (cs := cs) (sd := sd)
    (tiles := tiles) (dst := dst) (x := fun r => (s.x r).lane) (by omega) (ht.covers (by omega))
    (by
      intro t htm
      obtain ⟨q, c, -, -, rfl⟩ := ht.only t htm
      apply Nat.mod_eq_zero_of_dvd
      have h1 : L ∣ dp := Nat.dvd_trans (Nat.dvd_mul_right _ _) hdp
      have h2 : L ∣ cs := Nat.dvd_trans (Nat.dvd_mul_right _ _) hcs
      exact Nat.dvd_trans hal (Nat.dvd_add (Nat.dvd_add h1 (Nat.dvd_mul_right _ _))
        (Nat.dvd_trans h2 (Nat.dvd_mul_left _ _)))) hsz hinj
  refine ⟨dst', f1, f2, ?_, f4⟩
  intro r c hr' hc
  have hq : r / L < Q := by rw [Nat.div_lt_iff_lt_mul (by omega), Nat.mul_comm]; exact hr'
  have hi : r % L < L := Nat.mod_lt _ (by omega)
  have hri : L * (r / L) + r % L = r := Nat.div_add_mod r L
  have := f3 _ (ht.all (r / L) c hq hc) (r % L) hi
  dsimp only at this
  rw [hri] at this
  rw [this, hA.x _ _ hq hc, accAfter_lane hp.bcast hc hi, hri]
  unfold kernelExact
  by_cases h0 : sd = 0
  · rw [if_pos h0, if_pos h0, BitVec.add_zero, Int.zero_add]
  · rw [if_neg h0, if_neg h0, Int.add_comm, BitVec.ofInt_add, BitVec.ofInt_toInt]

theorem cellsRead_le {reg N : Nat} (hreg : 4 ∣ reg) (hreg0 : 0 < reg) :
    2 * cellsRead N ≤ roundUp reg (2 * N) := by
  unfold cellsRead
  split
  · have := le_roundUp hreg0 (2 * N); omega
  · have h4 : roundUp 4 (2 * N) ≤ roundUp reg (2 * N) :=
      roundUp_le_of_dvd (by omega) (Nat.dvd_trans hreg (roundUp_dvd _ _)) (le_roundUp hreg0 _)
    have h5 : 2 * N ≤ roundUp 4 (2 * N) := le_roundUp (by omega) _
    obtain ⟨v, hv⟩ := roundUp_dvd 4 (2 * N)
    omega

theorem x86Kernel_ok {w L Q align reg slack : Nat} {bc : Nat → VReg → VReg}
    {init body2 body1 : List X86} {tiles : List Tile} (hp : Parts L Q bc init body2 body1)
    (ht : TilesAre L Q tiles) (hL : 4 ≤ L) (hw : 32 ≤ w) (hal : align ∣ L) (hreg : 4 ∣ reg)
    (hreg0 : 0 < reg) (hslack : 2 * L ≤ 8 + slack) (x0 : Nat → VReg) :
    KernelOk .wrap (x86Format L Q) reg x86Needs
      (x86Kernel w L align init body2 body1 tiles x0 slack) := by
  intro dst dp rs cs lhs lp rhs rp sd rd hrs hdp hcs hrd0 hrd hint hl hr hsz hinj _
  subst hrs
  obtain ⟨N, hN⟩ : 2 ∣ rd := hrd
  subst hN
  have hkr : (x86Format L Q).kRows = L * Q := rfl
  have hkc : (x86Format L Q).kCols = 4 := rfl
  have hM := cellsRead_le (N := N) hreg hreg0
  obtain ⟨dst', f1, f2, f3, f4⟩ := x86Kernel_exact hp ht hL hw hal x0 (slack := slack) (sd := sd)
    (lhs := lhs) (rhs := rhs) (lp := lp) (rp := rp) hdp hcs (N := N)
    (by omega) (hint trivial) (by
      refine ⟨?_, ?_⟩
      · have := Nat.mul_le_mul_left (L * Q) hM
        have e : cellsRead N * (2 * L * Q) = L * Q * (2 * cellsRead N) := by ac_rfl
        rw [hkr] at hl
        dsimp only
        omega
      · rw [hkc] at hr
        dsimp only
        omega) hsz hinj
  refine ⟨dst', f1, f2, ?_, f4⟩
  intro r c hr' hc hmet
  rw [f3 r c hr' hc]
  unfold kernelExact
  congr 2
  apply sumTo_zero_tail
  · unfold cellsRead; split <;> omega
  · intro d h1 h2
    exact hmet.pad trivial d h1 (by omega)

/-! ## Reading beyond the data -/

section
variable {m : Mem} {w : Nat} {body2 : List X86} {n : Nat}

/-- If the loop over pairs of cells does not fault then what its last round reads could be read. -/
theorem loop2_reads (hneed : ∀ lp rp, okOf m body2 lp rp → rp + n ≤ m.rhs.size + m.slack)
    (hrp : ∀ s, (exec m body2 s).rp = s.rp + 8 + 8) :
    ∀ (N : Nat) (cells : BitVec w) (s : St), cells.toNat = N → 0 < N →
    (loop2 m body2 cells s).1.ok = true →
    s.rp + 16 * ((N - 1) / 2) + n ≤ m.rhs.size + m.slack := by
  intro N
  induction N using Nat.strongRecOn with
  | ind N ih =>
    intro cells s hN h0 hok
    rw [loop2] at hok
    by_cases h : 2 < N
    · rw [dif_pos (by omega)] at hok
      have := ih (N - 2) (by omega) _ _ (by rw [sub_two_toNat (by omega), hN]) (by omega) hok
      rw [hrp] at this
      omega
    · rw [dif_neg (by omega)] at hok
      have := hneed _ _ ((exec_ok m body2 s).1 hok).2
      omega

end

theorem sse32Kernel_ok (x0 : Nat → VReg) (slack : Nat) :
    KernelOk .wrap sse32Format 16 x86Needs (sse32Kernel x0 slack) :=
  x86Kernel_ok (w := 32) (align := 4) sse32_parts
    ⟨by decide, by
      intro q c hq hc
      interval_cases q
      interval_cases c <;> decide, by
      intro t ht
      simp only [sse32Tiles, List.mem_cons, List.not_mem_nil, or_false] at ht
      rcases ht with rfl | rfl | rfl | rfl <;>
        first
        | exact ⟨0, 0, by decide, by decide, rfl⟩ | exact ⟨0, 1, by decide, by decide, rfl⟩
        | exact ⟨0, 2, by decide, by decide, rfl⟩ | exact ⟨0, 3, by decide, by decide, rfl⟩⟩
    (by omega) (by omega) (by decide) (by decide) (by omega) (by omega) x0

theorem sse64Tiles_are : TilesAre 4 3 sse64Tiles :=
  ⟨by decide, by
    intro q c hq hc
    interval_cases q <;> interval_cases c <;> decide, by
    intro t ht
    have h : ∀ t ∈ sse64Tiles, t.row / 4 < 3 ∧ t.col < 4 ∧
        t = ⟨4 + 4 * (t.row / 4) + t.col, 4 * (t.row / 4), t.col⟩ := by decide
    obtain ⟨h1, h2, h3⟩ := h t ht
    exact ⟨_, _, h1, h2, h3⟩⟩

theorem sse64Kernel_ok (x0 : Nat → VReg) (slack : Nat) :
    KernelOk .wrap sse64Format 16 x86Needs (sse64Kernel x0 slack) :=
  x86Kernel_ok (w := 64) (align := 4) sse64_parts sse64Tiles_are
    (by omega) (by omega) (by decide) (by decide) (by omega) (by omega) x0

theorem avx2Tiles_are : TilesAre 8 3 avx2Tiles :=
  ⟨by decide, by
    intro q c hq hc
    interval_cases q <;> interval_cases c <;> decide, by
    intro t ht
    have h : ∀ t ∈ avx2Tiles, t.row / 8 < 3 ∧ t.col < 4 ∧
        t = ⟨4 + 4 * (t.row / 8) + t.col, 8 * (t.row / 8), t.col⟩ := by decide
    obtain ⟨h1, h2, h3⟩ := h t ht
    exact ⟨_, _, h1, h2, h3⟩⟩

/-- The AVX2 kernel, if 8 bytes after the packed data can be read. -/
theorem avx2Kernel_ok (x0 : Nat → VReg) {slack : Nat} (hs : 8 ≤ slack) :
    KernelOk .wrap avx2Format 32 x86Needs (avx2Kernel x0 slack) :=
  x86Kernel_ok (w := 64) (align := 1) avx2_parts avx2Tiles_are
    (by omega) (by omega) (by decide) (by decide) (by omega) (by omega) x0

/-- The AVX2 kernel reads 8 bytes more than the right-hand cells it uses. -/
theorem avx2Kernel_overread (x0 : Nat → VReg) {slack : Nat} {dst : Buf (BitVec 32)} {dp cs : Nat}
    {lhs : Buf UInt8} {lp : Nat} {rhs : Buf UInt8} {rp sd N : Nat} (hN : 2 ≤ N)
    (hNi : N < 2 ^ 63) (hs : rhs.size + slack < rp + 16 * ((N + 1) / 2) + 8) :
    avx2Kernel x0 slack dst dp 1 cs lhs lp rhs rp sd (2 * N) = .error .oob := by
  unfold avx2Kernel
  rw [decide_eq_true rfl, assertM_true, ok_bind, show 2 * N / 2 = N by omega]
  dsimp only
  rw [if_neg]
  intro hok
  have hNt : (BitVec.ofNat 64 N).toNat = N := by
    rw [BitVec.toNat_ofNat]; exact Nat.mod_eq_of_lt (by omega)
  unfold mainLoop at hok
  have hm : (BitVec.ofNat 64 N - BitVec.ofNat 64 2).msb = false := by
    apply msb_of_lt
    rw [sub_two_toNat (by omega), hNt]; omega
  dsimp only at hok
  rw [if_neg (by rw [hm]; decide)] at hok
  rw [if_pos (loop2_msb (by omega) hNt (by omega) (by omega) _)] at hok
  have := loop2_reads (m := { lhs, rhs, slack }) (n := 24) (by
    intro a b h
    simp only [okOf, avx2Loop2, and_true] at h
    exact h.2.2.2.2.2.2.1) (fun s => rfl) N _ _ hNt (by omega) hok
  have hrp : (exec { lhs, rhs, slack } avx2Init { x := x0, lp, rp, ok := true }).rp = rp := rfl
  rw [hrp] at this
  dsimp only at this
  omega

end Gemmlowp.Asm
