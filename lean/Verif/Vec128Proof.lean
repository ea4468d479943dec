import Verif.Vec128
import Verif.X86Proof2
/-!
# Kernels for machines with 128-bit vector registers meet the kernel contract: the common part
-/
namespace Gemmlowp.Vec

open Asm (Tile Covers toNat_sub_ofNat finish_ok)

/-! ## Registers -/

theorem append_bytes (x : BitVec 32) :
    ((x.extractLsb' 24 8 ++ x.extractLsb' 16 8 : BitVec 16) ++
      (x.extractLsb' 8 8 ++ x.extractLsb' 0 8 : BitVec 16) : BitVec 32) = x := by
  apply BitVec.eq_of_getElem_eq
  intro j hj
  rw [BitVec.getElem_append]
  split
  · rw [BitVec.getElem_append]
    split
    · simp only [BitVec.getElem_extractLsb']
      rw [Nat.zero_add, BitVec.getLsbD_eq_getElem hj]
    · simp only [BitVec.getElem_extractLsb']
      rw [show 8 + (j - 8) = j by omega, BitVec.getLsbD_eq_getElem hj]
  · rw [BitVec.getElem_append]
    split
    · simp only [BitVec.getElem_extractLsb']
      rw [show 16 + (j - 16) = j by omega, BitVec.getLsbD_eq_getElem hj]
    · simp only [BitVec.getElem_extractLsb']
      rw [show 24 + (j - 16 - 8) = j by omega, BitVec.getLsbD_eq_getElem hj]

theorem append_bytes16 (x : BitVec 16) :
    (x.extractLsb' 8 8 ++ x.extractLsb' 0 8 : BitVec 16) = x := by
  apply BitVec.eq_of_getElem_eq
  intro j hj
  rw [BitVec.getElem_append]
  split
  · simp only [BitVec.getElem_extractLsb']
    rw [Nat.zero_add, BitVec.getLsbD_eq_getElem hj]
  · simp only [BitVec.getElem_extractLsb']
    rw [show 8 + (j - 8) = j by omega, BitVec.getLsbD_eq_getElem hj]

@[simp] theorem s_ofS (f : Nat → BitVec 32) (i : Nat) : (ofS f).s i = f i := by
  unfold VReg.s VReg.h ofS ofLanes
  rw [show (2 * (2 * i + 1) + 1) / 4 = i by omega, show (2 * (2 * i + 1)) / 4 = i by omega,
    show (2 * (2 * i) + 1) / 4 = i by omega, show 2 * (2 * i) / 4 = i by omega,
    show (2 * (2 * i + 1) + 1) % 4 = 3 by omega, show (2 * (2 * i + 1)) % 4 = 2 by omega,
    show (2 * (2 * i) + 1) % 4 = 1 by omega, show 2 * (2 * i) % 4 = 0 by omega]
  exact append_bytes (f i)

@[simp] theorem h_ofH (f : Nat → BitVec 16) (i : Nat) : (ofH f).h i = f i := by
  unfold VReg.h ofH ofLanes
  rw [show (2 * i + 1) / 2 = i by omega, show 2 * i / 2 = i by omega,
    show (2 * i + 1) % 2 = 1 by omega, show 2 * i % 2 = 0 by omega]
  exact append_bytes16 (f i)

/-! ## Straight-line parts -/

/-- The reads of a straight-line part are within the buffers. -/
def okOf (m : Mem) : List Ins → Nat → Nat → Prop
  | [], _, _ => True
  | .load .lhs off n adv _ _ :: l, lp, rp => lp + off + n ≤ m.lhs.size ∧ okOf m l (lp + adv) rp
  | .load .rhs off n adv _ _ :: l, lp, rp => rp + off + n ≤ m.rhs.size ∧ okOf m l lp (rp + adv)
  | .addPtr .lhs n :: l, lp, rp => okOf m l (lp + n) rp
  | .addPtr .rhs n :: l, lp, rp => okOf m l lp (rp + n)
  | .op _ _ :: l, lp, rp => okOf m l lp rp
  | .ops _ :: l, lp, rp => okOf m l lp rp
  | .bad :: _, _, _ => False

theorem exec_bad (m : Mem) : ∀ (l : List Ins) (s : St), s.ok = false → (exec m l s).ok = false := by
  intro l
  induction l with
  | nil => intro s h; exact h
  | cons i l ih =>
    intro s h
    have e : exec m (i :: l) s = exec m l (step m i s) := rfl
    rw [e]
    apply ih
    match i with
    | .load .lhs .. => simp [step, h]
    | .load .rhs .. => simp [step, h]
    | .addPtr .lhs n => exact h
    | .addPtr .rhs n => exact h
    | .op _ _ => exact h
    | .ops _ => exact h
    | .bad => rfl

theorem exec_ok (m : Mem) : ∀ (l : List Ins) (s : St),
    (exec m l s).ok = true ↔ s.ok = true ∧ okOf m l s.lp s.rp := by
  intro l
  induction l with
  | nil => intro s; simp [exec, okOf]
  | cons i l ih =>
    intro s
    have e : exec m (i :: l) s = exec m l (step m i s) := rfl
    rw [e, ih]
    match i with
    | .load .lhs off n adv d put => simp [step, okOf, St.setX, and_assoc]
    | .load .rhs off n adv d put => simp [step, okOf, St.setX, and_assoc]
    | .addPtr .lhs n => rfl
    | .addPtr .rhs n => rfl
    | .op _ _ => rfl
    | .ops _ => rfl
    | .bad => simp [step, okOf]

/-! ## The loop -/

theorem pipe_ok {w : Nat} {m : Mem} {k : Nat} {body last : List Ins} {Inv : Nat → St → Prop}
    (hk : 0 < k) : ∀ (n : Nat) (u : Nat) (depth : BitVec w) (s : St),
    depth.toNat = k * n → Inv u s →
    (∀ v s, v < u + n → Inv v s → Inv (v + 1) (exec m body s)) →
    ∃ s', Inv (u + n) s' ∧ pipe m k body last depth s = exec m last s' := by
  intro n
  induction n with
  | zero =>
    intro u depth s hd h _
    exact ⟨s, h, by rw [pipe, if_pos (by omega)]⟩
  | succ n ih =>
    intro u depth s hd h hs
    have hlt := depth.isLt
    have hm : k * (n + 1) = k * n + k := by rw [Nat.mul_add, Nat.mul_one]
    obtain ⟨s', h1, h2⟩ := ih (u + 1) (depth - BitVec.ofNat w k) (exec m body s)
      (by rw [toNat_sub_ofNat (by omega), if_pos (by omega)]; omega)
      (hs u s (by omega) h) (fun v s hv => hs v s (by omega))
    refine ⟨s', ?_, ?_⟩
    · rw [show u + (n + 1) = u + 1 + n by omega]; exact h1
    · rw [pipe, if_neg (by omega), dif_pos ⟨hk, by omega⟩]; exact h2

/-- The loops as they are entered: after the first subtraction from the counter. -/
theorem pipe_run {w : Nat} {m : Mem} {k : Nat} {body last : List Ins} {Inv : Nat → St → Prop}
    (hk : 0 < k) {n : Nat} (hn : k * (n + 1) < 2 ^ w) {s : St} (h0 : Inv 0 s)
    (hs : ∀ v s, v < n → Inv v s → Inv (v + 1) (exec m body s)) :
    ∃ s', Inv n s' ∧
      pipe m k body last (BitVec.ofNat w (k * (n + 1)) - BitVec.ofNat w k) s = exec m last s' := by
  have hm : k * (n + 1) = k * n + k := by rw [Nat.mul_add, Nat.mul_one]
  have h := pipe_ok (w := w) (m := m) (body := body) (last := last) (Inv := Inv) hk n 0
    (BitVec.ofNat w (k * (n + 1)) - BitVec.ofNat w k) s (by
      rw [toNat_sub_ofNat (by omega), BitVec.toNat_ofNat, Nat.mod_eq_of_lt hn, if_pos (by omega)]
      omega) h0 (fun v s hv => hs v s (by omega))
  rwa [Nat.zero_add] at h

/-! ## Coefficients -/

theorem runCoeff_at {f : SideFormat} {b : Buf UInt8} {pos q i u e : Nat} (hi : i < f.cw)
    (he : e < f.cd) : runCoeff f b pos (f.cw * q + i) (f.cd * u + e) =
      f.kval (b.get (pos + (u * f.cells + q) * f.cellSize + cellOff f i e)) := by
  unfold runCoeff
  rw [Nat.mul_add_div (by omega), Nat.div_eq_of_lt he, Nat.mul_add_div (by omega),
    Nat.div_eq_of_lt hi, Nat.mul_add_mod, Nat.mul_add_mod, Nat.mod_eq_of_lt hi, Nat.mod_eq_of_lt he]
  rfl

/-! ## Destination -/

theorem loadTiles_ok {dp cs : Nat} {dst : Buf (BitVec 32)} :
    ∀ (tiles : List Tile) (x : Nat → VReg), (tiles.map Tile.reg).Nodup →
    (∀ t ∈ tiles, dp + t.row + t.col * cs + 4 ≤ dst.size) →
    ∃ x', loadTiles tiles dst dp cs x = .ok x' ∧
      (∀ t ∈ tiles, ∀ i, (x' t.reg).s i = dst.get (dp + t.row + t.col * cs + i)) ∧
      (∀ r, r ∉ tiles.map Tile.reg → x' r = x r) := by
  intro tiles
  induction tiles with
  | nil => intro x _ _; exact ⟨x, rfl, by simp, fun _ _ => rfl⟩
  | cons t ts ih =>
    intro x hnd hok
    rw [List.map_cons, List.nodup_cons] at hnd
    obtain ⟨x', h1, h2, h3⟩ := ih (fun r => if r = t.reg then
      ofS (fun i => dst.get (dp + t.row + t.col * cs + i)) else x r) hnd.2
      (fun t' ht' => hok t' (List.mem_cons_of_mem _ ht'))
    refine ⟨x', ?_, ?_, ?_⟩
    · unfold loadTiles at h1 ⊢
      rw [List.foldlM_cons]
      unfold loadTile
      dsimp only
      rw [if_pos (hok t (List.mem_cons_self ..)), ok_bind]
      exact h1
    · intro t' ht' i
      rcases List.mem_cons.1 ht' with rfl | h
      · rw [h3 _ hnd.1, if_pos rfl, s_ofS]
      · exact h2 t' h i
    · intro r hr
      rw [List.map_cons, List.mem_cons, not_or] at hr
      rw [h3 r hr.2, if_neg hr.1]

/-- The blocks are in the registers `reg row col`. -/
structure TilesIn (R C : Nat) (reg : Nat → Nat → Nat) (tiles : List Tile) : Prop where
  covers : Covers 4 R C tiles
  reg : ∀ t ∈ tiles, t.reg = reg t.row t.col

/-- What `main` has to do for `kernelConvFirst` to be right: add the product to what the accumulators
hold, which `obs` tells. -/
def MainSums (F : KernelFormat) (pair : Int → Int → Prop) (obs : St → Nat → Nat → BitVec 32)
    (reg : Nat → Nat → Nat) (main : Mem → Nat → St → St) : Prop :=
  ∀ (m : Mem) (N : Nat) (s : St), F.kDepth * (N + 1) ≤ 2147483647 → s.ok = true →
    s.lp + F.kRows * (F.kDepth * (N + 1)) ≤ m.lhs.size →
    s.rp + F.kCols * (F.kDepth * (N + 1)) ≤ m.rhs.size →
    (main m (F.kDepth * (N + 1)) s).ok = true ∧
    ∀ q c i, 4 * q < F.kRows → c < F.kCols → i < 4 → (∀ d, d < F.kDepth * (N + 1) →
        pair (runCoeff F.lhs m.lhs s.lp (4 * q + i) d) (runCoeff F.rhs m.rhs s.rp c d)) →
      ((main m (F.kDepth * (N + 1)) s).x (reg (4 * q) c)).s i = obs s (4 * q + i) c +
        BitVec.ofInt 32 (sumTo (F.kDepth * (N + 1)) (fun d =>
          runCoeff F.lhs m.lhs s.lp (4 * q + i) d * runCoeff F.rhs m.rhs s.rp c d))

theorem kernelConvFirst_ok {F : KernelFormat} {N : KernelNeeds} {regL regS : Nat → Nat → Nat}
    {obs : St → Nat → Nat → BitVec 32} {reg : Nat}
    {main : Mem → Nat → St → St} {loads stores : List Tile} {clear conv : List Ins}
    (hreg0 : 0 < reg) (hkr : 4 ∣ F.kRows) (hint' : N.int)
    (hl : TilesIn F.kRows F.kCols regL loads) (hs : TilesIn F.kRows F.kCols regS stores)
    (hclear : ∀ m s, (exec m clear s).lp = s.lp ∧ (exec m clear s).rp = s.rp ∧
      (exec m clear s).ok = s.ok)
    (hzero : ∀ m s q c i, 4 * q < F.kRows → c < F.kCols → i < 4 →
      obs (exec m clear s) (4 * q + i) c = 0#32)
    (hconv : ∀ m s, (exec m conv s).lp = s.lp ∧ (exec m conv s).rp = s.rp ∧
      (exec m conv s).ok = s.ok)
    (hobs : ∀ m s q c i, 4 * q < F.kRows → c < F.kCols → i < 4 →
      obs (exec m conv s) (4 * q + i) c = (s.x (regL (4 * q) c)).s i)
    (hmain : MainSums F N.pair obs regS main) (x0 : Nat → VReg) :
    KernelOk .wrap F reg N (kernelConvFirst loads stores clear conv main x0) := by
  intro dst dp rs cs lhs lp rhs rp sd rd hrs hdp hcs hrd0 hrd hint hlb hrb hsz hinj _
  subst hrs
  obtain ⟨M', rfl⟩ : ∃ M', rd = F.kDepth * (M' + 1) := by
    obtain ⟨n, rfl⟩ := hrd
    have : n ≠ 0 := by rintro rfl; rw [Nat.mul_zero] at hrd0; omega
    exact ⟨n - 1, by rw [show n - 1 + 1 = n by omega]⟩
  have hru := le_roundUp hreg0 (F.kDepth * (M' + 1))
  have hl1 := Nat.mul_le_mul_left F.kRows hru
  have hr1 := Nat.mul_le_mul_left F.kCols hru
  -- the accumulators at the start
  obtain ⟨s, e1, e2, e3, e4, e5⟩ : ∃ s : St,
      ((if sd = 0 then .ok (exec { lhs, rhs } clear { x := x0, lp, rp, ok := true })
        else loadTiles loads dst dp cs x0 >>= fun x =>
          .ok (exec { lhs, rhs } conv { x, lp, rp, ok := true }) : M St)) =
          .ok s ∧ s.lp = lp ∧ s.rp = rp ∧ s.ok = true ∧
      ∀ q c i, 4 * q < F.kRows → c < F.kCols → i < 4 → obs s (4 * q + i) c =
        if sd = 0 then 0#32 else dst.get (dp + ((4 * q + i) * 1 + c * cs)) := by
    by_cases h0 : sd = 0
    · obtain ⟨c1, c2, c3⟩ := hclear { lhs, rhs } { x := x0, lp, rp, ok := true }
      refine ⟨_, by rw [if_pos h0], c1, c2, c3, ?_⟩
      intro q c i hq hc hi
      rw [if_pos h0]
      exact hzero _ _ q c i hq hc hi
    · obtain ⟨x', h1, h2, -⟩ := loadTiles_ok (dp := dp) (cs := cs) (dst := dst) loads x0
        hl.covers.nodup (by
          intro t ht
          obtain ⟨i1, i2, -⟩ := hl.covers.inside t ht
          have := hsz (t.row + 3) t.col (by omega) i2
          omega)
      obtain ⟨c1, c2, c3⟩ := hconv { lhs, rhs } { x := x', lp, rp, ok := true }
      refine ⟨exec { lhs, rhs } conv { x := x', lp, rp, ok := true },
        by rw [if_neg h0, h1]; rfl, c1, c2, c3, ?_⟩
      intro q c i hq hc hi
      rw [if_neg h0, hobs _ _ q c i hq hc hi]
      obtain ⟨t, ht, t1, t2⟩ := hl.covers.find (4 * q) c hq hc
      rw [show 4 * q / 4 * 4 = 4 * q by omega] at t1
      have := h2 t ht i
      rw [hl.reg t ht, t1, t2] at this
      dsimp only
      rw [this]
      congr 1; omega
  obtain ⟨k1, k2⟩ := hmain { lhs, rhs } M' s (hint hint') e4 (by rw [e2]; dsimp only; omega)
    (by rw [e3]; dsimp only; omega)
  unfold kernelConvFirst
  rw [decide_eq_true rfl, assertM_true, ok_bind, e1, ok_bind]
  dsimp only
  rw [e2, e3] at k2
  generalize main { lhs, rhs } (F.kDepth * (M' + 1)) s = s' at k1 k2
  rw [if_pos k1]
  obtain ⟨dst', f1, f2, f3, f4⟩ := finish_ok (n := 4) (align := 1) (dp := dp) (cs := cs) (sd := 0)
    (tiles := stores) (dst := dst) (x := fun r => (s'.x r).s) (by omega) hs.covers
    (fun t _ => Nat.mod_one _) hsz hinj
  refine ⟨dst', f1, f2, ?_, f4⟩
  intro r c hr hc hmet
  have hq : 4 * (r / 4) < F.kRows := by omega
  obtain ⟨t, ht, t1, t2⟩ := hs.covers.find r c hr hc
  have := f3 t ht (r % 4) (Nat.mod_lt _ (by omega))
  rw [hs.reg t ht, t1, t2, show r / 4 * 4 = 4 * (r / 4) by omega,
    show 4 * (r / 4) + r % 4 = r by omega] at this
  have hk := k2 (r / 4) c (r % 4) hq hc (Nat.mod_lt _ (by omega))
  have h5 := e5 (r / 4) c (r % 4) hq hc (Nat.mod_lt _ (by omega))
  rw [show 4 * (r / 4) + r % 4 = r by omega] at hk h5
  rw [this, hk (fun d hd => hmet.pair d hd), h5, if_pos rfl, BitVec.add_zero]
  unfold kernelExact
  by_cases h0 : sd = 0
  · rw [if_pos h0, if_pos h0, BitVec.zero_add, Int.zero_add]
  · rw [if_neg h0, if_neg h0, BitVec.ofInt_add, BitVec.ofInt_toInt]

/-- What `main` has to do for `kernelLoadFirst` to be right. -/
def MainAdds (F : KernelFormat) (reg : Nat → Nat → Nat) (main : Mem → Nat → St → St) : Prop :=
  MainSums F (fun _ _ => True) (fun s r c => (s.x (reg (4 * (r / 4)) c)).s (r % 4)) reg main

/-- Kernels that count in a C++ `int` and have no other needs. -/
def intNeeds : KernelNeeds := { pair := fun _ _ => True, pad := False, int := True }

theorem kernelLoadFirst_ok {F : KernelFormat} {regOf : Nat → Nat → Nat} {reg : Nat}
    {main : Mem → Nat → St → St} {loads stores : List Tile} {clear : List Ins}
    (hreg0 : 0 < reg) (hkr : 4 ∣ F.kRows)
    (hl : TilesIn F.kRows F.kCols regOf loads) (hs : TilesIn F.kRows F.kCols regOf stores)
    (hclear : ∀ m s, (exec m clear s).lp = s.lp ∧ (exec m clear s).rp = s.rp ∧
      (exec m clear s).ok = s.ok)
    (hzero : ∀ m s q c i, 4 * q < F.kRows → c < F.kCols → i < 4 →
      ((exec m clear s).x (regOf (4 * q) c)).s i = 0#32)
    (hmain : MainAdds F regOf main) (x0 : Nat → VReg) :
    KernelOk .wrap F reg intNeeds (kernelLoadFirst loads stores clear main x0) :=
  kernelConvFirst_ok (N := intNeeds) hreg0 hkr trivial hl hs hclear
    (by
      intro m s q c i hq hc hi
      rw [show 4 * ((4 * q + i) / 4) = 4 * q by omega, show (4 * q + i) % 4 = i by omega]
      exact hzero m s q c i hq hc hi)
    (fun _ _ => ⟨rfl, rfl, rfl⟩)
    (by
      intro m s q c i hq hc hi
      show (s.x (regOf (4 * ((4 * q + i) / 4)) c)).s ((4 * q + i) % 4) = _
      rw [show 4 * ((4 * q + i) / 4) = 4 * q by omega, show (4 * q + i) % 4 = i by omega])
    hmain x0

/-! ## Kernels that multiply into their accumulators directly -/

theorem runCoeff_shift {f : SideFormat} (hcd : 0 < f.cd) (b : Buf UInt8) (pos w u e : Nat) (he : e < f.cd) :
    runCoeff f b (pos + u * (f.cells * f.cellSize)) w e = runCoeff f b pos w (f.cd * u + e) := by
  unfold runCoeff
  rw [Nat.mul_add_div hcd, Nat.div_eq_of_lt he, Nat.mul_add_mod, Nat.mod_eq_of_lt he, Nat.zero_mul,
    Nat.add_zero, Nat.zero_add, Nat.add_mul, Nat.mul_assoc u]
  congr 2
  omega

/-- Bytes of a group of cells of one depth. -/
def _root_.Gemmlowp.SideFormat.group (f : SideFormat) : Nat := f.cells * f.cellSize

/-- What one group of cells contributes. -/
def cellSum (F : KernelFormat) (m : Mem) (lp rp r c : Nat) : Int :=
  sumTo F.kDepth (fun e => runCoeff F.lhs m.lhs lp r e * runCoeff F.rhs m.rhs rp c e)

theorem sumTo_groups {F : KernelFormat} (hl : F.lhs.cd = F.kDepth) (hr : F.rhs.cd = F.kDepth)
    (hkd : 0 < F.kDepth) (m : Mem) (lp rp r c u : Nat) :
    sumTo (F.kDepth * (u + 1)) (fun d => runCoeff F.lhs m.lhs lp r d * runCoeff F.rhs m.rhs rp c d) =
    sumTo (F.kDepth * u) (fun d => runCoeff F.lhs m.lhs lp r d * runCoeff F.rhs m.rhs rp c d) +
      cellSum F m (lp + u * SideFormat.group F.lhs) (rp + u * SideFormat.group F.rhs) r c := by
  rw [Nat.mul_add, Nat.mul_one, sumTo_split]
  congr 1
  unfold cellSum
  apply sumTo_congr
  intro e he
  unfold SideFormat.group
  rw [runCoeff_shift (by omega) m.lhs lp r u e (by omega),
    runCoeff_shift (by omega) m.rhs rp c u e (by omega), hl, hr]

/-- What the parts of a kernel do.  `ready m lp rp s` says what the kernel has loaded, or where its
pointers are, when it is about to multiply the cells at `lp` and `rp`; `start`, `obs` and `fin` say
where the accumulator of an entry is to be found before, during and after the loop. -/
structure Cells (F : KernelFormat) (pair : Int → Int → Prop) (pre loop last : List Ins)
    (ready : Mem → Nat → Nat → St → Prop) (start obs : St → Nat → Nat → BitVec 32)
    (fin : Mem → St → Nat → Nat → BitVec 32) : Prop where
  pre : ∀ m s, s.ok = true → s.lp + F.lhs.group ≤ m.lhs.size → s.rp + F.rhs.group ≤ m.rhs.size →
    ready m s.lp s.rp (exec m pre s) ∧ (exec m pre s).ok = true ∧
    ∀ r c, r < F.kRows → c < F.kCols → obs (exec m pre s) r c = start s r c
  loop : ∀ m lp rp s, ready m lp rp s → s.ok = true →
    lp + 2 * F.lhs.group ≤ m.lhs.size → rp + 2 * F.rhs.group ≤ m.rhs.size →
    ready m (lp + F.lhs.group) (rp + F.rhs.group) (exec m loop s) ∧ (exec m loop s).ok = true ∧
    ∀ r c, r < F.kRows → c < F.kCols →
      (∀ e, e < F.kDepth → pair (runCoeff F.lhs m.lhs lp r e) (runCoeff F.rhs m.rhs rp c e)) →
      obs (exec m loop s) r c = obs s r c + BitVec.ofInt 32 (cellSum F m lp rp r c)
  last : ∀ m lp rp s, ready m lp rp s → s.ok = true →
    lp + F.lhs.group ≤ m.lhs.size → rp + F.rhs.group ≤ m.rhs.size →
    (exec m last s).ok = true ∧
    ∀ r c, r < F.kRows → c < F.kCols →
      (∀ e, e < F.kDepth → pair (runCoeff F.lhs m.lhs lp r e) (runCoeff F.rhs m.rhs rp c e)) →
      fin m (exec m last s) r c = obs s r c + BitVec.ofInt 32 (cellSum F m lp rp r c)

theorem Cells.main {F : KernelFormat} {pair : Int → Int → Prop} {pre loop last : List Ins}
    {ready : Mem → Nat → Nat → St → Prop} {start obs : St → Nat → Nat → BitVec 32}
    {fin : Mem → St → Nat → Nat → BitVec 32} (h : Cells F pair pre loop last ready start obs fin)
    {w : Nat} (hw : 32 ≤ w) (hl : F.lhs.cd = F.kDepth) (hr : F.rhs.cd = F.kDepth)
    (hkd : 0 < F.kDepth) (m : Mem) (N : Nat) (s : St) (hint : F.kDepth * (N + 1) ≤ 2147483647)
    (hok : s.ok = true) (hlb : s.lp + F.kRows * (F.kDepth * (N + 1)) ≤ m.lhs.size)
    (hrb : s.rp + F.kCols * (F.kDepth * (N + 1)) ≤ m.rhs.size) :
    (pipe m F.kDepth loop last (BitVec.ofNat w (F.kDepth * (N + 1)) - BitVec.ofNat w F.kDepth)
      (exec m pre s)).ok = true ∧
    ∀ r c, r < F.kRows → c < F.kCols → (∀ d, d < F.kDepth * (N + 1) →
        pair (runCoeff F.lhs m.lhs s.lp r d) (runCoeff F.rhs m.rhs s.rp c d)) →
      fin m (pipe m F.kDepth loop last
        (BitVec.ofNat w (F.kDepth * (N + 1)) - BitVec.ofNat w F.kDepth) (exec m pre s)) r c =
      start s r c + BitVec.ofInt 32 (sumTo (F.kDepth * (N + 1)) (fun d =>
          runCoeff F.lhs m.lhs s.lp r d * runCoeff F.rhs m.rhs s.rp c d)) := by
  have hpow : 2 ^ 32 ≤ 2 ^ w := Nat.pow_le_pow_right (by omega) hw
  have gl : F.kRows * (F.kDepth * (N + 1)) = (N + 1) * F.lhs.group := by
    unfold SideFormat.group KernelFormat.kRows SideFormat.cellSize SideFormat.kw
    rw [hl]; ac_rfl
  have gr : F.kCols * (F.kDepth * (N + 1)) = (N + 1) * F.rhs.group := by
    unfold SideFormat.group KernelFormat.kCols SideFormat.cellSize SideFormat.kw
    rw [hr]; ac_rfl
  rw [gl] at hlb
  rw [gr] at hrb
  have hneed : ∀ r c v, v < N + 1 → (∀ d, d < F.kDepth * (N + 1) →
        pair (runCoeff F.lhs m.lhs s.lp r d) (runCoeff F.rhs m.rhs s.rp c d)) →
      ∀ e, e < F.kDepth → pair (runCoeff F.lhs m.lhs (s.lp + v * F.lhs.group) r e)
        (runCoeff F.rhs m.rhs (s.rp + v * F.rhs.group) c e) := by
    intro r c v hv hp e he
    unfold SideFormat.group
    rw [runCoeff_shift (by omega) m.lhs s.lp r v e (by omega),
      runCoeff_shift (by omega) m.rhs s.rp c v e (by omega), hl, hr]
    apply hp
    have := Nat.mul_le_mul_left F.kDepth (Nat.succ_le_of_lt hv)
    rw [Nat.succ_eq_add_one, Nat.mul_add, Nat.mul_one] at this
    omega
  generalize hGL : F.lhs.group = GL at *
  generalize hGR : F.rhs.group = GR at *
  have hrange : ∀ v k, v + k ≤ N + 1 → s.lp + v * GL + k * GL ≤ m.lhs.size ∧
      s.rp + v * GR + k * GR ≤ m.rhs.size := by
    intro v k hv
    have a := Nat.mul_le_mul_right GL hv
    have b := Nat.mul_le_mul_right GR hv
    rw [Nat.add_mul] at a b
    omega
  obtain ⟨p1, p2, p3⟩ := h.pre m s hok (by have := hrange 0 1 (by omega); omega)
    (by have := hrange 0 1 (by omega); omega)
  obtain ⟨s', ⟨i1, i2, i3⟩, i4⟩ := pipe_run (w := w) (m := m) (body := loop) (last := last)
    (Inv := fun u s' => ready m (s.lp + u * GL) (s.rp + u * GR) s' ∧ s'.ok = true ∧
      ∀ r c, r < F.kRows → c < F.kCols → (∀ d, d < F.kDepth * (N + 1) →
          pair (runCoeff F.lhs m.lhs s.lp r d) (runCoeff F.rhs m.rhs s.rp c d)) →
        obs s' r c = start s r c + BitVec.ofInt 32 (sumTo (F.kDepth * u) (fun d =>
          runCoeff F.lhs m.lhs s.lp r d * runCoeff F.rhs m.rhs s.rp c d)))
    hkd (n := N) (by omega) (s := exec m pre s)
    ⟨by rw [Nat.zero_mul, Nat.zero_mul]; exact p1, p2, by
      intro r c hr hc _
      rw [p3 r c hr hc, Nat.mul_zero]
      show _ = _ + 0#32
      rw [BitVec.add_zero]⟩
    (by
      intro v s' hv ⟨j1, j2, j3⟩
      obtain ⟨l1, l2, l3⟩ := h.loop m _ _ s' j1 j2
        (by rw [hGL]; exact (hrange v 2 (by omega)).1) (by rw [hGR]; exact (hrange v 2 (by omega)).2)
      rw [hGL, hGR] at l1
      refine ⟨?_, l2, ?_⟩
      · rw [Nat.add_mul, Nat.add_mul, Nat.one_mul, Nat.one_mul, ← Nat.add_assoc, ← Nat.add_assoc]
        exact l1
      · intro r c hr' hc hp
        rw [l3 r c hr' hc (hneed r c v (by omega) hp), j3 r c hr' hc hp, sumTo_groups hl hr hkd, hGL,
          hGR, BitVec.ofInt_add, BitVec.add_assoc])
  rw [i4]
  obtain ⟨l1, l2⟩ := h.last m _ _ s' i1 i2 (by
      have := (hrange N 1 (by omega)).1; rw [hGL]; omega) (by
      have := (hrange N 1 (by omega)).2; rw [hGR]; omega)
  refine ⟨l1, ?_⟩
  intro r c hr' hc hp
  rw [l2 r c hr' hc (hneed r c N (by omega) hp), i3 r c hr' hc hp, sumTo_groups hl hr hkd, hGL, hGR,
    BitVec.ofInt_add, BitVec.add_assoc]

/-- The same for kernels whose accumulators have the entries of four rows in their lanes. -/
structure Direct (F : KernelFormat) (reg : Nat → Nat → Nat) (pre loop last : List Ins)
    (ready : Mem → Nat → Nat → St → Prop) : Prop where
  pre : ∀ m s, s.ok = true → s.lp + F.lhs.group ≤ m.lhs.size → s.rp + F.rhs.group ≤ m.rhs.size →
    ready m s.lp s.rp (exec m pre s) ∧ (exec m pre s).ok = true ∧
    ∀ q c, 4 * q < F.kRows → c < F.kCols → (exec m pre s).x (reg (4 * q) c) = s.x (reg (4 * q) c)
  loop : ∀ m lp rp s, ready m lp rp s → s.ok = true →
    lp + 2 * F.lhs.group ≤ m.lhs.size → rp + 2 * F.rhs.group ≤ m.rhs.size →
    ready m (lp + F.lhs.group) (rp + F.rhs.group) (exec m loop s) ∧ (exec m loop s).ok = true ∧
    ∀ q c i, 4 * q < F.kRows → c < F.kCols → i < 4 → ((exec m loop s).x (reg (4 * q) c)).s i =
      (s.x (reg (4 * q) c)).s i + BitVec.ofInt 32 (cellSum F m lp rp (4 * q + i) c)
  last : ∀ m lp rp s, ready m lp rp s → s.ok = true →
    lp + F.lhs.group ≤ m.lhs.size → rp + F.rhs.group ≤ m.rhs.size →
    (exec m last s).ok = true ∧
    ∀ q c i, 4 * q < F.kRows → c < F.kCols → i < 4 → ((exec m last s).x (reg (4 * q) c)).s i =
      (s.x (reg (4 * q) c)).s i + BitVec.ofInt 32 (cellSum F m lp rp (4 * q + i) c)

theorem Direct.cells {F : KernelFormat} {reg : Nat → Nat → Nat} {pre loop last : List Ins}
    {ready : Mem → Nat → Nat → St → Prop} (h : Direct F reg pre loop last ready) :
    Cells F (fun _ _ => True) pre loop last ready
      (fun s r c => (s.x (reg (4 * (r / 4)) c)).s (r % 4))
      (fun s r c => (s.x (reg (4 * (r / 4)) c)).s (r % 4))
      (fun _ s r c => (s.x (reg (4 * (r / 4)) c)).s (r % 4)) where
  pre := by
    intro m s hok hl hr
    obtain ⟨h1, h2, h3⟩ := h.pre m s hok hl hr
    refine ⟨h1, h2, ?_⟩
    intro r c hr hc
    rw [h3 (r / 4) c (by omega) hc]
  loop := by
    intro m lp rp s hs hok hl hr
    obtain ⟨h1, h2, h3⟩ := h.loop m lp rp s hs hok hl hr
    refine ⟨h1, h2, ?_⟩
    intro r c hr hc _
    rw [h3 (r / 4) c (r % 4) (by omega) hc (by omega), show 4 * (r / 4) + r % 4 = r by omega]
  last := by
    intro m lp rp s hs hok hl hr
    obtain ⟨h1, h2⟩ := h.last m lp rp s hs hok hl hr
    refine ⟨h1, ?_⟩
    intro r c hr hc _
    rw [h2 (r / 4) c (r % 4) (by omega) hc (by omega), show 4 * (r / 4) + r % 4 = r by omega]

theorem Direct.mainAdds {F : KernelFormat} {reg : Nat → Nat → Nat} {pre loop last : List Ins}
    {ready : Mem → Nat → Nat → St → Prop} (h : Direct F reg pre loop last ready) {w : Nat}
    (hw : 32 ≤ w) (hl : F.lhs.cd = F.kDepth) (hr : F.rhs.cd = F.kDepth) (hkd : 0 < F.kDepth)
    (hkr : 4 ∣ F.kRows) :
    MainAdds F reg (fun m rd s =>
      pipe m F.kDepth loop last (BitVec.ofNat w rd - BitVec.ofNat w F.kDepth) (exec m pre s)) := by
  intro m N s hint hok hlb hrb
  obtain ⟨h1, h2⟩ := h.cells.main hw hl hr hkd m N s hint hok hlb hrb
  refine ⟨h1, ?_⟩
  intro q c i hq hc hi _
  have := h2 (4 * q + i) c (by omega) hc (fun _ _ => trivial)
  dsimp only
  rw [show (4 * q + i) / 4 = q by omega, show (4 * q + i) % 4 = i by omega] at this ⊢
  exact this

/-! ## Kernels that add the destination's values at the end -/

/-- Kernels for operands that are not both −128, which count in a C++ `int`. -/
def lnzNeeds : KernelNeeds := { pair := fun x y => ¬ (x = -128 ∧ y = -128), pad := False, int := True }

/-- What the code before the stores has to do: `reg c` holds the product for column `c`. -/
def EndSums (F : KernelFormat) (pair : Int → Int → Prop) (reg : Nat → Nat)
    (run : Mem → Nat → St → St) : Prop :=
  ∀ (m : Mem) (N : Nat) (s : St), F.kDepth * (N + 1) ≤ 2147483647 → s.ok = true →
    s.lp + F.kRows * (F.kDepth * (N + 1)) ≤ m.lhs.size →
    s.rp + F.kCols * (F.kDepth * (N + 1)) ≤ m.rhs.size →
    (run m (F.kDepth * (N + 1)) s).ok = true ∧
    ∀ r c, r < F.kRows → c < F.kCols → (∀ d, d < F.kDepth * (N + 1) →
        pair (runCoeff F.lhs m.lhs s.lp r d) (runCoeff F.rhs m.rhs s.rp c d)) →
      ((run m (F.kDepth * (N + 1)) s).x (reg c)).s r =
        BitVec.ofInt 32 (sumTo (F.kDepth * (N + 1)) (fun d =>
          runCoeff F.lhs m.lhs s.lp r d * runCoeff F.rhs m.rhs s.rp c d))

/-- Blocks of four rows, column `c` in register `reg c`. -/
def ColTiles (C : Nat) (reg : Nat → Nat) (tiles : List Tile) : Prop :=
  TilesIn 4 C (fun _ c => reg c) tiles

theorem kernelAddLast_ok {F : KernelFormat} {N : KernelNeeds} {reg : Nat} {reg0 reg1 : Nat → Nat}
    {main : Mem → Nat → St → St} {stores adds : List Tile} {end0 end1 : List Ins}
    (hreg0 : 0 < reg) (hkr : F.kRows = 4) (hint' : N.int)
    (hs : ColTiles F.kCols reg0 stores) (ha : ColTiles F.kCols reg1 adds)
    (h0 : EndSums F N.pair reg0 (fun m rd s => exec m end0 (main m rd s)))
    (h1 : EndSums F N.pair reg1 (fun m rd s => exec m end1 (main m rd s))) (x0 : Nat → VReg) :
    KernelOk .wrap F reg N (kernelAddLast stores adds end0 end1 main x0) := by
  intro dst dp rs cs lhs lp rhs rp sd rd hrs hdp hcs hrd0 hrd hint hlb hrb hsz hinj _
  subst hrs
  obtain ⟨M, rfl⟩ : ∃ M, rd = F.kDepth * (M + 1) := by
    obtain ⟨n, rfl⟩ := hrd
    have : n ≠ 0 := by rintro rfl; rw [Nat.mul_zero] at hrd0; omega
    exact ⟨n - 1, by rw [show n - 1 + 1 = n by omega]⟩
  have hru := le_roundUp hreg0 (F.kDepth * (M + 1))
  have hl1 := Nat.mul_le_mul_left F.kRows hru
  have hr1 := Nat.mul_le_mul_left F.kCols hru
  obtain ⟨s, regc, tiles, e1, e2, e3, e4, e5, e6⟩ : ∃ (s : St) (regc : Nat → Nat) (tiles : List Tile),
      exec { lhs, rhs } (if sd = 0 then end0 else end1) (main { lhs, rhs } (F.kDepth * (M + 1))
        { x := x0, lp, rp, ok := true }) = s ∧ (if sd = 0 then stores else adds) = tiles ∧
      ColTiles F.kCols regc tiles ∧ s.ok = true ∧ True ∧
      ∀ r c, r < F.kRows → c < F.kCols → (∀ d, d < F.kDepth * (M + 1) →
          N.pair (runCoeff F.lhs lhs lp r d) (runCoeff F.rhs rhs rp c d)) →
        (s.x (regc c)).s r = BitVec.ofInt 32 (sumTo (F.kDepth * (M + 1)) (fun d =>
          runCoeff F.lhs lhs lp r d * runCoeff F.rhs rhs rp c d)) := by
    by_cases hz : sd = 0
    · obtain ⟨k1, k2⟩ := h0 { lhs, rhs } M { x := x0, lp, rp, ok := true } (hint hint') rfl
        (by dsimp only; omega) (by dsimp only; omega)
      exact ⟨_, reg0, stores, by rw [if_pos hz], by rw [if_pos hz], hs, k1, trivial, k2⟩
    · obtain ⟨k1, k2⟩ := h1 { lhs, rhs } M { x := x0, lp, rp, ok := true } (hint hint') rfl
        (by dsimp only; omega) (by dsimp only; omega)
      exact ⟨_, reg1, adds, by rw [if_neg hz], by rw [if_neg hz], ha, k1, trivial, k2⟩
  unfold kernelAddLast
  dsimp only
  rw [e1, e2, if_pos e4]
  have hcov : Covers 4 F.kRows F.kCols tiles := by rw [hkr]; exact e3.covers
  obtain ⟨dst', f1, f2, f3, f4⟩ := finish_ok (n := 4) (align := 1) (dp := dp) (cs := cs) (sd := sd)
    (tiles := tiles) (dst := dst) (x := fun r => (s.x r).s) (by omega) hcov
    (fun t _ => Nat.mod_one _) hsz hinj
  refine ⟨dst', f1, f2, ?_, f4⟩
  intro r c hr hc hmet
  obtain ⟨t, ht, t1, t2⟩ := hcov.find r c hr hc
  have := f3 t ht (r % 4) (Nat.mod_lt _ (by omega))
  have hreg := e3.reg t ht
  rw [hreg, t1, t2, show r / 4 * 4 + r % 4 = r by omega, show r % 4 = r by omega] at this
  rw [this, e6 r c hr hc (fun d hd => hmet.pair d hd)]
  unfold kernelExact
  by_cases hz : sd = 0
  · rw [if_pos hz, if_pos hz, BitVec.add_zero, Int.zero_add]
  · rw [if_neg hz, if_neg hz, Int.add_comm, BitVec.ofInt_add, BitVec.ofInt_toInt]

end Gemmlowp.Vec
