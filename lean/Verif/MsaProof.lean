import Verif.Msa
import Verif.Neon32Proof
/-!
# The MSA kernels meet the kernel contract
-/
namespace Gemmlowp.Vec

open Asm (Tile Covers)

/-! ## Lanes of other widths -/

theorem h_of_s (v : VReg) (i : Nat) :
    v.h (2 * i + 1) = (v.s i).extractLsb' 16 16 ∧ v.h (2 * i) = (v.s i).extractLsb' 0 16 := by
  unfold VReg.s
  exact ⟨BitVec.extractLsb'_append_eq_left.symm, BitVec.extractLsb'_append_eq_right.symm⟩

/-- A word spread over a register, seen in halves. -/
theorem splat_h (b : VReg) (k i : Nat) :
    (ofS fun _ => b.s k).h (2 * i + 1) = b.h (2 * k + 1) ∧
    (ofS fun _ => b.s k).h (2 * i) = b.h (2 * k) := by
  rw [(h_of_s _ i).1, (h_of_s _ i).2, (h_of_s b k).1, (h_of_s b k).2, s_ofS]
  exact ⟨rfl, rfl⟩

theorem s_ofD (f : Nat → BitVec 64) (i : Nat) : (ofD f).s (2 * i) = (f i).setWidth 32 := by
  have e : ∀ (x : BitVec 64) (k : Nat), k + 8 ≤ 32 →
      x.extractLsb' k 8 = (x.setWidth 32).extractLsb' k 8 := by
    intro x k hk
    apply BitVec.eq_of_getElem_eq
    intro j hj
    rw [BitVec.getElem_extractLsb', BitVec.getElem_extractLsb', BitVec.getLsbD_setWidth,
      decide_eq_true (by omega), Bool.true_and]
  unfold VReg.s VReg.h ofD ofLanes
  rw [show (2 * (2 * (2 * i) + 1) + 1) / 8 = i by omega, show (2 * (2 * (2 * i) + 1)) / 8 = i by omega,
    show (2 * (2 * (2 * i)) + 1) / 8 = i by omega, show 2 * (2 * (2 * i)) / 8 = i by omega,
    show (2 * (2 * (2 * i) + 1) + 1) % 8 = 3 by omega, show (2 * (2 * (2 * i) + 1)) % 8 = 2 by omega,
    show (2 * (2 * (2 * i)) + 1) % 8 = 1 by omega, show 2 * (2 * (2 * i)) % 8 = 0 by omega]
  rw [← append_bytes ((f i).setWidth 32)]
  rw [← e _ _ (by omega), ← e _ _ (by omega), ← e _ _ (by omega), ← e _ _ (by omega)]

theorem setWidth_ofInt (z : Int) : (BitVec.ofInt 64 z).setWidth 32 = BitVec.ofInt 32 z := by
  apply BitVec.eq_of_toNat_eq
  rw [BitVec.toNat_setWidth, BitVec.toNat_ofInt, BitVec.toNat_ofInt]
  omega

theorem signExtend_add_low (a b : BitVec 32) :
    (a.signExtend 64 + b.signExtend 64).setWidth 32 = a + b := by
  unfold BitVec.signExtend
  rw [← BitVec.ofInt_add, setWidth_ofInt, BitVec.ofInt_add, BitVec.ofInt_toInt, BitVec.ofInt_toInt]

/-! ## `MSA_Kernel12x8Depth2` -/

/-- The register of the block with first row `row` in column `col`. -/
def regMsa (row col : Nat) : Nat := (if col < 4 then col else 8 + col) + row

/-- The bytes of the low half, with zeros between. -/
def zipR (v : VReg) : VReg := fun j => if j % 2 = 0 then v (j / 2) else 0#8

/-- The bytes of the high half, with zeros between. -/
def zipL (v : VReg) : VReg := fun j => if j % 2 = 0 then v (8 + j / 2) else 0#8

/-- What the kernel does to an accumulator. -/
def tileMsa (a b : VReg) (k : Nat) (acc : VReg) : VReg :=
  ofS fun i => acc.s i +
    ((a.h (2 * i + 1)).setWidth 32 * ((ofS fun _ => b.s k).h (2 * i + 1)).setWidth 32 +
     (a.h (2 * i)).setWidth 32 * ((ofS fun _ => b.s k).h (2 * i)).setWidth 32)

/-- The left-hand cell `q`, widened. -/
def msaA (m : Mem) (s : St) (q : Nat) : VReg :=
  if q = 0 then zipR (bytes m.lhs (s.lp + 0)) else if q = 1 then zipR (bytes m.lhs (s.lp + 8))
  else zipL (bytes m.lhs (s.lp + 8))

/-- The right-hand cell `p`, widened. -/
def msaB (m : Mem) (s : St) (p : Nat) : VReg :=
  if p = 0 then zipR (bytes m.rhs (s.rp + 0)) else zipL (bytes m.rhs (s.rp + 0))

theorem msaLoop_x (m : Mem) (s : St) (q c : Nat) (hq : q < 3) (hc : c < 8) :
    (exec m msaLoop s).x (regMsa (4 * q) c) =
      tileMsa (msaA m s q) (msaB m s (c / 4)) (c % 4) (s.x (regMsa (4 * q) c)) := by
  interval_cases q <;> interval_cases c <;> rfl

theorem zip_h (f : Nat → BitVec 8) (v : VReg) (hv : v = fun j => if j % 2 = 0 then f (j / 2) else 0#8)
    (j : Nat) : v.h j = (f j).setWidth 16 := by
  subst hv
  unfold VReg.h
  dsimp only
  rw [if_neg (by omega), if_pos (by omega), show 2 * j / 2 = j by omega]
  apply BitVec.eq_of_toNat_eq
  rw [BitVec.toNat_append, BitVec.toNat_setWidth]
  have := (f j).isLt
  show 0 <<< 8 ||| (f j).toNat = _
  rw [Nat.zero_shiftLeft, Nat.zero_or, Nat.mod_eq_of_lt (by omega)]

/-- Only the pointers matter at the start of a round. -/
structure ReadyMsa (m : Mem) (lp rp : Nat) (s : St) : Prop where
  lpos : s.lp = lp
  rpos : s.rp = rp

theorem ReadyMsa.a {m : Mem} {lp rp : Nat} {s : St} (h : ReadyMsa m lp rp s) {q j : Nat} (hq : q < 3) :
    (msaA m s q).h j = ((m.lhs.get (lp + 8 * q + j)).toBitVec).setWidth 16 := by
  unfold msaA
  rw [h.lpos]
  interval_cases q
  · exact zip_h (fun j => (m.lhs.get (lp + 0 + j)).toBitVec) _ rfl j
  · exact zip_h (fun j => (m.lhs.get (lp + 8 + j)).toBitVec) _ rfl j
  · have := zip_h (fun j => (m.lhs.get (lp + 8 + (8 + j))).toBitVec) (zipL (bytes m.lhs (lp + 8))) rfl j
    rw [show lp + 8 + (8 + j) = lp + 8 * 2 + j by omega] at this
    exact this

theorem ReadyMsa.b {m : Mem} {lp rp : Nat} {s : St} (h : ReadyMsa m lp rp s) {p j : Nat} (hp : p < 2) :
    (msaB m s p).h j = ((m.rhs.get (rp + 8 * p + j)).toBitVec).setWidth 16 := by
  unfold msaB
  rw [h.rpos]
  interval_cases p
  · exact zip_h (fun j => (m.rhs.get (rp + 0 + j)).toBitVec) _ rfl j
  · have := zip_h (fun j => (m.rhs.get (rp + 0 + (8 + j))).toBitVec) (zipL (bytes m.rhs (rp + 0))) rfl j
    rw [show rp + 0 + (8 + j) = rp + 8 * 1 + j by omega] at this
    exact this

theorem tileMsa_lane {m : Mem} {lp rp : Nat} {s : St} (h : ReadyMsa m lp rp s) {q c i : Nat}
    (hq : q < 3) (hc : c < 8) (hi : i < 4) (acc : VReg) :
    (tileMsa (msaA m s q) (msaB m s (c / 4)) (c % 4) acc).s i =
      acc.s i + BitVec.ofInt 32 (cellSum msaFormat m lp rp (4 * q + i) c) := by
  have ha : ∀ e, e < 2 → runCoeff msaFormat.lhs m.lhs lp (4 * q + i) e =
      ((m.lhs.get (lp + 8 * q + (2 * i + e))).toNat : Int) := by
    intro e he
    have := runCoeff_at (f := msaFormat.lhs) (b := m.lhs) (pos := lp) (q := q) (i := i) (u := 0)
      (e := e) hi he
    rw [Nat.mul_zero, Nat.zero_add] at this
    refine this.trans ?_
    show ((m.lhs.get (lp + (0 * 3 + q) * 8 + (e + i * 2))).toNat : Int) = _
    rw [show lp + (0 * 3 + q) * 8 + (e + i * 2) = lp + 8 * q + (2 * i + e) by omega]
  have hb : ∀ e, e < 2 → runCoeff msaFormat.rhs m.rhs rp c e =
      ((m.rhs.get (rp + 8 * (c / 4) + (2 * (c % 4) + e))).toNat : Int) := by
    intro e he
    have := runCoeff_at (f := msaFormat.rhs) (b := m.rhs) (pos := rp) (q := c / 4) (i := c % 4)
      (u := 0) (e := e) (Nat.mod_lt _ (by decide)) he
    rw [Nat.mul_zero, Nat.zero_add, show msaFormat.rhs.cw * (c / 4) + c % 4 = c from
      Nat.div_add_mod c 4] at this
    refine this.trans ?_
    show ((m.rhs.get (rp + (0 * 2 + c / 4) * 8 + (e + c % 4 * 2))).toNat : Int) = _
    rw [show rp + (0 * 2 + c / 4) * 8 + (e + c % 4 * 2) = rp + 8 * (c / 4) + (2 * (c % 4) + e) by omega]
  have h0 := ha 0 (by omega)
  have g0 := hb 0 (by omega)
  rw [Nat.add_zero] at h0 g0
  unfold tileMsa
  rw [s_ofS, (splat_h _ _ _).1, (splat_h _ _ _).2, h.a hq, h.a hq, h.b (by omega), h.b (by omega),
    mul_bytes16, mul_bytes16, ← BitVec.ofInt_add, ← h0, ← ha 1 (by omega), ← g0, ← hb 1 (by omega)]
  congr 2
  show _ = sumTo (1 + 1) _
  rw [sumTo_succ, sumTo_succ]
  show _ = (0 : Int) + _ + _
  rw [Int.zero_add, Int.add_comm]

theorem msa_direct : Direct msaFormat regMsa [] msaLoop msaLoop ReadyMsa := by
  have hstep : ∀ m lp rp s, ReadyMsa m lp rp s → s.ok = true → lp + 24 ≤ m.lhs.size →
      rp + 16 ≤ m.rhs.size → (exec m msaLoop s).ok = true ∧
      ∀ q c i, 4 * q < 12 → c < 8 → i < 4 → ((exec m msaLoop s).x (regMsa (4 * q) c)).s i =
        (s.x (regMsa (4 * q) c)).s i + BitVec.ofInt 32 (cellSum msaFormat m lp rp (4 * q + i) c) := by
    intro m lp rp s h hok hl hr
    have e1 := h.lpos
    have e2 := h.rpos
    refine ⟨?_, ?_⟩
    · rw [exec_ok]
      refine ⟨hok, ?_⟩
      simp only [okOf, msaLoop, ld_b, ldi0, ilvr_b, ilvl_b, splati_w, dpadd_u_w, and_true]; omega
    · intro q c i hq hc hi
      rw [msaLoop_x m s q c (by omega) hc]
      exact tileMsa_lane h (by omega) hc hi _
  exact
    { pre := fun m s hok _ _ => ⟨⟨rfl, rfl⟩, hok, fun _ _ _ _ => rfl⟩
      loop := by
        intro m lp rp s h hok hl hr
        have hl : lp + 2 * 24 ≤ m.lhs.size := hl
        have hr : rp + 2 * 16 ≤ m.rhs.size := hr
        have e1 := h.lpos
        have e2 := h.rpos
        refine ⟨⟨?_, ?_⟩, hstep m lp rp s h hok (by omega) (by omega)⟩
        · show s.lp + 24 = lp + 24; omega
        · show s.rp + 16 = rp + 16; omega
      last := fun m lp rp s h hok hl hr => hstep m lp rp s h hok hl hr }

theorem msaKernel_ok (x0 : Nat → VReg) :
    KernelOk .wrap msaFormat 16 intNeeds (msaKernel x0) :=
  kernelLoadFirst_ok (F := msaFormat) (regOf := regMsa) (by omega) (by decide)
    (tilesIn_of (Q := 3) (C := 8) (tiles := msaLoads) regMsa (by decide) (by decide) (by decide))
    (tilesIn_of (Q := 3) (C := 8) (tiles := msaStores) regMsa (by decide) (by decide) (by decide))
    (fun m s => ⟨rfl, rfl, rfl⟩)
    (by
      intro m s q c i hq hc hi
      have hq : 4 * q < 12 := hq
      have hq : q < 3 := by omega
      have hc : c < 8 := hc
      interval_cases q <;> interval_cases c <;> exact zero_s i)
    (msa_direct.mainAdds (w := 32) (by omega) rfl rfl (by decide) (by decide)) x0

/-! ## `MSA_GEMM_Int8Operands_LhsNonzero` -/

/-- `dotp_s.h`: the two products per 16-bit lane, of neighbouring bytes. -/
def dotpV (a b : VReg) : VReg :=
  ofH fun i => (a (2 * i + 1)).signExtend 16 * (b (2 * i + 1)).signExtend 16 +
    (a (2 * i)).signExtend 16 * (b (2 * i)).signExtend 16

/-- `dpadd_s.w` -/
def dpaddV (acc p one : VReg) : VReg :=
  ofS fun i => acc.s i +
    ((p.h (2 * i + 1)).signExtend 32 * (one.h (2 * i + 1)).signExtend 32 +
     (p.h (2 * i)).signExtend 32 * (one.h (2 * i)).signExtend 32)

theorem total_stepM {acc a b one : VReg} (h1 : one = ofH fun _ => 1#16)
    (h : ∀ e, e < 16 → ¬ ((a e).toInt = -128 ∧ (b e).toInt = -128)) :
    total (dpaddV acc (dotpV a b) one) = total acc +
      BitVec.ofInt 32 (sumTo 16 (fun e => (a e).toInt * (b e).toInt)) := by
  have hone : ∀ i, (one.h i).signExtend 32 = 1#32 := by
    intro i
    rw [h1, h_ofH]
    decide
  have hh : ∀ i, i < 8 → ((dotpV a b).h i).signExtend 32 =
      BitVec.ofInt 32 ((a (2 * i + 1)).toInt * (b (2 * i + 1)).toInt +
        (a (2 * i)).toInt * (b (2 * i)).toInt) := by
    intro i hi
    unfold dotpV
    rw [h_ofH, pair_exact _ _ _ _ (fun ⟨x, y⟩ => h (2 * i + 1) (by omega) ⟨y, x⟩)
      (fun ⟨x, y⟩ => h (2 * i) (by omega) ⟨y, x⟩), Int.mul_comm (b (2 * i + 1)).toInt,
      Int.mul_comm (b (2 * i)).toInt]
  have es : sumTo 16 (fun e => (a e).toInt * (b e).toInt) =
      (((a 3).toInt * (b 3).toInt + (a 2).toInt * (b 2).toInt) +
       ((a 1).toInt * (b 1).toInt + (a 0).toInt * (b 0).toInt)) +
      (((a 7).toInt * (b 7).toInt + (a 6).toInt * (b 6).toInt) +
       ((a 5).toInt * (b 5).toInt + (a 4).toInt * (b 4).toInt)) +
      (((a 11).toInt * (b 11).toInt + (a 10).toInt * (b 10).toInt) +
       ((a 9).toInt * (b 9).toInt + (a 8).toInt * (b 8).toInt)) +
      (((a 15).toInt * (b 15).toInt + (a 14).toInt * (b 14).toInt) +
       ((a 13).toInt * (b 13).toInt + (a 12).toInt * (b 12).toInt)) := by
    show sumTo (15 + 1) _ = _
    simp only [sumTo, Nat.reduceAdd]
    omega
  unfold total dpaddV
  simp only [s_ofS, hone, BitVec.mul_one]
  rw [hh _ (by omega), hh _ (by omega), hh _ (by omega), hh _ (by omega), hh _ (by omega),
    hh _ (by omega), hh _ (by omega), hh _ (by omega), es, ← BitVec.ofInt_add, ← BitVec.ofInt_add,
    ← BitVec.ofInt_add, ← BitVec.ofInt_add, total_add, ← BitVec.ofInt_add, ← BitVec.ofInt_add,
    ← BitVec.ofInt_add]

/-- The cells at `lp` and `rp`, where the pointers are, are in registers. -/
structure ReadyMsaLnz (m : Mem) (lp rp : Nat) (s : St) : Prop where
  lpos : s.lp = lp
  rpos : s.rp = rp
  a : ∀ r, r < 4 → s.x (16 + r) = bytes m.lhs (lp + 16 * r)
  b : ∀ c, c < 4 → s.x (20 + c) = bytes m.rhs (rp + 16 * c)
  one : s.x 31 = ofH fun _ => 1#16

/-- The accumulator of row `r`, column `c` after the cells at hand. -/
def msaAcc (s : St) (r c : Nat) : VReg :=
  dpaddV (s.x (4 * c + r)) (dotpV (s.x (16 + r)) (s.x (20 + c))) (s.x 31)

theorem msaLnzLoop_x (m : Mem) (s : St) (r c : Nat) (hr : r < 4) (hc : c < 4) :
    (exec m msaLnzLoop s).x (4 * c + r) = msaAcc s r c := by
  interval_cases r <;> interval_cases c <;> rfl

/-- The horizontal addition, at the end. -/
def msaLnzSums : List Ins := msaLnzLast.drop 32

theorem msaLnzLast_x (m : Mem) (s : St) (r c : Nat) (hr : r < 4) (hc : c < 4) :
    (exec m (msaLnzLast.take 32) s).x (4 * c + r) = msaAcc s r c := by
  interval_cases r <;> interval_cases c <;> rfl

/-- `hadd_s.d` -/
def haddV (w : VReg) : VReg :=
  ofD fun i => (w.s (2 * i + 1)).signExtend 64 + (w.s (2 * i)).signExtend 64

/-- `pckev.w` -/
def pckV (u v : VReg) : VReg := ofS fun i => if i < 2 then v.s (2 * i) else u.s (2 * (i - 2))

theorem haddV_s (w : VReg) (i : Nat) : (haddV w).s (2 * i) = w.s (2 * i + 1) + w.s (2 * i) := by
  unfold haddV
  rw [s_ofD, signExtend_add_low]

theorem msaLnzEnd_x (m : Mem) (s : St) (c : Nat) (hc : c < 4) :
    (exec m msaLnzEnd (exec m msaLnzSums s)).x c =
      pckV (haddV (pckV (haddV (s.x (4 * c + 3))) (haddV (s.x (4 * c + 2)))))
        (haddV (pckV (haddV (s.x (4 * c + 1))) (haddV (s.x (4 * c + 0))))) := by
  interval_cases c <;> rfl

theorem pckV_lo (u v : VReg) (i : Nat) (hi : i < 2) : (pckV u v).s i = v.s (2 * i) := by
  unfold pckV; rw [s_ofS, if_pos hi]

theorem pckV_hi (u v : VReg) (i : Nat) (hi : 2 ≤ i) : (pckV u v).s i = u.s (2 * (i - 2)) := by
  unfold pckV; rw [s_ofS, if_neg (by omega)]

/-- Two rounds of adding neighbours. -/
theorem hadd2_lo (u v : VReg) : (haddV (pckV (haddV u) (haddV v))).s (2 * 0) = total v := by
  rw [haddV_s, pckV_lo _ _ _ (by omega), pckV_lo _ _ _ (by omega), haddV_s, haddV_s]
  unfold total
  show v.s 3 + v.s 2 + (v.s 1 + v.s 0) = _
  ac_rfl

theorem hadd2_hi (u v : VReg) : (haddV (pckV (haddV u) (haddV v))).s (2 * 1) = total u := by
  rw [haddV_s, pckV_hi _ _ _ (by omega), pckV_hi _ _ _ (by omega), haddV_s, haddV_s]
  unfold total
  show u.s 3 + u.s 2 + (u.s 1 + u.s 0) = _
  ac_rfl

theorem msaLnz_end (m : Mem) (s : St) (r c : Nat) (hr : r < 4) (hc : c < 4) :
    ((exec m msaLnzEnd (exec m msaLnzLast s)).x c).s r = total (msaAcc s r c) := by
  have e : msaLnzLast = msaLnzLast.take 32 ++ msaLnzSums := rfl
  rw [e, exec_append, msaLnzEnd_x m _ c hc, msaLnzLast_x m s 0 c (by omega) hc,
    msaLnzLast_x m s 1 c (by omega) hc, msaLnzLast_x m s 2 c (by omega) hc,
    msaLnzLast_x m s 3 c (by omega) hc]
  interval_cases r
  · rw [pckV_lo _ _ _ (by omega)]; exact hadd2_lo _ _
  · rw [pckV_lo _ _ _ (by omega)]; exact hadd2_hi _ _
  · rw [pckV_hi _ _ _ (by omega)]; exact hadd2_lo _ _
  · rw [pckV_hi _ _ _ (by omega)]; exact hadd2_hi _ _

theorem msaAcc_total {m : Mem} {lp rp : Nat} {s : St} (h : ReadyMsaLnz m lp rp s) {r c : Nat}
    (hr : r < 4) (hc : c < 4)
    (hp : ∀ e, e < msaLnzFormat.kDepth → lnzNeeds.pair (runCoeff msaLnzFormat.lhs m.lhs lp r e)
      (runCoeff msaLnzFormat.rhs m.rhs rp c e)) :
    total (msaAcc s r c) =
      total (s.x (4 * c + r)) + BitVec.ofInt 32 (cellSum msaLnzFormat m lp rp r c) := by
  obtain ⟨h1, h2⟩ := cellSum_16 (F := msaLnzFormat) (w := 4) rfl rfl m lp rp r c hr hc
  unfold msaAcc
  rw [h.a r hr, h.b c hc, h2]
  apply total_stepM h.one
  intro e he
  have := hp e he
  rw [(h1 e he).1, (h1 e he).2] at this
  exact this

theorem msaLnz_cells :
    Cells msaLnzFormat lnzNeeds.pair msaLnzPre msaLnzLoop msaLnzLast ReadyMsaLnz
      (fun _ _ _ => 0#32) (fun s r c => total (s.x (4 * c + r)))
      (fun m s r c => ((exec m msaLnzEnd s).x c).s r) where
  pre := by
    intro m s hok hl hr
    have hl : s.lp + 64 ≤ m.lhs.size := hl
    have hr : s.rp + 64 ≤ m.rhs.size := hr
    refine ⟨⟨rfl, rfl, ?_, ?_, rfl⟩, ?_, ?_⟩
    · intro r hr; interval_cases r <;> rfl
    · intro c hc; interval_cases c <;> rfl
    · rw [exec_ok]
      refine ⟨hok, ?_⟩
      simp only [okOf, msaLnzPre, ld_b, ldi0, ldi_h, and_true]; omega
    · intro r c hr hc
      have hr : r < 4 := hr
      have hc : c < 4 := hc
      have : (exec m msaLnzPre s).x (4 * c + r) = fun _ => 0#8 := by
        interval_cases r <;> interval_cases c <;> rfl
      rw [this]
      unfold total
      rw [zero_s, zero_s, zero_s, zero_s]
      decide
  loop := by
    intro m lp rp s h hok hl hr
    have hl : lp + 2 * 64 ≤ m.lhs.size := hl
    have hr : rp + 2 * 64 ≤ m.rhs.size := hr
    have e1 := h.lpos
    have e2 := h.rpos
    refine ⟨⟨?_, ?_, ?_, ?_, ?_⟩, ?_, ?_⟩
    · show s.lp + 64 = lp + 64; omega
    · show s.rp + 64 = rp + 64; omega
    · intro r hr
      show _ = bytes m.lhs (lp + 64 + 16 * r)
      rw [← e1]
      interval_cases r <;> rfl
    · intro c hc
      show _ = bytes m.rhs (rp + 64 + 16 * c)
      rw [← e2]
      interval_cases c <;> rfl
    · exact h.one
    · rw [exec_ok]
      refine ⟨hok, ?_⟩
      simp only [okOf, msaLnzLoop, ld_b, dotp_s_h, dpadd_s_w, and_true]; omega
    · intro r c hr hc hp
      rw [msaLnzLoop_x m s r c hr hc]
      exact msaAcc_total h hr hc hp
  last := by
    intro m lp rp s h hok hl hr
    refine ⟨?_, ?_⟩
    · rw [exec_ok]; exact ⟨hok, trivial⟩
    · intro r c hr hc hp
      rw [msaLnz_end m s r c hr hc]
      exact msaAcc_total h hr hc hp

theorem msaLnzKernel_ok (x0 : Nat → VReg) :
    KernelOk .wrap msaLnzFormat 16 lnzNeeds (msaLnzKernel x0) :=
  kernelAddLast_ok (F := msaLnzFormat) (reg0 := fun c => c) (reg1 := fun c => c) (by omega) rfl
    trivial (colTiles _ (by decide) (by decide) (by decide))
    (colTiles _ (by decide) (by decide) (by decide))
    (msaLnz_cells.endSums (w := 32) (by omega) rfl rfl (by decide) (fun _ _ _ => trivial))
    (msaLnz_cells.endSums (w := 32) (by omega) rfl rfl (by decide) (fun _ _ _ => trivial)) x0

end Gemmlowp.Vec
