import Verif.OutSimdProof2
import Mathlib.Tactic.IntervalCases
/-!
# The vector casts, lane by lane
-/
namespace Gemmlowp.OutSimd

open Isa

/-! ## One lane -/

theorem satW16_toInt (x : BitVec 32) : (satW 16 x.toInt).toInt = min 32767 (max (-32768) x.toInt) := by
  rw [show satW 16 x.toInt = BitVec.ofInt 16 (min 32767 (max (-32768) x.toInt)) from rfl,
    BitVec.toInt_ofInt]
  exact Int.bmod_eq_of_le (by omega) (by omega)

theorem low_toNat (x : BitVec 32) : ((x.extractLsb' 0 16).toNat : Int) = x.toInt % 65536 := by
  rw [BitVec.extractLsb'_toNat, Nat.shiftRight_zero, BitVec.toInt_eq_toNat_cond]
  split <;> omega

theorem low_toInt (x : BitVec 32) : (x.extractLsb' 0 16).toInt =
    if x.toInt % 65536 < 32768 then x.toInt % 65536 else x.toInt % 65536 - 65536 := by
  have := low_toNat x
  rw [BitVec.toInt_eq_toNat_cond]
  split <;> split <;> omega

theorem byte_toNat (x : BitVec 16) : ((x.extractLsb' 0 8).toNat : Int) = x.toInt % 256 := by
  rw [BitVec.extractLsb'_toNat, Nat.shiftRight_zero, BitVec.toInt_eq_toNat_cond]
  split <;> omega

theorem max0_toInt {w : Nat} (x : BitVec w) : (if x.slt 0 then 0 else x).toInt = max 0 x.toInt := by
  by_cases h : x.toInt < 0
  · rw [if_pos (by simpa [BitVec.slt] using h)]; simp; omega
  · rw [if_neg (by simpa [BitVec.slt] using h)]; omega

theorem satS_toInt (x : BitVec 32) (m : Nat) (hm : m ≤ 15) :
    (BitVec.ofInt 32 (min (2 ^ m - 1) (max (-2 ^ m) x.toInt))).toInt = min (2 ^ m - 1) (max (-2 ^ m) x.toInt) := by
  have : (2 : Int) ^ m ≤ 2 ^ 15 := by exact_mod_cast Nat.pow_le_pow_right (by omega) hm
  have : (1 : Int) ≤ 2 ^ m := by exact_mod_cast Nat.one_le_two_pow
  rw [BitVec.toInt_ofInt]
  exact Int.bmod_eq_of_le (by omega) (by omega)

/-- `_mm_packs_epi32`, `_mm_packus_epi16`; `vqmovn_s32`, `vqmovun_s16`. -/
theorem lane_u8 (x : BitVec 32) :
    ((BitVec.ofInt 8 (min 255 (max 0 (satW 16 x.toInt).toInt))).toNat : Int) = Cast.satUint8.reg x := by
  rw [BitVec.toNat_ofInt, satW16_toInt]
  unfold Cast.reg
  dsimp only
  split <;> [skip; split] <;> omega

theorem lane_i8 (x : BitVec 32) : (satW 8 (satW 16 x.toInt).toInt).toInt = Cast.satInt8.reg x := by
  rw [satW16_toInt]
  rw [show satW 8 (min 32767 (max (-32768) x.toInt)) =
    BitVec.ofInt 8 (min 127 (max (-128) (min 32767 (max (-32768) x.toInt)))) from rfl,
    BitVec.toInt_ofInt, Int.bmod_eq_of_le (by omega) (by omega)]
  unfold Cast.reg
  dsimp only
  split <;> [skip; split] <;> omega

theorem lane_i16 (x : BitVec 32) : (satW 16 x.toInt).toInt = Cast.satInt16.reg x := by
  rw [satW16_toInt]
  unfold Cast.reg
  dsimp only
  split <;> [skip; split] <;> omega

/-- `sat_s.w 8`, `maxi_s.w 0`, even halves, even bytes. -/
theorem lane_msa_u8a (x : BitVec 32) :
    ((((if (BitVec.ofInt 32 (min (2 ^ 8 - 1) (max (-2 ^ 8) x.toInt))).slt 0 then 0 else
      BitVec.ofInt 32 (min (2 ^ 8 - 1) (max (-2 ^ 8) x.toInt))).extractLsb' 0 16).extractLsb' 0 8).toNat : Int) =
    Cast.satUint8.reg x := by
  rw [byte_toNat, low_toInt, max0_toInt, satS_toInt x 8 (by decide)]
  unfold Cast.reg
  dsimp only
  split <;> split <;> [skip; split; skip; split] <;> omega

/-- `sat_s.w 8`, even halves, `maxi_s.h 0`, even bytes. -/
theorem lane_msa_u8b (x : BitVec 32) :
    (((if ((BitVec.ofInt 32 (min (2 ^ 8 - 1) (max (-2 ^ 8) x.toInt))).extractLsb' 0 16).slt 0 then 0 else
      (BitVec.ofInt 32 (min (2 ^ 8 - 1) (max (-2 ^ 8) x.toInt))).extractLsb' 0 16).extractLsb' 0 8).toNat : Int) =
    Cast.satUint8.reg x := by
  rw [byte_toNat, max0_toInt, low_toInt, satS_toInt x 8 (by decide)]
  unfold Cast.reg
  dsimp only
  split <;> split <;> [skip; split; skip; split] <;> omega

theorem lane_msa_i16 (x : BitVec 32) :
    ((BitVec.ofInt 32 (min (2 ^ 15 - 1) (max (-2 ^ 15) x.toInt))).extractLsb' 0 16).toInt =
    Cast.satInt16.reg x := by
  rw [low_toInt, satS_toInt x 15 (by decide)]
  unfold Cast.reg
  dsimp only
  split <;> split <;> [skip; split; skip; split] <;> omega

theorem lane_trunc (x : BitVec 32) :
    (((x.extractLsb' 0 16).extractLsb' 0 8).toNat : Int) = Cast.truncUint8.reg x := by
  rw [byte_toNat, low_toInt]
  unfold Cast.reg
  dsimp only
  split <;> omega

/-! ## Words of four bytes -/

theorem word_byte {a b c d : BitVec 8} : ∀ i, i < 4 →
    ((d ++ c ++ b ++ a : BitVec 32) >>> (8 * i)).setWidth 8 = [a, b, c, d].getD i 0 ∧
    ((d ++ c ++ b ++ a : BitVec 32).sshiftRight (8 * i)).setWidth 8 = [a, b, c, d].getD i 0 := by
  have key : ∀ i, i < 4 → ∀ j, j < 8 → (d ++ c ++ b ++ a : BitVec 32).getLsbD (8 * i + j) =
      ([a, b, c, d].getD i 0).getLsbD j := by
    intro i hi j hj
    show (d ++ c ++ b ++ a : BitVec (8 + 8 + 8 + 8)).getLsbD (8 * i + j) = _
    rw [BitVec.getLsbD_append, BitVec.getLsbD_append, BitVec.getLsbD_append]
    interval_cases i
    · rw [if_pos (by omega)]; simp
    · rw [if_neg (by omega), if_pos (by omega)]; simp
    · rw [if_neg (by omega), if_neg (by omega), if_pos (by omega),
        show 8 * 2 + j - 8 - 8 = j by omega]; rfl
    · rw [if_neg (by omega), if_neg (by omega), if_neg (by omega),
        show 8 * 3 + j - 8 - 8 - 8 = j by omega]; rfl
  intro i hi
  constructor
  · apply BitVec.eq_of_getLsbD_eq
    intro j hj
    rw [← key i hi j hj]
    simp [hj]
  · apply BitVec.eq_of_getLsbD_eq
    intro j hj
    rw [← key i hi j hj]
    have h1 : 8 * i + j < 32 := by omega
    simp [hj, BitVec.getLsbD_sshiftRight, h1]
    omega

theorem ofWordU_word {n : Nat} (a : Reg n 8) (k : Nat) :
    ofWordU (word a k) = (List.range 4).map fun i => ((rd a (4 * k + i)).toNat : Int) := by
  unfold ofWordU word
  apply List.map_congr_left
  intro i hi
  have hi := List.mem_range.1 hi
  rw [(word_byte i hi).1]
  interval_cases i <;> rfl

theorem ofWordS_word {n : Nat} (a : Reg n 8) (k : Nat) :
    ofWordS (word a k) = (List.range 4).map fun i => (rd a (4 * k + i)).toInt := by
  unfold ofWordS word
  apply List.map_congr_left
  intro i hi
  have hi := List.mem_range.1 hi
  rw [(word_byte i hi).2]
  interval_cases i <;> rfl

/-! ## The casts -/

/-- The registers of the final type with entries `v`. -/
def finalRegs (A : VArch) (e : Elt) (n : Nat) (v : Nat → Int) : List FReg :=
  (List.range (n / perReg A e n)).map fun k => (List.range (perReg A e n)).map fun l => v (k * perReg A e n + l)

/-- The vector casts. -/
def castV (A : VArch) (c : Cast) (v : List (Reg 4 32)) : M (List FReg) :=
  match A with
  | .sse => sseCast c v
  | .neon => neonCast c v
  | .msa => msaCast c v

/-- Entry `x` of the registers `r`. -/
def ent (r : Nat → Reg 4 32) (x : Nat) : BitVec 32 := rd (r (x / 4)) (x % 4)

/-- Two registers agree if their lanes do. -/
theorem map_range_eq {α : Type} {n : Nat} {f g : Nat → α} (h : ∀ l, l < n → f l = g l) :
    (List.range n).map f = (List.range n).map g :=
  List.map_congr_left fun l hl => h l (List.mem_range.1 hl)

theorem castV_none (A : VArch) (r : Nat → Reg 4 32) (n : Nat) (hn : n = 4 ∨ n = 8 ∨ n = 16 ∨ n = 32) :
    castV A .none ((List.range (n / 4)).map r) = .ok (finalRegs A .i32 n fun x => Cast.none.reg (ent r x)) := by
  have e : castV A .none ((List.range (n / 4)).map r) = .ok (((List.range (n / 4)).map r).map ofS) := by
    cases A <;> rfl
  rw [e]
  unfold finalRegs
  have hp : perReg A .i32 n = 4 := by
    show (if 4 ≤ n then 4 else 1) = 4
    rw [if_pos (by omega)]
  rw [hp, List.map_map]
  congr 1
  apply map_range_eq
  intro k hk
  apply map_range_eq
  intro l hl
  show _ = (rd (r ((k * 4 + l) / 4)) ((k * 4 + l) % 4)).toInt
  rw [show (k * 4 + l) / 4 = k by omega, show (k * 4 + l) % 4 = l by omega]

theorem cast_u8_sse (r : Nat → Reg 4 32) (n : Nat) (hn : n = 4 ∨ n = 8 ∨ n = 16 ∨ n = 32) :
    sseCast .satUint8 ((List.range (n / 4)).map r) =
      .ok (finalRegs .sse .u8 n fun x => Cast.satUint8.reg (ent r x)) := by
  rcases hn with rfl | rfl | rfl | rfl
  · refine congrArg Except.ok (congrArg₂ List.cons ?_ (rfl))
    · refine (ofWordU_word _ _).trans (map_range_eq fun l hl => ?_)
      interval_cases l <;> exact lane_u8 _
  · refine congrArg Except.ok (congrArg₂ List.cons ?_ (congrArg₂ List.cons ?_ (rfl)))
    · refine (ofWordU_word _ _).trans (map_range_eq fun l hl => ?_)
      interval_cases l <;> exact lane_u8 _
    · refine (ofWordU_word _ _).trans (map_range_eq fun l hl => ?_)
      interval_cases l <;> exact lane_u8 _
  · refine congrArg Except.ok (congrArg₂ List.cons ?_ (rfl))
    · refine (map_range_eq fun l hl => ?_)
      interval_cases l <;> exact lane_u8 _
  · refine congrArg Except.ok (congrArg₂ List.cons ?_ (congrArg₂ List.cons ?_ (rfl)))
    · refine (map_range_eq fun l hl => ?_)
      interval_cases l <;> exact lane_u8 _
    · refine (map_range_eq fun l hl => ?_)
      interval_cases l <;> exact lane_u8 _

theorem cast_i16_sse (r : Nat → Reg 4 32) (n : Nat) (hn : n = 4 ∨ n = 8 ∨ n = 16 ∨ n = 32) :
    sseCast .satInt16 ((List.range (n / 4)).map r) =
      .ok (finalRegs .sse .i16 n fun x => Cast.satInt16.reg (ent r x)) := by
  rcases hn with rfl | rfl | rfl | rfl
  · refine congrArg Except.ok (congrArg₂ List.cons ?_ (congrArg₂ List.cons ?_ (congrArg₂ List.cons ?_ (congrArg₂ List.cons ?_ (rfl)))))
    · exact congrArg (fun v => [v]) (lane_i16 _)
    · exact congrArg (fun v => [v]) (lane_i16 _)
    · exact congrArg (fun v => [v]) (lane_i16 _)
    · exact congrArg (fun v => [v]) (lane_i16 _)
  · refine congrArg Except.ok (congrArg₂ List.cons ?_ (rfl))
    · refine (map_range_eq fun l hl => ?_)
      interval_cases l <;> exact lane_i16 _
  · refine congrArg Except.ok (congrArg₂ List.cons ?_ (congrArg₂ List.cons ?_ (rfl)))
    · refine (map_range_eq fun l hl => ?_)
      interval_cases l <;> exact lane_i16 _
    · refine (map_range_eq fun l hl => ?_)
      interval_cases l <;> exact lane_i16 _
  · refine congrArg Except.ok (congrArg₂ List.cons ?_ (congrArg₂ List.cons ?_ (congrArg₂ List.cons ?_ (congrArg₂ List.cons ?_ (rfl)))))
    · refine (map_range_eq fun l hl => ?_)
      interval_cases l <;> exact lane_i16 _
    · refine (map_range_eq fun l hl => ?_)
      interval_cases l <;> exact lane_i16 _
    · refine (map_range_eq fun l hl => ?_)
      interval_cases l <;> exact lane_i16 _
    · refine (map_range_eq fun l hl => ?_)
      interval_cases l <;> exact lane_i16 _

theorem cast_u8_neon (r : Nat → Reg 4 32) (n : Nat) (hn : n = 4 ∨ n = 8 ∨ n = 16 ∨ n = 32) :
    neonCast .satUint8 ((List.range (n / 4)).map r) =
      .ok (finalRegs .neon .u8 n fun x => Cast.satUint8.reg (ent r x)) := by
  rcases hn with rfl | rfl | rfl | rfl
  · refine congrArg Except.ok (congrArg₂ List.cons ?_ (rfl))
    · refine (ofWordU_word _ _).trans (map_range_eq fun l hl => ?_)
      interval_cases l <;> exact lane_u8 _
  · refine congrArg Except.ok (congrArg₂ List.cons ?_ (rfl))
    · refine (map_range_eq fun l hl => ?_)
      interval_cases l <;> exact lane_u8 _
  · refine congrArg Except.ok (congrArg₂ List.cons ?_ (congrArg₂ List.cons ?_ (rfl)))
    · refine (map_range_eq fun l hl => ?_)
      interval_cases l <;> exact lane_u8 _
    · refine (map_range_eq fun l hl => ?_)
      interval_cases l <;> exact lane_u8 _
  · refine congrArg Except.ok (congrArg₂ List.cons ?_ (congrArg₂ List.cons ?_ (congrArg₂ List.cons ?_ (congrArg₂ List.cons ?_ (rfl)))))
    · refine (map_range_eq fun l hl => ?_)
      interval_cases l <;> exact lane_u8 _
    · refine (map_range_eq fun l hl => ?_)
      interval_cases l <;> exact lane_u8 _
    · refine (map_range_eq fun l hl => ?_)
      interval_cases l <;> exact lane_u8 _
    · refine (map_range_eq fun l hl => ?_)
      interval_cases l <;> exact lane_u8 _

theorem cast_i8_neon (r : Nat → Reg 4 32) (n : Nat) (hn : n = 4 ∨ n = 8 ∨ n = 16 ∨ n = 32) :
    neonCast .satInt8 ((List.range (n / 4)).map r) =
      .ok (finalRegs .neon .i8 n fun x => Cast.satInt8.reg (ent r x)) := by
  rcases hn with rfl | rfl | rfl | rfl
  · refine congrArg Except.ok (congrArg₂ List.cons ?_ (rfl))
    · refine (ofWordS_word _ _).trans (map_range_eq fun l hl => ?_)
      interval_cases l <;> exact lane_i8 _
  · refine congrArg Except.ok (congrArg₂ List.cons ?_ (rfl))
    · refine (map_range_eq fun l hl => ?_)
      interval_cases l <;> exact lane_i8 _
  · refine congrArg Except.ok (congrArg₂ List.cons ?_ (congrArg₂ List.cons ?_ (rfl)))
    · refine (map_range_eq fun l hl => ?_)
      interval_cases l <;> exact lane_i8 _
    · refine (map_range_eq fun l hl => ?_)
      interval_cases l <;> exact lane_i8 _
  · refine congrArg Except.ok (congrArg₂ List.cons ?_ (congrArg₂ List.cons ?_ (congrArg₂ List.cons ?_ (congrArg₂ List.cons ?_ (rfl)))))
    · refine (map_range_eq fun l hl => ?_)
      interval_cases l <;> exact lane_i8 _
    · refine (map_range_eq fun l hl => ?_)
      interval_cases l <;> exact lane_i8 _
    · refine (map_range_eq fun l hl => ?_)
      interval_cases l <;> exact lane_i8 _
    · refine (map_range_eq fun l hl => ?_)
      interval_cases l <;> exact lane_i8 _

theorem cast_i16_neon (r : Nat → Reg 4 32) (n : Nat) (hn : n = 4 ∨ n = 8 ∨ n = 16 ∨ n = 32) :
    neonCast .satInt16 ((List.range (n / 4)).map r) =
      .ok (finalRegs .neon .i16 n fun x => Cast.satInt16.reg (ent r x)) := by
  rcases hn with rfl | rfl | rfl | rfl
  · refine congrArg Except.ok (congrArg₂ List.cons ?_ (rfl))
    · refine (map_range_eq fun l hl => ?_)
      interval_cases l <;> exact lane_i16 _
  · refine congrArg Except.ok (congrArg₂ List.cons ?_ (rfl))
    · refine (map_range_eq fun l hl => ?_)
      interval_cases l <;> exact lane_i16 _
  · refine congrArg Except.ok (congrArg₂ List.cons ?_ (congrArg₂ List.cons ?_ (rfl)))
    · refine (map_range_eq fun l hl => ?_)
      interval_cases l <;> exact lane_i16 _
    · refine (map_range_eq fun l hl => ?_)
      interval_cases l <;> exact lane_i16 _
  · refine congrArg Except.ok (congrArg₂ List.cons ?_ (congrArg₂ List.cons ?_ (congrArg₂ List.cons ?_ (congrArg₂ List.cons ?_ (rfl)))))
    · refine (map_range_eq fun l hl => ?_)
      interval_cases l <;> exact lane_i16 _
    · refine (map_range_eq fun l hl => ?_)
      interval_cases l <;> exact lane_i16 _
    · refine (map_range_eq fun l hl => ?_)
      interval_cases l <;> exact lane_i16 _
    · refine (map_range_eq fun l hl => ?_)
      interval_cases l <;> exact lane_i16 _

theorem cast_u8_msa (r : Nat → Reg 4 32) (n : Nat) (hn : n = 4 ∨ n = 8 ∨ n = 16 ∨ n = 32) :
    msaCast .satUint8 ((List.range (n / 4)).map r) =
      .ok (finalRegs .msa .u8 n fun x => Cast.satUint8.reg (ent r x)) := by
  rcases hn with rfl | rfl | rfl | rfl
  · refine congrArg Except.ok (congrArg₂ List.cons ?_ (rfl))
    · refine (ofWordU_word _ _).trans (map_range_eq fun l hl => ?_)
      interval_cases l <;> exact lane_msa_u8a _
  · refine congrArg Except.ok (congrArg₂ List.cons ?_ (congrArg₂ List.cons ?_ (rfl)))
    · refine (ofWordU_word _ _).trans (map_range_eq fun l hl => ?_)
      interval_cases l <;> exact lane_msa_u8b _
    · refine (ofWordU_word _ _).trans (map_range_eq fun l hl => ?_)
      interval_cases l <;> exact lane_msa_u8b _
  · refine congrArg Except.ok (congrArg₂ List.cons ?_ (rfl))
    · refine (map_range_eq fun l hl => ?_)
      interval_cases l <;> exact lane_msa_u8b _
  · refine congrArg Except.ok (congrArg₂ List.cons ?_ (congrArg₂ List.cons ?_ (rfl)))
    · refine (map_range_eq fun l hl => ?_)
      interval_cases l <;> exact lane_msa_u8b _
    · refine (map_range_eq fun l hl => ?_)
      interval_cases l <;> exact lane_msa_u8b _

theorem cast_i16_msa (r : Nat → Reg 4 32) (n : Nat) (hn : n = 4 ∨ n = 8 ∨ n = 16 ∨ n = 32) :
    msaCast .satInt16 ((List.range (n / 4)).map r) =
      .ok (finalRegs .msa .i16 n fun x => Cast.satInt16.reg (ent r x)) := by
  rcases hn with rfl | rfl | rfl | rfl
  · refine congrArg Except.ok (congrArg₂ List.cons ?_ (congrArg₂ List.cons ?_ (congrArg₂ List.cons ?_ (congrArg₂ List.cons ?_ (rfl)))))
    · exact congrArg (fun v => [v]) (lane_msa_i16 _)
    · exact congrArg (fun v => [v]) (lane_msa_i16 _)
    · exact congrArg (fun v => [v]) (lane_msa_i16 _)
    · exact congrArg (fun v => [v]) (lane_msa_i16 _)
  · refine congrArg Except.ok (congrArg₂ List.cons ?_ (rfl))
    · refine (map_range_eq fun l hl => ?_)
      interval_cases l <;> exact lane_msa_i16 _
  · refine congrArg Except.ok (congrArg₂ List.cons ?_ (congrArg₂ List.cons ?_ (rfl)))
    · refine (map_range_eq fun l hl => ?_)
      interval_cases l <;> exact lane_msa_i16 _
    · refine (map_range_eq fun l hl => ?_)
      interval_cases l <;> exact lane_msa_i16 _
  · refine congrArg Except.ok (congrArg₂ List.cons ?_ (congrArg₂ List.cons ?_ (congrArg₂ List.cons ?_ (congrArg₂ List.cons ?_ (rfl)))))
    · refine (map_range_eq fun l hl => ?_)
      interval_cases l <;> exact lane_msa_i16 _
    · refine (map_range_eq fun l hl => ?_)
      interval_cases l <;> exact lane_msa_i16 _
    · refine (map_range_eq fun l hl => ?_)
      interval_cases l <;> exact lane_msa_i16 _
    · refine (map_range_eq fun l hl => ?_)
      interval_cases l <;> exact lane_msa_i16 _

theorem cast_trunc_msa (r : Nat → Reg 4 32) (n : Nat) (hn : n = 4 ∨ n = 8 ∨ n = 16 ∨ n = 32) :
    msaCast .truncUint8 ((List.range (n / 4)).map r) =
      .ok (finalRegs .msa .u8 n fun x => Cast.truncUint8.reg (ent r x)) := by
  rcases hn with rfl | rfl | rfl | rfl
  · refine congrArg Except.ok (congrArg₂ List.cons ?_ (rfl))
    · refine (ofWordU_word _ _).trans (map_range_eq fun l hl => ?_)
      interval_cases l <;> exact lane_trunc _
  · refine congrArg Except.ok (congrArg₂ List.cons ?_ (congrArg₂ List.cons ?_ (rfl)))
    · refine (ofWordU_word _ _).trans (map_range_eq fun l hl => ?_)
      interval_cases l <;> exact lane_trunc _
    · refine (ofWordU_word _ _).trans (map_range_eq fun l hl => ?_)
      interval_cases l <;> exact lane_trunc _
  · refine congrArg Except.ok (congrArg₂ List.cons ?_ (rfl))
    · refine (map_range_eq fun l hl => ?_)
      interval_cases l <;> exact lane_trunc _
  · refine congrArg Except.ok (congrArg₂ List.cons ?_ (congrArg₂ List.cons ?_ (rfl)))
    · refine (map_range_eq fun l hl => ?_)
      interval_cases l <;> exact lane_trunc _
    · refine (map_range_eq fun l hl => ?_)
      interval_cases l <;> exact lane_trunc _

theorem castV_ok (A : VArch) (c : Cast) (hc : Cast.Supports A c) (r : Nat → Reg 4 32) (n : Nat)
    (hn : n = 4 ∨ n = 8 ∨ n = 16 ∨ n = 32) :
    castV A c ((List.range (n / 4)).map r) = .ok (finalRegs A (Cast.elt c) n fun x => c.reg (ent r x)) := by
  cases c with
  | none => exact castV_none A r n hn
  | satUint8 =>
    cases A with
    | sse => exact cast_u8_sse r n hn
    | neon => exact cast_u8_neon r n hn
    | msa => exact cast_u8_msa r n hn
  | satInt16 =>
    cases A with
    | sse => exact cast_i16_sse r n hn
    | neon => exact cast_i16_neon r n hn
    | msa => exact cast_i16_msa r n hn
  | satInt8 =>
    have hA : A = .neon := hc
    subst hA
    exact cast_i8_neon r n hn
  | truncUint8 =>
    have hA : A = .msa := hc
    subst hA
    exact cast_trunc_msa r n hn

theorem finalRegs_congr {A : VArch} {e : Elt} {n : Nat} {v v' : Nat → Int}
    (hd : perReg A e n ∣ n) (h : ∀ x, x < n → v x = v' x) : finalRegs A e n v = finalRegs A e n v' := by
  unfold finalRegs
  obtain ⟨q, hq⟩ := hd
  generalize perReg A e n = L at *
  apply map_range_eq
  intro k hk
  apply map_range_eq
  intro l hl
  apply h
  have hk' : k < q := by
    rw [hq, Nat.mul_div_cancel_left _ (by omega)] at hk
    exact hk
  have := Nat.mul_le_mul_right L (show k + 1 ≤ q from hk')
  rw [Nat.add_mul, Nat.one_mul] at this
  rw [hq, Nat.mul_comm L q]
  omega

/-- The cast of a block. -/
theorem castRegs_ok (A : VArch) (c : Cast) (hc : Cast.Supports A c) {R C : Nat} (hsh : Shape R C)
    (g : Nat → Nat → BitVec 32) :
    castRegs A c (lanes R C g).reg =
      .ok (finalRegs A (Cast.elt c) (R * C) fun x => c.reg (g (x % R) (x / R))) := by
  by_cases h1 : R * C = 1
  · have hR : R = 1 := Nat.eq_one_of_mul_eq_one_right h1
    have hC : C = 1 := Nat.eq_one_of_mul_eq_one_left h1
    subst hR; subst hC
    show Except.ok [[c.reg (g 0 0)]] = _
    unfold finalRegs
    have : perReg A (Cast.elt c) (1 * 1) = 1 := by cases A <;> cases c <;> rfl
    rw [this]
    rfl
  · have hn : R * C = 4 ∨ R * C = 8 ∨ R * C = 16 ∨ R * C = 32 := by
      rcases hsh with ⟨rfl | rfl | rfl, rfl | rfl⟩ <;> simp at h1 ⊢
    have e : (lanes R C g).reg = (List.range (R * C / 4)).map fun k => .v (laneReg R g k) := by
      unfold lanes
      dsimp only
      rw [if_pos (by omega)]
    have e2 : castRegs A c ((List.range (R * C / 4)).map fun k => .v (laneReg R g k)) =
        (((List.range (R * C / 4)).map fun k => IReg.v (laneReg R g k)).mapM toVec >>= castV A c) := by
      rcases hn with h | h | h | h <;> rw [h] <;> cases A <;> rfl
    have e3 : List.mapM (toVec ∘ fun k => IReg.v (laneReg R g k)) (List.range (R * C / 4)) =
        .ok ((List.range (R * C / 4)).map (laneReg R g)) := RBlock.mapM_ok fun k hk => rfl
    rw [e, e2, List.mapM_map, e3, ok_bind,
      castV_ok A c hc _ _ hn]
    congr 1
    refine finalRegs_congr ?_ fun x hx => ?_
    · rcases hn with h | h | h | h <;> rw [h] <;> cases A <;> cases c <;> decide
    · congr 1
      unfold ent laneReg rd
      rw [dif_pos (by omega)]
      dsimp only
      rw [show 4 * (x / 4) + x % 4 = x by omega]

end Gemmlowp.OutSimd
