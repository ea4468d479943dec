import Verif.MetaArm
import Verif.MetaArm32Proof
import Verif.MetaProof
/-!
# The generated code for ARM does what the drivers of meta/ need
-/
namespace Gemmlowp.Meta

open MetaAsm
open Vec (VReg)

/-! ## Packing -/

/-- From one element of a lane to the next in memory. -/
def StreamParams.elemStep (p : StreamParams) : Nat :=
  match p.kind with
  | .rowMajor | .rowMajorWithSum => 1
  | .columnMajorWithSum => p.stride

/-- The streams that can be packed. -/
def StreamParams.WithSum (p : StreamParams) : Prop := p.kind = .rowMajorWithSum ∨ p.kind = .columnMajorWithSum

/-- Element `q` of lane `i` of an operand at `src`. -/
def elem (e : Env) (p : StreamParams) (src i q : Nat) : BitVec 8 := e.mem (src + i * p.laneStep + q * p.elemStep : Nat)

theorem WithSum.stride {p : StreamParams} (h : p.WithSum) (lanes : Nat) :
    p.packedStride 1 lanes 8 = 32 + alignTo 32 (1 * lanes * alignTo 8 p.count) := by
  unfold StreamParams.packedStride
  rcases h with h | h <;> rw [h]

theorem alignTo_eight (k : Nat) : alignTo 8 k = up8 k := by
  unfold alignTo up8; rw [show k + 8 - 1 = k + 7 by omega]

/-- The packed form fits. -/
theorem packed_fits {p : StreamParams} (h : p.WithSum) (lanes : Nat) :
    lanes * up8 p.count + 16 * groups lanes ≤ p.packedStride 1 lanes 8 := by
  rw [WithSum.stride h, alignTo_eight, Nat.one_mul]
  have := le_alignTo (a := 32) (by omega) (lanes * up8 p.count)
  unfold groups
  split <;> omega

/-- What must be a multiple of what, at the start of the packing code and of a kernel, for the aligned accesses. -/
def Arch.packMult : Arch → Nat → List (X × Nat)
  | .arm64, _ => []
  | .arm32, n => packMult32 n

def Arch.mulMult : Arch → Nat → Nat → List (X × Nat)
  | .arm64, _, _ => []
  | .arm32, m, n => mulMult32 m n

theorem gcd32_mod {d n : Nat} (h : d % 32 = 0) : d % Nat.gcd 32 n = 0 :=
  Nat.mod_eq_zero_of_dvd (Nat.dvd_trans (Nat.gcd_dvd_left 32 n) (Nat.dvd_of_mod_eq_zero h))

theorem gcd32_dvd {d n : Nat} (h : d % 32 = 0) : (d : Int) % (Nat.gcd 32 n : Nat) = 0 := by
  exact_mod_cast gcd32_mod h

theorem any_some {α : Type} {p : Option α} {f : α → Bool} (h : p.any f = true) : ∃ q, p = some q ∧ f q = true := by
  cases p with
  | none => simp at h
  | some q => exact ⟨q, rfl, by simpa using h⟩

theorem arch_row (a : Arch) {n L : Nat} (h0 : 0 < n) (h8 : n ≤ 8) (hL : L < 8) : ∃ p, a.row n L = some p ∧
    rowOk n L p = true ∧ (∀ f mem, Reduces f mem n p.red) ∧ alOk (a.packMult n) p = true := by
  cases a with
  | arm64 =>
    obtain ⟨p, h1, h2, h3, h4⟩ := rows_ok (n := n) (L := L) h0 h8 hL
    exact ⟨p, h1, h2, reduces_of_ok h8 h3, h4⟩
  | arm32 =>
    have h := rows32_all
    simp only [List.all_eq_true, List.mem_range] at h
    obtain ⟨p, h1, h2⟩ := any_some (h (n - 1) (by omega) L hL)
    rw [show n - 1 + 1 = n by omega] at h1 h2
    simp only [Bool.and_eq_true] at h2
    exact ⟨p.code, by show (row32Prog n L).map _ = _; rw [h1]; rfl, h2.1.1, reduces_of_ok32 h8 h2.1.2, h2.2⟩

theorem arch_col (a : Arch) {n L : Nat} (h0 : 0 < n) (h8 : n ≤ 8) (hL : L < 8) : ∃ p, a.col n L = some p ∧
    colOk n L p = true ∧ (∀ f mem, Reduces f mem n p.red) ∧ alOk (a.packMult n) p = true := by
  cases a with
  | arm64 =>
    obtain ⟨p, h1, h2, h3, h4⟩ := cols_ok (n := n) (L := L) h0 h8 hL
    exact ⟨p, h1, h2, reduces_of_ok h8 h3, h4⟩
  | arm32 =>
    have h := cols32_all
    simp only [List.all_eq_true, List.mem_range] at h
    obtain ⟨p, h1, h2⟩ := any_some (h (n - 1) (by omega) L hL)
    rw [show n - 1 + 1 = n by omega] at h1 h2
    simp only [Bool.and_eq_true] at h2
    exact ⟨p.code, by show (col32Prog n L).map _ = _; rw [h1]; rfl, h2.1.1, reduces_of_ok32 h8 h2.1.2, h2.2⟩

theorem packAsm_spec {e : Env} {p : StreamParams} (hp : p.WithSum) (hk : 0 < p.count) {lanes src dst : Nat}
    (h0 : 0 < lanes) (h8 : lanes ≤ 8) (ha : e.arch = .arm32 → dst % Nat.gcd 32 (8 * lanes) = 0) (hb : e.base ≤ dst)
    (hc : dst + p.packedStride 1 lanes 8 ≤ e.cap)
    (hr : ∀ i, i < lanes → ∀ q, q < p.count →
      e.readable (src + i * p.laneStep + q * p.elemStep : Nat) = true) (s : Int → BitVec 8) :
    ∃ s', packAsm e p lanes (p.count % 8) src dst s = .ok s' ∧
      MetaAsm.Packed s' dst lanes p.count (elem e p src) p.multiplicativeSumOffset p.additiveSumOffset ∧
      ∀ a, ¬((dst : Int) ≤ a ∧ a < (dst + p.packedStride 1 lanes 8 : Nat)) → s' a = s a := by
  have hfit := packed_fits hp lanes
  have main : ∀ g P, packProg e.arch p.kind lanes (p.count % 8) = some g → alOk (e.arch.packMult lanes) g = true →
      PackCode e.f e.mem g e.readable lanes p.count (elem e p src) ⟨e.v, packRegs p src dst e.x, [], [], []⟩ P →
      ∃ s', packAsm e p lanes (p.count % 8) src dst s = .ok s' ∧
        MetaAsm.Packed s' dst lanes p.count (elem e p src) p.multiplicativeSumOffset p.additiveSumOffset ∧
        ∀ a, ¬((dst : Int) ≤ a ∧ a < (dst + p.packedStride 1 lanes 8 : Nat)) → s' a = s a := by
    intro g P hg hal hP
    obtain ⟨t, et, hrd, hwr, hm⟩ := hP.run h0 hk rfl rfl rfl
    have hw := hwr e.inScratch (by
      intro a h1 h2
      simp only [packRegs] at h1 h2
      unfold Env.inScratch
      rw [decide_eq_true_eq]
      omega)
    have hali : alignedIn t.al = true := by
      refine aligned_run hal e.f e.mem ?_ rfl et
      intro x hx
      cases harch : e.arch with
      | arm64 => rw [harch] at hx; simp [Arch.packMult] at hx
      | arm32 =>
        rw [harch] at hx
        simp only [Arch.packMult, packMult32, List.mem_singleton] at hx
        subst hx
        show (dst : Int) % (Nat.gcd 32 (8 * lanes) : Nat) = 0
        exact_mod_cast ha harch
    obtain ⟨h1, h2⟩ := hm s
    refine ⟨memAfter t.wr s, ?_, h1, ?_⟩
    · unfold packAsm
      rw [hg]
      dsimp only
      rw [et]
      dsimp only
      rw [hali, hrd, hw]
      rfl
    · intro a ha
      apply h2
      simp only [packRegs]
      omega
  rcases hp with hkind | hkind
  · obtain ⟨g, hg, hok, hred, hal⟩ := arch_row e.arch (n := lanes) (L := p.count % 8) h0 h8 (by omega)
    have hl : p.laneStep = p.stride := by unfold StreamParams.laneStep; rw [hkind]
    have he : p.elemStep = 1 := by unfold StreamParams.elemStep; rw [hkind]
    have := row_code hok e.f e.mem (hred _ _) e.readable ⟨e.v, packRegs p src dst e.x, [], [], []⟩ (by
      intro i hi q hq
      have := hr i hi q hq
      rw [hl, he, Nat.mul_one] at this
      push_cast at this
      exact this)
    have e' : elem e p src = fun (i q : Nat) => e.mem (packRegs p src dst e.x .inp + i * packRegs p src dst e.x .stride + q) := by
      funext i q
      unfold elem
      rw [hl, he, Nat.mul_one]
      push_cast
      rfl
    dsimp only at this
    rw [← e'] at this
    exact main g _ (by rw [hkind]; exact hg) hal this
  · obtain ⟨g, hg, hok, hred, hal⟩ := arch_col e.arch (n := lanes) (L := p.count % 8) h0 h8 (by omega)
    have hl : p.laneStep = 1 := by unfold StreamParams.laneStep; rw [hkind]
    have he : p.elemStep = p.stride := by unfold StreamParams.elemStep; rw [hkind]
    have := col_code hok e.f e.mem (hred _ _) e.readable ⟨e.v, packRegs p src dst e.x, [], [], []⟩ (by
      intro i hi q hq
      have := hr i hi q hq
      rw [hl, he, Nat.mul_one] at this
      push_cast at this
      exact this)
    have e' : elem e p src = fun (i q : Nat) => e.mem (packRegs p src dst e.x .inp + i + q * packRegs p src dst e.x .stride) := by
      funext i q
      unfold elem
      rw [hl, he, Nat.mul_one]
      push_cast
      rfl
    dsimp only at this
    rw [← e'] at this
    exact main g _ (by rw [hkind]; exact hg) hal this

/-- The packed form is in a region of the size `PackedStride`. -/
theorem packed_of_eq {m m' : Int → BitVec 8} {dst n k : Nat} {src : Nat → Nat → BitVec 8} {mul add : Int} {size : Nat}
    (h : MetaAsm.Packed m dst n k src mul add) (hs : n * up8 k + 16 * groups n ≤ size) (hn : n ≤ 8)
    (he : ∀ a : Int, (dst : Int) ≤ a → a < (dst + size : Nat) → m' a = m a) : MetaAsm.Packed m' dst n k src mul add := by
  have hg : 4 * n ≤ 16 * groups n := by unfold groups; split <;> omega
  constructor
  · intro t ht
    rw [he _ (by omega) (by omega)]
    exact h.data t ht
  · intro i hi
    rw [← h.sums i hi]
    unfold word
    rw [he _ (by omega) (by omega), he _ (by omega) (by omega), he _ (by omega) (by omega), he _ (by omega) (by omega)]

/-! ## Multiplying -/

/-- What a kernel makes of an entry. -/
structure KernelMeets {β : Type} (e : Env) (K : KernelAsm β) (outSize : Nat) (g : BitVec 32 → β) : Prop where
  code : ∀ mm nn, (mm, nn) ∈ kernSizes → ∃ p, K.prog mm nn = some p ∧ kernOk mm nn p = true ∧
    alOk (e.arch.mulMult mm nn) p = true ∧
    kernReads 16 (16 * groups nn) (exec sym p.tail symInit).rd = true ∧
    ∀ (mem : Int → BitVec 8) (s : St VReg Int), s.wr = [] → s.x .mulOffset = K.mulOffset →
      s.x .rounding = K.rounding → s.x .shift = K.shift → s.x .scale = K.scale →
      ∃ l, K.entries (exec (machine e.f mem) p.tail s).wr = some l ∧ ∀ x, x ∈ l ↔ ∃ i j : Nat, i < mm ∧ j < nn ∧
        x = (s.x .result + i * s.x .stride + (outSize * j : Nat), g (total mem s nn i j))

theorem kern_bounds {mm nn : Nat} (h : (mm, nn) ∈ kernSizes) : 0 < mm ∧ mm ≤ 3 ∧ 0 < nn ∧ nn ≤ 8 := by
  have : ∀ x ∈ kernSizes, 0 < x.1 ∧ x.1 ≤ 3 ∧ 0 < x.2 ∧ x.2 ≤ 8 := by decide
  exact this _ h

theorem q8_meets (e : Env) (mult shift : Int) : KernelMeets e (q8Kernel e.arch mult shift) 1
    (fun x => quantize mult (2 ^ (shift - 1).toNat) (-shift) x) where
  code mm nn h := by
    have hb := kern_bounds h
    cases harch : e.arch with
    | arm64 =>
      obtain ⟨p, hp, hok⟩ := any_some (List.all_eq_true.1 q8_all _ h)
      rw [Bool.and_eq_true, Bool.and_eq_true] at hok
      have hr := hok.1.2
      unfold q8TailOk at hr
      rw [Bool.and_eq_true] at hr
      refine ⟨p, hp, hok.1.1, hok.2, hr.1, ?_⟩
      intro mem s hw h1 h2 h3 _
      refine ⟨_, rfl, fun x => ?_⟩
      rw [q8_tail hok.1.2 (by omega) hb.2.2.2 e.f mem s hw x, h1, h2, h3]
      simp only [Nat.one_mul]
      rfl
    | arm32 =>
      obtain ⟨p, hp, hok⟩ := any_some (List.all_eq_true.1 q8_32_all _ h)
      rw [Bool.and_eq_true, Bool.and_eq_true] at hok
      have hr := hok.1.2
      unfold q8TailOk32 at hr
      rw [Bool.and_eq_true] at hr
      refine ⟨p.code, by show (q8_32Prog mm nn).map _ = _; rw [hp]; rfl, hok.1.1, hok.2, hr.1, ?_⟩
      intro mem s hw h1 h2 h3 _
      refine ⟨_, rfl, fun x => ?_⟩
      rw [q8_tail32 hok.1.2 e.f mem s hw x, h1, h2, h3]
      simp only [Nat.one_mul]
      rfl

theorem i32_meets (e : Env) : KernelMeets e (i32Kernel e.arch) 4 (fun x => x) where
  code mm nn h := by
    have hb := kern_bounds h
    cases harch : e.arch with
    | arm64 =>
      obtain ⟨p, hp, hok⟩ := any_some (List.all_eq_true.1 i32_all _ h)
      rw [Bool.and_eq_true, Bool.and_eq_true] at hok
      have hr := hok.1.2
      unfold wordTailOk at hr
      rw [Bool.and_eq_true] at hr
      refine ⟨p, hp, hok.1.1, hok.2, hr.1, ?_⟩
      intro mem s hw _ _ _ _
      exact word_tail hok.1.2 e.f mem s hw (g := fun x => x) fun i j hi hj => totalE_s e.f mem s (by omega) hj
    | arm32 =>
      obtain ⟨p, hp, hok⟩ := any_some (List.all_eq_true.1 i32_32_all _ h)
      rw [Bool.and_eq_true, Bool.and_eq_true] at hok
      have hr := hok.1.2
      unfold wordTailOk32 at hr
      rw [Bool.and_eq_true, Bool.and_eq_true] at hr
      refine ⟨p.code, by show (i32_32Prog mm nn).map _ = _; rw [hp]; rfl, hok.1.1, hok.2, hr.1.1, ?_⟩
      intro mem s hw _ _ _ _
      exact word_tail32 hok.1.2 e.f mem s hw (g := fun x => x) fun i j => totalL_eval e.f mem s nn i j

theorem f32_meets (e : Env) (scale : BitVec 32) : KernelMeets e (f32Kernel e.arch scale) 4
    (fun x => e.f.mul (e.f.ofInt x) scale) where
  code mm nn h := by
    have hb := kern_bounds h
    cases harch : e.arch with
    | arm64 =>
      obtain ⟨p, hp, hok⟩ := any_some (List.all_eq_true.1 f32_all _ h)
      rw [Bool.and_eq_true, Bool.and_eq_true] at hok
      have hr := hok.1.2
      unfold wordTailOk at hr
      rw [Bool.and_eq_true] at hr
      refine ⟨p, hp, hok.1.1, hok.2, hr.1, ?_⟩
      intro mem s hw _ _ _ hs
      refine word_tail hok.1.2 e.f mem s hw (g := fun x => e.f.mul (e.f.ofInt x) scale) fun i j hi hj => ?_
      rw [f32E_s e.f mem s (by omega) hj, hs]
      show e.f.mul _ (BitVec.ofInt 32 scale.toInt) = _
      rw [BitVec.ofInt_toInt]
    | arm32 =>
      obtain ⟨p, hp, hok⟩ := any_some (List.all_eq_true.1 f32_32_all _ h)
      rw [Bool.and_eq_true, Bool.and_eq_true] at hok
      have hr := hok.1.2
      unfold wordTailOk32 at hr
      rw [Bool.and_eq_true, Bool.and_eq_true] at hr
      refine ⟨p.code, by show (f32_32Prog mm nn).map _ = _; rw [hp]; rfl, hok.1.1, hok.2, hr.1.1, ?_⟩
      intro mem s hw _ _ _ hs
      refine word_tail32 hok.1.2 e.f mem s hw (g := fun x => e.f.mul (e.f.ofInt x) scale) fun i j => ?_
      rw [f32L_eval e.f mem s nn i j, hs]
      show e.f.mul _ (BitVec.ofInt 32 scale.toInt) = _
      rw [BitVec.ofInt_toInt]

/-- The word that gives an entry: the products, and the sums of the two lanes times their offsets. -/
def entryWord (a b : Nat → BitVec 8) (k : Nat) (lm la rm ra : Int) : BitVec 32 :=
  BitVec.ofNat 32 (MetaAsm.sumTo (fun q => (a q).toNat * (b q).toNat) k) +
    (BitVec.ofNat 32 (laneSum a k) * BitVec.ofInt 32 lm + BitVec.ofInt 32 la) +
    (BitVec.ofNat 32 (laneSum b k) * BitVec.ofInt 32 rm + BitVec.ofInt 32 ra)

/-- What the word should be. -/
def entrySum (a b : Nat → BitVec 8) (k : Nat) (lm la rm ra : Int) : Int :=
  Gemmlowp.sumTo k (fun q => ((a q).toNat : Int) * (b q).toNat) +
    (Gemmlowp.sumTo k (fun q => ((a q).toNat : Int)) * lm + la) +
    (Gemmlowp.sumTo k (fun q => ((b q).toNat : Int)) * rm + ra)

theorem sumTo_cast (f : Nat → Nat) : ∀ k, ((MetaAsm.sumTo f k : Nat) : Int) = Gemmlowp.sumTo k fun q => (f q : Int)
  | 0 => rfl
  | k + 1 => by rw [MetaAsm.sumTo, Gemmlowp.sumTo_succ, Int.natCast_add, sumTo_cast f k]

theorem ofNat_ofInt (n : Nat) : BitVec.ofNat 32 n = BitVec.ofInt 32 n := (BitVec.ofInt_natCast 32 n).symm

/-- Up to depth 2056 the sums of the lanes do not wrap around. -/
theorem entryWord_eq {a b : Nat → BitVec 8} {k : Nat} {lm la rm ra : Int} (hk : k ≤ 2056) :
    entryWord a b k lm la rm ra = BitVec.ofInt 32 (entrySum a b k lm la rm ra) := by
  unfold entryWord entrySum
  rw [laneSum_eq hk, laneSum_eq hk, ofNat_ofInt, ofNat_ofInt, ofNat_ofInt, sumTo_cast, sumTo_cast, sumTo_cast,
    ← BitVec.ofInt_mul, ← BitVec.ofInt_mul, ← BitVec.ofInt_add, ← BitVec.ofInt_add, ← BitVec.ofInt_add,
    ← BitVec.ofInt_add]
  simp only [Int.natCast_mul]

theorem mulAsm_spec {β : Type} {e : Env} {K : KernelAsm β} {outSize : Nat} {g : BitVec 32 → β}
    (hK : KernelMeets e K outSize g) {mm nn : Nat} (hs : (mm, nn) ∈ kernSizes) {k stride pl pr res : Nat}
    {s : Int → BitVec 8} {a b : Nat → Nat → BitVec 8} {lm la rm ra : Int} (hk : 0 < k)
    (hl : MetaAsm.Packed s pl mm k a lm la) (hr : MetaAsm.Packed s pr nn k b rm ra)
    (al : e.arch = .arm32 → pl % 32 = 0) (ar : e.arch = .arm32 → pr % 32 = 0) (bl : e.base ≤ pl) (cl : pl + (mm * up8 k + 16 * groups mm) ≤ e.cap)
    (br : e.base ≤ pr) (cr : pr + (nn * up8 k + 16 * groups nn) ≤ e.cap) :
    ∃ l, mulAsm e K k stride mm nn pl pr res s = .ok l ∧ ∀ x, x ∈ l ↔ ∃ i j, i < mm ∧ j < nn ∧
      x = (res + i * stride + j * outSize, g (entryWord (a i) (b j) k lm la rm ra)) := by
  have hb := kern_bounds hs
  obtain ⟨p, hp, hok, hal, hrd, htail⟩ := hK.code mm nn hs
  have hin : ∀ d, e.base ≤ d → ∀ q : Nat, d + q < e.cap → e.inScratch ((d : Int) + q) = true := by
    intro d h1 q h2; unfold Env.inScratch; rw [decide_eq_true_eq]; omega
  have hg1 : 1 ≤ groups mm := by unfold groups; split <;> omega
  obtain ⟨s1, erun, hM⟩ := kern_run hok e.f (mem := s) (ok := e.inScratch) (l := a) (r := b)
    (s0 := ⟨e.v, mulRegs K k stride pl pr res e.x, [], [], []⟩) hk hl.data hr.data
    (fun q hq => hin pl bl q (by omega)) (fun q hq => hin pr br q (by omega)) rfl rfl
  have hup : 8 * (up8 k / 8) = up8 k := by unfold up8; omega
  have hlhs : s1.x .lhs = (pl + mm * up8 k : Nat) := by
    rw [hM.lhs, show 8 * mm * (up8 k / 8) = mm * (8 * (up8 k / 8)) by
      rw [Nat.mul_comm 8 mm, Nat.mul_assoc], hup]
    simp only [mulRegs]; push_cast; rfl
  have hrhs : s1.x .rhs = (pr + nn * up8 k : Nat) := by
    rw [hM.rhs, show 8 * nn * (up8 k / 8) = nn * (8 * (up8 k / 8)) by
      rw [Nat.mul_comm 8 nn, Nat.mul_assoc], hup]
    simp only [mulRegs]; push_cast; rfl
  have hfix := hM.fixed
  obtain ⟨l, el, hl'⟩ := htail s s1 hM.wr (hfix _ (by decide)) (hfix _ (by decide)) (hfix _ (by decide))
    (hfix _ (by decide))
  have hreads := kernReads_ok hrd (ok := e.inScratch) (s := s1)
    (by intro q hq; rw [hlhs]; exact hin _ (by omega) q (by omega))
    (by intro q hq; rw [hrhs]; exact hin _ (by omega) q (by omega)) e.f s hM.rd
  have hali : alignedIn (exec (machine e.f s) p.tail s1).al = true := by
    refine aligned_run hal e.f s ?_ rfl erun
    intro x hx
    cases harch : e.arch with
    | arm64 => rw [harch] at hx; simp [Arch.mulMult] at hx
    | arm32 =>
      rw [harch] at hx
      simp only [Arch.mulMult, mulMult32, List.mem_cons, List.not_mem_nil, or_false] at hx
      rcases hx with rfl | rfl
      · exact gcd32_dvd (al harch)
      · exact gcd32_dvd (ar harch)
  have htot : ∀ i j, i < mm → j < nn → total s s1 nn i j = entryWord (a i) (b j) k lm la rm ra := by
    intro i j hi hj
    unfold total
    have h1 := hl.sums i hi
    have h2 := hr.sums j hj
    rw [hM.acc i hi j hj, hlhs, hrhs, show (((pl + mm * up8 k : Nat) : Int)) = (pl : Int) + (mm * up8 k : Nat) by
      push_cast; rfl, show (((pr + nn * up8 k : Nat) : Int)) = (pr : Int) + (nn * up8 k : Nat) by push_cast; rfl, h1, h2,
      hup, sumTo_padded]
    rfl
  refine ⟨_, by
    unfold mulAsm
    rw [hp]
    dsimp only
    rw [erun]
    dsimp only
    rw [el]
    dsimp only
    rw [hali, hreads]
    rfl, ?_⟩
  intro x
  simp only [List.mem_map]
  have hres : s1.x .result = res := hfix _ (by decide)
  have hstr : s1.x .stride = stride := hfix _ (by decide)
  have hnat : ∀ i j : Nat, ((res : Int) + i * stride + (outSize * j : Nat)).toNat = res + i * stride + j * outSize := by
    intro i j
    rw [Nat.mul_comm outSize j]
    have : (res : Int) + i * stride + (j * outSize : Nat) = (res + i * stride + j * outSize : Nat) := by push_cast; rfl
    rw [this]; exact Int.toNat_natCast _
  constructor
  · rintro ⟨y, hy, rfl⟩
    obtain ⟨i, j, hi, hj, rfl⟩ := (hl' y).1 hy
    refine ⟨i, j, hi, hj, ?_⟩
    rw [htot i j hi hj, hres, hstr, hnat]
  · rintro ⟨i, j, hi, hj, rfl⟩
    refine ⟨_, (hl' _).2 ⟨i, j, hi, hj, rfl⟩, ?_⟩
    rw [htot i j hi hj, hres, hstr, hnat]

/-! ## The operations -/

/-- What the contents of scratch memory mean, and what an entry is. -/
def contractAsm {β : Type} (e : Env) (left right : StreamParams) (g : BitVec 32 → β) : Contract (Int → BitVec 8) β where
  L s addr lanes src := (e.arch = .arm32 → addr % 32 = 0) ∧ e.base ≤ addr ∧ addr + left.packedStride 1 lanes 8 ≤ e.cap ∧ 0 < lanes ∧ lanes ≤ 8 ∧
    MetaAsm.Packed s addr lanes left.count (elem e left src) left.multiplicativeSumOffset left.additiveSumOffset
  R s addr lanes src := (e.arch = .arm32 → addr % 32 = 0) ∧ e.base ≤ addr ∧ addr + right.packedStride 1 lanes 8 ≤ e.cap ∧ 0 < lanes ∧ lanes ≤ 8 ∧
    MetaAsm.Packed s addr lanes right.count (elem e right src) right.multiplicativeSumOffset right.additiveSumOffset
  readL a := ∀ q, q < left.count → e.readable (a + q * left.elemStep : Nat) = true
  readR a := ∀ q, q < right.count → e.readable (a + q * right.elemStep : Nat) = true
  val l r := g (entryWord (fun q => e.mem (l + q * left.elemStep : Nat))
    (fun q => e.mem (r + q * right.elemStep : Nat)) left.count left.multiplicativeSumOffset left.additiveSumOffset
    right.multiplicativeSumOffset right.additiveSumOffset)

theorem packed_kept {s s' : Int → BitVec 8} {p q : StreamParams} {dst lanes a n : Nat} {src : Nat → Nat → BitVec 8}
    {mul add : Int} (hq : q.WithSum) (hn : n ≤ 8)
    (hs : ∀ b, ¬((dst : Int) ≤ b ∧ b < (dst + p.packedStride 1 lanes 8 : Nat)) → s' b = s b)
    (h : Apart dst (p.packedStride 1 lanes 8) a (q.packedStride 1 n 8)) (hp : MetaAsm.Packed s a n q.count src mul add) :
    MetaAsm.Packed s' a n q.count src mul add := by
  unfold Apart at h
  refine packed_of_eq hp (packed_fits hq _) hn ?_
  intro b h1 h2
  apply hs
  omega

/-- **The generated code does what the drivers need** (`MetaOps.Meets`). -/
theorem opsAsm_meets {β : Type} {e : Env} {K : KernelAsm β} {outSize : Nat} {g : BitVec 32 → β}
    (hK : KernelMeets e K outSize g) (ha : e.Aligned) {left right out : StreamParams} {k : Nat} (hl : left.WithSum) (hr : right.WithSum)
    (kl : left.count = k) (kr : right.count = k) (hk : 0 < k) {t : Tile} (ht : t.k = 8)
    (hkl : t.kLeft = k % 8) (hm8 : t.m ≤ 8) (hn8 : t.n ≤ 8)
    (hsz : ∀ mm nn, 0 < mm → mm ≤ t.m → 0 < nn → nn ≤ t.n → (mm, nn) ∈ kernSizes) :
    (opsAsm e K k left right out).Meets (contractAsm e left right g) left right out outSize t e.base e.cap where
  packLeft := by
    intro lanes src dst s h0 hm hrd hd hc
    obtain ⟨q, hq⟩ := hd
    rw [ht] at hc ⊢
    have hal : e.arch = .arm32 → dst % 32 = 0 := fun h => by have := ha h; omega
    obtain ⟨s', e1, h1, h2⟩ := packAsm_spec (e := e) (src := src) hl (by omega) h0 (by omega) (fun h => gcd32_mod (hal h)) (by omega) hc hrd s
    refine ⟨s', ?_, ⟨hal, by omega, hc, h0, by omega, h1⟩, ?_, ?_⟩
    · show packAsm e left lanes t.kLeft src dst s = _
      rw [hkl, ← kl]; exact e1
    · rintro a n x hap ⟨b0, b1, b2, b3, b4, b5⟩
      exact ⟨b0, b1, b2, b3, b4, packed_kept hl b4 h2 hap b5⟩
    · rintro a n x hap ⟨b0, b1, b2, b3, b4, b5⟩
      exact ⟨b0, b1, b2, b3, b4, packed_kept hr b4 h2 hap b5⟩
  packRight := by
    intro lanes src dst s h0 hm hrd hd hc
    obtain ⟨q, hq⟩ := hd
    rw [ht] at hc ⊢
    have hal : e.arch = .arm32 → dst % 32 = 0 := fun h => by have := ha h; omega
    obtain ⟨s', e1, h1, h2⟩ := packAsm_spec (e := e) (src := src) hr (by omega) h0 (by omega) (fun h => gcd32_mod (hal h)) (by omega) hc hrd s
    refine ⟨s', ?_, ⟨hal, by omega, hc, h0, by omega, h1⟩, ?_, ?_⟩
    · show packAsm e right lanes t.kLeft src dst s = _
      rw [hkl, ← kr]; exact e1
    · rintro a n x hap ⟨b0, b1, b2, b3, b4, b5⟩
      exact ⟨b0, b1, b2, b3, b4, packed_kept hl b4 h2 hap b5⟩
    · rintro a n x hap ⟨b0, b1, b2, b3, b4, b5⟩
      exact ⟨b0, b1, b2, b3, b4, packed_kept hr b4 h2 hap b5⟩
  mul := by
    rintro mm nn pl pr res ls rs s hm0 hm hn0 hn ⟨l0, l1, l2, l3, l4, l5⟩ ⟨r0, r1, r2, r3, r4, r5⟩
    have hf1 := packed_fits hl mm
    have hf2 := packed_fits hr nn
    rw [kl] at l5 hf1
    rw [kr] at r5 hf2
    obtain ⟨l, el, h⟩ := mulAsm_spec (stride := out.stride) (res := res) hK (hsz mm nn hm0 hm hn0 hn) hk l5 r5 l0 r0 l1 (by omega) r1
      (by omega)
    refine ⟨l, el, fun x => ?_⟩
    rw [h]
    unfold Entry contractAsm
    rw [kl]
    rfl

end Gemmlowp.Meta
