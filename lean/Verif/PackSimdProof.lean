import Verif.PackSimd
import Verif.PackEffect
import Verif.Vec128Proof
/-!
# Packing with vector instructions has the effect of the generic packing: SSE4 and AVX2
-/
namespace Gemmlowp.PackSimd

open Vec (VReg ofH ofS ofD s_ofS h_ofH)

/-- A loop with a known number of iterations. -/
theorem forLoop_n {σ : Type} {lo hi step n : Nat} {f : Nat → σ → M σ} {s : σ}
    (Inv : Nat → σ → Prop) (hstep : 0 < step) (hn : lo + step * n = hi) (h0 : Inv 0 s)
    (hbody : ∀ k s, k < n → Inv k s → ∃ s', f (lo + step * k) s = .ok s' ∧ Inv (k + 1) s') :
    ∃ s', forLoop lo hi step f s = .ok s' ∧ Inv n s' := by
  have mono : ∀ {a b : Nat}, step * a < step * b → a < b := fun h => Nat.lt_of_mul_lt_mul_left h
  obtain ⟨s', k, h1, h2, h3, k', e, -, h4⟩ := forLoop_inv (lo := lo) (hi := hi) (step := step) (f := f)
    (s := s) (fun x s => ∃ k, x = lo + step * k ∧ k ≤ n ∧ Inv k s) hstep ⟨0, by simp, Nat.zero_le _, h0⟩
    (by
      intro k s hk ⟨k', e, h5, h6⟩
      have ek : k = k' := Nat.eq_of_mul_eq_mul_left hstep (by omega)
      subst ek
      have hkn : k < n := mono (by omega)
      obtain ⟨s', a1, a2⟩ := hbody k s hkn h6
      exact ⟨s', a1, k + 1, rfl, hkn, a2⟩)
  have ek : k = k' := Nat.eq_of_mul_eq_mul_left hstep (by omega)
  subst ek
  have : k = n := by
    have a1 : n ≤ k := Nat.le_of_mul_le_mul_left (by omega) hstep
    rcases h3 with h3 | h3
    · omega
    · have := mono (a := k - 1) (b := n) (by omega)
      omega
  subst this
  exact ⟨s', h1, h4⟩

theorem bind_of_ok {α β : Type} {x : M α} {a : α} {k : α → M β} {r : M β} (h : x = .ok a)
    (hr : k a = r := by rfl) : x >>= k = r := by rw [h, ok_bind]; exact hr

/-! ## Loads and stores -/

theorem loadBytes_ok {mem : Mem} {a n : Nat} {g : Nat → UInt8} (h : ∀ i, i < n → mem (a + i) = some (g i)) :
    ∃ v, loadBytes mem a n = .ok v ∧ ∀ i, i < n → v i = (g i).toBitVec := by
  refine ⟨_, if_pos fun i => by rw [h i i.2]; rfl, ?_⟩
  intro i hi
  show (if _ then _ else _) = _
  rw [if_pos hi, h i hi]; rfl

/-- The `n` bytes from `dst` on are now those of `g`; nothing else has changed. -/
structure Wrote (data : Buf UInt8) (dst n : Nat) (g : Nat → BitVec 8) (data' : Buf UInt8) : Prop where
  size : data'.size = data.size
  get : ∀ a, data'.get a = if dst ≤ a ∧ a < dst + n then UInt8.ofBitVec (g (a - dst)) else data.get a

theorem storeBytes_ok {b : Buf UInt8} {a n : Nat} {v : VReg} (h : a + n ≤ b.size) :
    ∃ b', storeBytes b a n v = .ok b' ∧ Wrote b a n v b' :=
  ⟨_, if_pos h, rfl, fun _ => rfl⟩

theorem loadWords_ok {b : Buf (BitVec 32)} {a n : Nat} (h : a + n ≤ b.size) :
    loadWords b a n = .ok (ofS fun i => b.get (a + i)) := if_pos h

theorem storeWords_ok {b : Buf (BitVec 32)} {a n : Nat} {v : VReg} (h : a + n ≤ b.size) :
    ∃ b', storeWords b a n v = .ok b' ∧ b'.size = b.size ∧
      (∀ i, i < n → b'.get (a + i) = v.s i) ∧ ∀ x, (x < a ∨ a + n ≤ x) → b'.get x = b.get x := by
  refine ⟨_, if_pos h, rfl, ?_, ?_⟩
  · intro i hi
    show (if _ then _ else _) = _
    rw [if_pos ⟨by omega, by omega⟩, Nat.add_sub_cancel_left]
  · intro x hx
    show (if _ then _ else _) = _
    rw [if_neg (by omega)]

/-! ## Numbers in lanes -/

theorem u8_16 (x : BitVec 8) : x.setWidth 16 = BitVec.ofNat 16 x.toNat := by
  apply BitVec.eq_of_toNat_eq
  rw [BitVec.toNat_setWidth, BitVec.toNat_ofNat]

theorem u16_32 {n : Nat} (h : n < 65536) : (BitVec.ofNat 16 n).setWidth 32 = BitVec.ofNat 32 n := by
  apply BitVec.eq_of_toNat_eq
  rw [BitVec.toNat_setWidth, BitVec.toNat_ofNat, BitVec.toNat_ofNat]
  omega

theorem ofNat_add16 (a b : Nat) : BitVec.ofNat 16 a + BitVec.ofNat 16 b = BitVec.ofNat 16 (a + b) :=
  (BitVec.ofNat_add a b).symm

theorem ofNat_add32 (a b : Nat) : BitVec.ofNat 32 a + BitVec.ofNat 32 b = BitVec.ofNat 32 (a + b) :=
  (BitVec.ofNat_add a b).symm

theorem toNat8_lt (x : BitVec 8) : x.toNat < 256 := x.isLt

theorem madd_one (x : BitVec 8) :
    (x.setWidth 16).signExtend 32 * (1#16).signExtend 32 = BitVec.ofNat 32 x.toNat := by
  have e : (1#16).signExtend 32 = 1#32 := by decide
  rw [e, BitVec.mul_one]
  apply BitVec.eq_of_toInt_eq
  rw [BitVec.toInt_signExtend_of_le (by decide), BitVec.toInt_eq_toNat_cond, BitVec.toInt_eq_toNat_cond,
    BitVec.toNat_setWidth, BitVec.toNat_ofNat]
  have := x.isLt
  rw [if_pos (by omega), if_pos (by omega)]
  omega

/-- The sums of pairs of bytes. -/
theorem madd_cvt (v : VReg) (i : Nat) :
    (madd_epi16 (cvtepu8_epi16 v) (set1_epi16 1#16)).s i =
      BitVec.ofNat 32 ((v (2 * i)).toNat + (v (2 * i + 1)).toNat) := by
  unfold madd_epi16 cvtepu8_epi16 set1_epi16
  rw [s_ofS, h_ofH, h_ofH, h_ofH, h_ofH, madd_one, madd_one, ofNat_add32]

theorem unwrap_u8 {f : SideFormat} (h : f.scalar = .uint8) (b : UInt8) :
    f.unwrap b = (b.toNat : Int) := by
  unfold SideFormat.unwrap SideFormat.zp SideFormat.input
  rw [h]; exact Int.sub_zero _

theorem toByte_u8 {f : SideFormat} (h : f.scalar = .uint8) (b : UInt8) : toByte (f.unwrap b) = b := by
  rw [unwrap_u8 h]
  unfold toByte
  have := b.toNat_lt
  apply UInt8.toNat_inj.1
  rw [UInt8.toNat_ofNat']
  omega

theorem ofBitVec_toBitVec (b : UInt8) : UInt8.ofBitVec b.toBitVec = b := rfl

theorem toNat_toBitVec (b : UInt8) : b.toBitVec.toNat = b.toNat := rfl

theorem ofNat_ofInt (n : Nat) : BitVec.ofNat 32 n = BitVec.ofInt 32 (n : Int) :=
  (BitVec.ofInt_natCast 32 n).symm

/-! ## Rows of cells -/

section
variable {f : SideFormat} {B : Nat → Nat → UInt8}

/-- Several cells at once. -/
theorem _root_.Gemmlowp.CellsDone.steps {reg : Nat} (hf : f.WF reg) {p0 : Nat} {data0 data data' : Buf UInt8}
    {S T : Nat → Prop} (h : CellsDone f B p0 data0 S data) (hsz : data'.size = data.size)
    (hin : ∀ c w d, T c → w < f.cw → d < f.cd → data'.get (p0 + c * f.cellSize + cellOff f w d) =
      toByte (f.unwrap (B (f.cw * (c % f.cells) + w) (f.cd * (c / f.cells) + d))))
    (hout : ∀ a, (∀ c, T c → a < p0 + c * f.cellSize ∨ p0 + c * f.cellSize + f.cellSize ≤ a) →
      data'.get a = data.get a) :
    CellsDone f B p0 data0 (fun x => S x ∨ T x) data' := by
  refine ⟨hsz.trans h.size, ?_, ?_⟩
  · intro x w d hx hw hd
    by_cases hT : T x
    · exact hin x w d hT hw hd
    · have hS : S x := hx.resolve_right hT
      have h1 := cellOff_lt hf hw hd
      rw [hout _ ?_, h.done x w d hS hw hd]
      intro c hc
      have : x ≠ c := fun e => hT (e ▸ hc)
      have := cell_apart (s := f.cellSize) this
      omega
  · intro a ha
    rw [hout a fun c hc => ha c (Or.inr hc), h.rest a fun x hx => ha x (Or.inl hx)]

/-- What the body of the inner loop of the SSE4 and AVX2 code does: `G` cells below each other. -/
def BodyOk (f : SideFormat) (G : Nat)
    (body : Mem → SideMap → Nat → Nat → Nat → Nat → PackedSide → M PackedSide) : Prop :=
  ∀ (mem : Mem) (src : SideMap) (B : Nat → Nat → UInt8) (sw csd csw dst : Nat) (ps : PackedSide),
    SrcIs mem src B → src.order = .widthMajor → csw + f.cw ≤ src.width → csd + 2 * G ≤ src.depth →
    dst + (G - 1) * (f.cells * f.cellSize) + f.cellSize ≤ ps.data.size → sw + csw + f.cw ≤ ps.sums.size →
    ∃ data' sums', body mem src sw csd csw dst ps = .ok { ps with data := data', sums := sums' } ∧
      data'.size = ps.data.size ∧
      (∀ k w d, k < G → w < f.cw → d < 2 →
        data'.get (dst + k * (f.cells * f.cellSize) + cellOff f w d) =
          toByte (f.unwrap (B (csw + w) (csd + 2 * k + d)))) ∧
      (∀ a, (∀ k, k < G → a < dst + k * (f.cells * f.cellSize) ∨
        dst + k * (f.cells * f.cellSize) + f.cellSize ≤ a) → data'.get a = ps.data.get a) ∧
      sums'.size = ps.sums.size ∧
      (∀ i, i < f.cw → sums'.get (sw + (csw + i)) = ps.sums.get (sw + (csw + i)) +
        BitVec.ofInt 32 (sumTo (2 * G) fun d => f.unwrap (B (csw + i) (csd + d)))) ∧
      ∀ a, (a < sw + csw ∨ sw + csw + f.cw ≤ a) → sums'.get a = ps.sums.get a

theorem grid_effect {reg G K : Nat} (hf : f.WF reg) (hcd : f.cd = 2) (hG : 0 < G)
    (hreg : reg = 2 * G * K)
    {body : Mem → SideMap → Nat → Nat → Nat → Nat → PackedSide → M PackedSide} (hb : BodyOk f G body)
    {mem : Mem} {src : SideMap} {sw : Nat} {ps : PackedSide} (hs : SrcIs mem src B)
    (ho : src.order = .widthMajor) (hw : src.width = f.kw) (hd : src.depth = reg)
    (hdata : ps.pos + f.kw * reg ≤ ps.data.size) (hsums : sw + f.kw ≤ ps.sums.size) :
    ∃ st, forLoop 0 reg (2 * G) (fun csd (st : PackedSide × Nat) => do
        let (ps, dstPtr) ← forLoop 0 f.kw f.cw (fun csw (st : PackedSide × Nat) => do
          let ps ← body mem src sw csd csw st.2 st.1
          pure (ps, st.2 + f.cellSize)) st
        pure (ps, dstPtr + (G - 1) * f.cellSize * f.cells)) (ps, ps.pos) = .ok st ∧
      BlockEffect f reg B sw ps { st.1 with pos := ps.pos + f.cells * reg / 2 * f.cellSize } := by
  have hcs : 0 < f.cellSize := Nat.mul_pos hf.cw_pos hf.cd_pos
  have hcells := hf.cells_pos
  have hsize : f.kw * reg = G * K * (f.cells * f.cellSize) := by
    rw [hreg]; unfold SideFormat.kw SideFormat.cellSize; rw [hcd]
    simp only [Nat.mul_left_comm, Nat.mul_comm, Nat.mul_assoc]
  obtain ⟨st, e, i1, i2, i3⟩ := forLoop_n (n := K) (s := (ps, ps.pos))
    (f := fun csd (st : PackedSide × Nat) => do
        let (ps, dstPtr) ← forLoop 0 f.kw f.cw (fun csw (st : PackedSide × Nat) => do
          let ps ← body mem src sw csd csw st.2 st.1
          pure (ps, st.2 + f.cellSize)) st
        pure (ps, dstPtr + (G - 1) * f.cellSize * f.cells))
    (fun a st => CellsDone f B ps.pos ps.data (fun c => c < G * a * f.cells) st.1.data ∧
      SumsAt f B sw f.kw ps.sums (fun _ => 2 * G * a) st.1.sums ∧
      st.2 = ps.pos + G * a * (f.cells * f.cellSize))
    (lo := 0) (hi := reg) (step := 2 * G) (by omega) (by omega)
    ⟨CellsDone.init _ _ (fun c => by simp), SumsAt.init _ _ _ (fun _ => rfl), by simp⟩
    (by
      intro a st ha ⟨i1, i2, i3⟩
      have ha1 : G * (a + 1) ≤ G * K := Nat.mul_le_mul_left G ha
      have ha2 := Nat.mul_le_mul_right (f.cells * f.cellSize) ha1
      have ha3 : G * (a + 1) * (f.cells * f.cellSize) = G * a * (f.cells * f.cellSize) +
          (G - 1) * (f.cells * f.cellSize) + f.cells * f.cellSize := by
        rw [Nat.mul_add, Nat.mul_one, Nat.add_mul]
        have : G * (f.cells * f.cellSize) = (G - 1 + 1) * (f.cells * f.cellSize) := by
          rw [show G - 1 + 1 = G by omega]
        rw [this, Nat.add_mul, Nat.one_mul]; omega
      obtain ⟨⟨st1, dst1⟩, e1, j1, j2, j3⟩ := forLoop_n (n := f.cells) (s := st)
        (f := fun csw (st : PackedSide × Nat) => do
          let ps ← body mem src sw (0 + 2 * G * a) csw st.2 st.1
          pure (ps, st.2 + f.cellSize))
        (fun b st => CellsDone f B ps.pos ps.data (fun c => c < G * a * f.cells ∨
            (G * a * f.cells ≤ c ∧ c < G * (a + 1) * f.cells ∧ c % f.cells < b)) st.1.data ∧
          SumsAt f B sw f.kw ps.sums (fun w => if w < f.cw * b then 2 * G * (a + 1) else 2 * G * a)
            st.1.sums ∧
          st.2 = ps.pos + G * a * (f.cells * f.cellSize) + b * f.cellSize)
        (lo := 0) (hi := f.kw) (step := f.cw) hf.cw_pos (by unfold SideFormat.kw; omega)
        ⟨i1.congr fun c => by simp, i2.congr fun w _ => by simp, by rw [i3]; simp⟩
        (by
          intro b st hb' ⟨j1, j2, j3⟩
          have hb1 : f.cw * (b + 1) ≤ f.cw * f.cells := Nat.mul_le_mul_left _ hb'
          have hb2 : (b + 1) * f.cellSize ≤ f.cells * f.cellSize := Nat.mul_le_mul_right _ hb'
          have hkw : f.kw = f.cw * f.cells := rfl
          have ha4 : 2 * G * (a + 1) ≤ reg := by
            rw [hreg, Nat.mul_assoc, Nat.mul_assoc]; exact Nat.mul_le_mul_left 2 ha1
          rw [Nat.mul_add, Nat.mul_one] at hb1 ha4
          rw [Nat.add_mul, Nat.one_mul] at hb2
          obtain ⟨data', sums', e2, k1, k2, k3, k4, k5, k6⟩ := hb mem src B sw (0 + 2 * G * a)
            (0 + f.cw * b) st.2 st.1 hs ho (by omega) (by omega)
            (by rw [j1.size, j3]; omega) (by rw [j2.size]; omega)
          simp only [Nat.zero_add] at k2 k3 k5 k6 e2 ⊢
          have hdiv : ∀ k, k < G → ((G * a + k) * f.cells + b) % f.cells = b ∧
              ((G * a + k) * f.cells + b) / f.cells = G * a + k := by
            intro k _
            constructor
            · rw [Nat.mul_comm, Nat.mul_add_mod]; exact Nat.mod_eq_of_lt hb'
            · rw [Nat.mul_comm, Nat.mul_add_div hcells, Nat.div_eq_of_lt hb']; rfl
          have haddr : ∀ k, ps.pos + ((G * a + k) * f.cells + b) * f.cellSize =
              st.2 + k * (f.cells * f.cellSize) := by
            intro k
            rw [j3, Nat.add_mul, Nat.add_mul, Nat.add_mul]
            simp only [Nat.mul_assoc]; omega
          refine ⟨_, by rw [e2, ok_bind]; rfl, ?_, ?_, ?_⟩
          · refine (j1.steps hf (T := fun c => ∃ k, k < G ∧ c = (G * a + k) * f.cells + b) k1 ?_ ?_).congr ?_
            · rintro c w d ⟨k, hk, rfl⟩ hw' hd'
              rw [hcd] at hd'
              rw [haddr, k2 k w d hk hw' hd', (hdiv k hk).1, (hdiv k hk).2, hcd, Nat.mul_add,
                ← Nat.mul_assoc]
            · intro x hx
              refine k3 x fun k hk => ?_
              have := hx _ ⟨k, hk, rfl⟩
              rw [haddr] at this; exact this
            · intro c
              constructor
              · rintro ((h | h) | ⟨k, hk, rfl⟩)
                · exact Or.inl h
                · exact Or.inr ⟨h.1, h.2.1, by omega⟩
                · right
                  rw [(hdiv k hk).1]
                  have h1 : (G * a + k + 1) * f.cells ≤ G * (a + 1) * f.cells :=
                    Nat.mul_le_mul_right _ (by rw [Nat.mul_add]; omega)
                  have h2 : G * a * f.cells ≤ (G * a + k) * f.cells :=
                    Nat.mul_le_mul_right _ (by omega)
                  rw [Nat.add_mul _ 1, Nat.one_mul] at h1
                  exact ⟨by omega, by omega, by omega⟩
              · rintro (h | ⟨h1, h2, h3⟩)
                · exact Or.inl (Or.inl h)
                · by_cases hcb : c % f.cells < b
                  · exact Or.inl (Or.inr ⟨h1, h2, hcb⟩)
                  · right
                    have q1 : G * a ≤ c / f.cells := by
                      rw [Nat.le_div_iff_mul_le hcells]; exact h1
                    have q2 : c / f.cells < G * (a + 1) := by
                      rw [Nat.div_lt_iff_lt_mul hcells]; exact h2
                    rw [Nat.mul_add] at q2
                    refine ⟨c / f.cells - G * a, by omega, ?_⟩
                    rw [show G * a + (c / f.cells - G * a) = c / f.cells by omega]
                    have := Nat.div_add_mod c f.cells
                    rw [Nat.mul_comm] at this
                    omega
          · have := j2.step (w0 := f.cw * b) (k := f.cw) (t := 2 * G) (by omega) k4
              (by
                intro i hi
                rw [if_neg (by omega)]
                exact k5 i hi)
              (by intro x hx; exact k6 x (by omega))
            refine this.congr fun w _ => ?_
            rw [Nat.mul_add, Nat.mul_one, Nat.mul_add]
            by_cases h1 : w < f.cw * b
            · rw [if_pos (by omega), if_neg (by omega), if_pos h1]
            · by_cases h2 : w < f.cw * b + f.cw
              · rw [if_pos h2, if_pos (by omega), if_neg h1, Nat.mul_one]
              · rw [if_neg h2, if_neg (by omega), if_neg h1]
          · show st.2 + f.cellSize = _
            rw [j3, Nat.add_mul, Nat.one_mul]; omega)
      refine ⟨_, by rw [e1, ok_bind]; rfl, ?_, ?_, ?_⟩
      · refine j1.congr fun c => ?_
        have h2 : G * a * f.cells ≤ G * (a + 1) * f.cells :=
          Nat.mul_le_mul_right _ (by rw [Nat.mul_add]; omega)
        have h3 := Nat.mod_lt c hcells
        constructor
        · rintro (h | h) <;> omega
        · intro h
          by_cases hc : c < G * a * f.cells
          · exact Or.inl hc
          · exact Or.inr ⟨by omega, h, h3⟩
      · exact j2.congr fun w hw' => by rw [if_pos (show w < f.cw * f.cells from hw')]
      · show dst1 + (G - 1) * f.cellSize * f.cells = _
        dsimp only at j3
        have : (G - 1) * f.cellSize * f.cells = (G - 1) * (f.cells * f.cellSize) := by
          rw [Nat.mul_assoc, Nat.mul_comm f.cellSize]
        rw [ha3, j3, this]; omega)
  refine ⟨st, e, effect_of_done hf ?_ ?_ ?_⟩
  · refine i1.congr fun c => ?_
    rw [hcd, hreg, show 2 * G * K / 2 = G * K by rw [Nat.mul_assoc]; omega]
  · exact i2.congr fun w _ => hreg
  · show ps.pos + f.cells * reg / 2 * f.cellSize = _
    rw [hsize, hreg, show f.cells * (2 * G * K) / 2 = G * K * f.cells by
      rw [show f.cells * (2 * G * K) = 2 * (G * K * f.cells) by
        simp only [Nat.mul_left_comm, Nat.mul_comm, Nat.mul_assoc]]; omega, Nat.mul_assoc]

/-! ## SSE4 -/

/-- Where the bytes of the rows go: cell `k` holds depths `2 k` and `2 k + 1`. -/
theorem sseCells_bytes (x : Nat → VReg) (w d : Nat) (hw : w < 4) (hd : d < 2) :
    (sseCells (x 0) (x 1) (x 2) (x 3)).1 (w * 2 + d) = x w d ∧
    (sseCells (x 0) (x 1) (x 2) (x 3)).2.1 (w * 2 + d) = x w (2 + d) ∧
    (sseCells (x 0) (x 1) (x 2) (x 3)).2.2.1 (w * 2 + d) = x w (4 + d) ∧
    (sseCells (x 0) (x 1) (x 2) (x 3)).2.2.2 (w * 2 + d) = x w (6 + d) := by
  interval_cases w <;> interval_cases d <;> exact ⟨rfl, rfl, rfl, rfl⟩

theorem cellOff_wm (h : f.order = .widthMajor) (hcd : f.cd = 2) (w d : Nat) :
    cellOff f w d = w * 2 + d := by
  unfold cellOff; rw [h]; simp only [hcd]; omega

/-- The row at width `w` from depth `csd` on can be loaded. -/
theorem loadRow {mem : Mem} {src : SideMap} (hs : SrcIs mem src B) (ho : src.order = .widthMajor)
    {csw csd w n : Nat} (hw : csw + w < src.width) (hd : csd + n ≤ src.depth) :
    ∃ v, loadBytes mem (src.addr csw csd + w * src.widthStride) n = .ok v ∧
      ∀ i, i < n → v i = (B (csw + w) (csd + i)).toBitVec := by
  refine loadBytes_ok fun i hi => ?_
  have := hs (csw + w) (csd + i) hw (by omega)
  rw [← this]
  congr 1
  unfold SideMap.addr SideMap.depthStride
  rw [ho]
  simp only
  rw [Nat.add_mul]; omega

theorem Wrote.inside {data data' : Buf UInt8} {dst n : Nat} {g : Nat → BitVec 8}
    (h : Wrote data dst n g data') {j : Nat} (hj : j < n) :
    data'.get (dst + j) = UInt8.ofBitVec (g j) := by
  rw [h.get, if_pos ⟨by omega, by omega⟩, Nat.add_sub_cancel_left]

theorem Wrote.outside {data data' : Buf UInt8} {dst n : Nat} {g : Nat → BitVec 8}
    (h : Wrote data dst n g data') {a : Nat} (ha : a < dst ∨ dst + n ≤ a) :
    data'.get a = data.get a := by
  rw [h.get, if_neg (by omega)]

/-- `k` stores of `n` bytes at distance `S`. -/
structure Strided (data : Buf UInt8) (dst S n : Nat) (y : Nat → VReg) (k : Nat) (data' : Buf UInt8) :
    Prop where
  size : data'.size = data.size
  inside : ∀ i j, i < k → j < n → data'.get (dst + i * S + j) = UInt8.ofBitVec (y i j)
  rest : ∀ a, (∀ i, i < k → a < dst + i * S ∨ dst + i * S + n ≤ a) → data'.get a = data.get a

theorem Strided.init (data : Buf UInt8) (dst S n : Nat) (y : Nat → VReg) :
    Strided data dst S n y 0 data :=
  ⟨rfl, fun _ _ h => absurd h (Nat.not_lt_zero _), fun _ _ => rfl⟩

theorem Strided.step {data d1 d2 : Buf UInt8} {dst S n k : Nat} {y : Nat → VReg} (hS : n ≤ S)
    (h : Strided data dst S n y k d1) (hw : Wrote d1 (dst + k * S) n (y k) d2) :
    Strided data dst S n y (k + 1) d2 := by
  refine ⟨hw.size.trans h.size, ?_, ?_⟩
  · intro i j hi hj
    by_cases hik : i = k
    · subst hik; exact hw.inside hj
    · have h1 : (i + 1) * S ≤ k * S := Nat.mul_le_mul_right S (by omega)
      rw [Nat.add_mul, Nat.one_mul] at h1
      rw [hw.outside (by omega), h.inside i j (by omega) hj]
  · intro a ha
    rw [hw.outside (ha k (by omega)), h.rest a fun i hi => ha i (by omega)]

theorem sseBody_ok {reg : Nat} (hf : f.WF reg) (hcw : f.cw = 4) (hcd : f.cd = 2)
    (ho : f.order = .widthMajor) (hu : f.scalar = .uint8) : BodyOk f 4 (sseBody f.cells) := by
  intro mem src B sw csd csw dst ps hs hso hw hd hdst hsums
  have hcs : f.cellSize = 8 := by unfold SideFormat.cellSize; rw [hcw, hcd]
  have hc := hf.cells_pos
  rw [hcs] at hdst
  rw [hcw] at hw hsums
  obtain ⟨x0, l0, r0⟩ := loadRow hs hso (csw := csw) (csd := csd) (w := 0) (n := 8) (by omega) (by omega)
  obtain ⟨x1, l1, r1⟩ := loadRow hs hso (csw := csw) (csd := csd) (w := 1) (n := 8) (by omega) (by omega)
  obtain ⟨x2, l2, r2⟩ := loadRow hs hso (csw := csw) (csd := csd) (w := 2) (n := 8) (by omega) (by omega)
  obtain ⟨x3, l3, r3⟩ := loadRow hs hso (csw := csw) (csd := csd) (w := 3) (n := 8) (by omega) (by omega)
  rw [Nat.zero_mul, Nat.add_zero] at l0
  obtain ⟨y, hy⟩ : ∃ y : Nat → VReg, sseCells x0 x1 x2 x3 = (y 0, y 1, y 2, y 3) ∧
      ∀ k w d, k < 4 → w < 4 → d < 2 → y k (w * 2 + d) = (B (csw + w) (csd + 2 * k + d)).toBitVec := by
    have hb := sseCells_bytes fun w => if w = 0 then x0 else if w = 1 then x1 else if w = 2 then x2 else x3
    have hx : ∀ w i, w < 4 → i < 8 →
        (if w = 0 then x0 else if w = 1 then x1 else if w = 2 then x2 else x3) i =
          (B (csw + w) (csd + i)).toBitVec := by
      intro w i hw hi
      interval_cases w
      · exact r0 i hi
      · exact r1 i hi
      · exact r2 i hi
      · exact r3 i hi
    refine ⟨fun k => if k = 0 then (sseCells x0 x1 x2 x3).1 else if k = 1 then
      (sseCells x0 x1 x2 x3).2.1 else if k = 2 then (sseCells x0 x1 x2 x3).2.2.1 else
      (sseCells x0 x1 x2 x3).2.2.2, rfl, ?_⟩
    intro k w d hk hw hd
    have hb := hb w d hw hd
    interval_cases k
    · exact hb.1.trans (hx w _ hw (by omega))
    · exact hb.2.1.trans ((hx w _ hw (by omega)).trans (by rw [Nat.add_assoc]))
    · exact hb.2.2.1.trans ((hx w _ hw (by omega)).trans (by rw [Nat.add_assoc]))
    · exact hb.2.2.2.trans ((hx w _ hw (by omega)).trans (by rw [Nat.add_assoc]))
  obtain ⟨hy0, hy⟩ := hy
  have hS : 8 ≤ f.cells * 8 := by omega
  obtain ⟨d1, e1, w1⟩ := storeBytes_ok (b := ps.data) (a := dst) (n := 8) (v := y 0) (by omega)
  obtain ⟨d2, e2, w2⟩ := storeBytes_ok (b := d1) (a := dst + 8 * f.cells) (n := 8) (v := y 1)
    (by rw [w1.size]; omega)
  obtain ⟨d3, e3, w3⟩ := storeBytes_ok (b := d2) (a := dst + 2 * 8 * f.cells) (n := 8) (v := y 2)
    (by rw [w2.size, w1.size]; omega)
  obtain ⟨d4, e4, w4⟩ := storeBytes_ok (b := d3) (a := dst + 3 * 8 * f.cells) (n := 8) (v := y 3)
    (by rw [w3.size, w2.size, w1.size]; omega)
  have st : Strided ps.data dst (f.cells * 8) 8 y 4 d4 := by
    refine Strided.step hS (Strided.step hS (Strided.step hS (Strided.step hS
      (Strided.init _ _ _ _ _) (d2 := d1) ?_) (d2 := d2) ?_) (d2 := d3) ?_) ?_
    · rw [Nat.zero_mul, Nat.add_zero]; exact w1
    · rw [show dst + (0 + 1) * (f.cells * 8) = dst + 8 * f.cells by omega]; exact w2
    · rw [show dst + (0 + 1 + 1) * (f.cells * 8) = dst + 2 * 8 * f.cells by omega]; exact w3
    · rw [show dst + (0 + 1 + 1 + 1) * (f.cells * 8) = dst + 3 * 8 * f.cells by omega]; exact w4
  obtain ⟨sums', e5, s1, s2, s3⟩ := storeWords_ok (b := ps.sums) (a := sw + csw) (n := 4)
    (v := add_epi32 (add_epi32 (add_epi32 (add_epi32 (ofS fun i => ps.sums.get (sw + csw + i))
      (madd_epi16 (cvtepu8_epi16 (y 0)) (set1_epi16 1#16)))
      (madd_epi16 (cvtepu8_epi16 (y 1)) (set1_epi16 1#16)))
      (madd_epi16 (cvtepu8_epi16 (y 2)) (set1_epi16 1#16)))
      (madd_epi16 (cvtepu8_epi16 (y 3)) (set1_epi16 1#16))) (by omega)
  refine ⟨d4, sums', ?_, st.size, ?_, ?_, s1, ?_, ?_⟩
  · unfold sseBody
    dsimp only
    rw [l0, ok_bind, l1, ok_bind, l2, ok_bind, l3, ok_bind, hy0]
    dsimp only
    rw [e1, ok_bind, e2, ok_bind, e3, ok_bind, e4, ok_bind, loadWords_ok (by omega), ok_bind, e5, ok_bind]
    rfl
  · intro k w d hk hw' hd'
    rw [hcw] at hw'
    rw [hcs, cellOff_wm ho hcd, st.inside k _ hk (by omega), hy k w d hk hw' hd', toByte_u8 hu,
      ofBitVec_toBitVec]
  · intro a ha
    rw [hcs] at ha
    exact st.rest a ha
  · intro i hi
    rw [hcw] at hi
    have hp : ∀ k, k < 4 → (madd_epi16 (cvtepu8_epi16 (y k)) (set1_epi16 1#16)).s i =
        BitVec.ofInt 32 (f.unwrap (B (csw + i) (csd + (2 * k))) +
          f.unwrap (B (csw + i) (csd + (2 * k + 1)))) := by
      intro k hk
      have h0 := hy k i 0 hk hi (by omega)
      have h1 := hy k i 1 hk hi (by omega)
      rw [madd_cvt, Nat.mul_comm 2 i, show i * 2 = i * 2 + 0 from rfl, h0, h1, toNat_toBitVec,
        toNat_toBitVec, unwrap_u8 hu, unwrap_u8 hu, ofNat_ofInt, Nat.add_assoc csd, Nat.add_zero]
      rfl
    rw [← Nat.add_assoc, s2 i hi]
    unfold add_epi32
    simp only [s_ofS]
    rw [hp 0 (by omega), hp 1 (by omega), hp 2 (by omega), hp 3 (by omega), BitVec.add_assoc,
      BitVec.add_assoc, BitVec.add_assoc, ← BitVec.ofInt_add, ← BitVec.ofInt_add, ← BitVec.ofInt_add]
    congr 2
    simp only [sumTo, Nat.reduceMul, Nat.reduceAdd]
    omega
  · intro a ha
    rw [hcw] at ha
    exact s3 a ha

/-! ## AVX2 -/

theorem avxCells_bytes (x : Nat → VReg) (w d : Nat) (hw : w < 8) (hd : d < 2) :
    (avxCells (x 0) (x 1) (x 2) (x 3) (x 4) (x 5) (x 6) (x 7)).1 (w * 2 + d) = x w (0 + d) ∧
    (avxCells (x 0) (x 1) (x 2) (x 3) (x 4) (x 5) (x 6) (x 7)).2.1 (w * 2 + d) = x w (2 + d) ∧
    (avxCells (x 0) (x 1) (x 2) (x 3) (x 4) (x 5) (x 6) (x 7)).2.2.1 (w * 2 + d) = x w (4 + d) ∧
    (avxCells (x 0) (x 1) (x 2) (x 3) (x 4) (x 5) (x 6) (x 7)).2.2.2.1 (w * 2 + d) = x w (6 + d) ∧
    (avxCells (x 0) (x 1) (x 2) (x 3) (x 4) (x 5) (x 6) (x 7)).2.2.2.2.1 (w * 2 + d) = x w (8 + d) ∧
    (avxCells (x 0) (x 1) (x 2) (x 3) (x 4) (x 5) (x 6) (x 7)).2.2.2.2.2.1 (w * 2 + d) = x w (10 + d) ∧
    (avxCells (x 0) (x 1) (x 2) (x 3) (x 4) (x 5) (x 6) (x 7)).2.2.2.2.2.2.1 (w * 2 + d) = x w (12 + d) ∧
    (avxCells (x 0) (x 1) (x 2) (x 3) (x 4) (x 5) (x 6) (x 7)).2.2.2.2.2.2.2 (w * 2 + d) = x w (14 + d) := by
  interval_cases w <;> interval_cases d <;> exact ⟨rfl, rfl, rfl, rfl, rfl, rfl, rfl, rfl⟩

theorem avxBody_ok {reg : Nat} (hf : f.WF reg) (hcw : f.cw = 8) (hcd : f.cd = 2)
    (ho : f.order = .widthMajor) (hu : f.scalar = .uint8) : BodyOk f 8 (avxBody f.cells) := by
  intro mem src B sw csd csw dst ps hs hso hw hd hdst hsums
  have hcs : f.cellSize = 16 := by unfold SideFormat.cellSize; rw [hcw, hcd]
  have hc := hf.cells_pos
  rw [hcs] at hdst
  rw [hcw] at hw hsums
  obtain ⟨x0, l0, r0⟩ := loadRow hs hso (csw := csw) (csd := csd) (w := 0) (n := 16) (by omega)
    (by omega)
  obtain ⟨x1, l1, r1⟩ := loadRow hs hso (csw := csw) (csd := csd) (w := 1) (n := 16) (by omega)
    (by omega)
  obtain ⟨x2, l2, r2⟩ := loadRow hs hso (csw := csw) (csd := csd) (w := 2) (n := 16) (by omega)
    (by omega)
  obtain ⟨x3, l3, r3⟩ := loadRow hs hso (csw := csw) (csd := csd) (w := 3) (n := 16) (by omega)
    (by omega)
  obtain ⟨x4, l4, r4⟩ := loadRow hs hso (csw := csw) (csd := csd) (w := 4) (n := 16) (by omega)
    (by omega)
  obtain ⟨x5, l5, r5⟩ := loadRow hs hso (csw := csw) (csd := csd) (w := 5) (n := 16) (by omega)
    (by omega)
  obtain ⟨x6, l6, r6⟩ := loadRow hs hso (csw := csw) (csd := csd) (w := 6) (n := 16) (by omega)
    (by omega)
  obtain ⟨x7, l7, r7⟩ := loadRow hs hso (csw := csw) (csd := csd) (w := 7) (n := 16) (by omega)
    (by omega)
  rw [Nat.zero_mul, Nat.add_zero] at l0
  obtain ⟨y, hy0, hy⟩ : ∃ y : Nat → VReg,
      avxCells x0 x1 x2 x3 x4 x5 x6 x7 = (y 0, y 1, y 2, y 3, y 4, y 5, y 6, y 7) ∧
      ∀ k w d, k < 8 → w < 8 → d < 2 → y k (w * 2 + d) = (B (csw + w) (csd + 2 * k + d)).toBitVec := by
    have hb := avxCells_bytes fun w => if w = 0 then x0 else if w = 1 then x1 else if w = 2 then x2 else if w = 3 then x3 else 
      if w = 4 then x4 else if w = 5 then x5 else if w = 6 then x6 else x7
    have hx : ∀ w i, w < 8 → i < 16 →
        (if w = 0 then x0 else if w = 1 then x1 else if w = 2 then x2 else if w = 3 then x3 else 
          if w = 4 then x4 else if w = 5 then x5 else if w = 6 then x6 else x7) i =
          (B (csw + w) (csd + i)).toBitVec := by
      intro w i hw hi
      interval_cases w
      · exact r0 i hi
      · exact r1 i hi
      · exact r2 i hi
      · exact r3 i hi
      · exact r4 i hi
      · exact r5 i hi
      · exact r6 i hi
      · exact r7 i hi
    refine ⟨fun k =>
      if k = 0 then (avxCells x0 x1 x2 x3 x4 x5 x6 x7).1 else
      if k = 1 then (avxCells x0 x1 x2 x3 x4 x5 x6 x7).2.1 else
      if k = 2 then (avxCells x0 x1 x2 x3 x4 x5 x6 x7).2.2.1 else
      if k = 3 then (avxCells x0 x1 x2 x3 x4 x5 x6 x7).2.2.2.1 else
      if k = 4 then (avxCells x0 x1 x2 x3 x4 x5 x6 x7).2.2.2.2.1 else
      if k = 5 then (avxCells x0 x1 x2 x3 x4 x5 x6 x7).2.2.2.2.2.1 else
      if k = 6 then (avxCells x0 x1 x2 x3 x4 x5 x6 x7).2.2.2.2.2.2.1 else
      (avxCells x0 x1 x2 x3 x4 x5 x6 x7).2.2.2.2.2.2.2, rfl, ?_⟩
    intro k w d hk hw hd
    have hb := hb w d hw hd
    interval_cases k
    · exact hb.1.trans ((hx w _ hw (by omega)).trans (by rw [Nat.add_assoc csd]))
    · exact hb.2.1.trans ((hx w _ hw (by omega)).trans (by rw [Nat.add_assoc csd]))
    · exact hb.2.2.1.trans ((hx w _ hw (by omega)).trans (by rw [Nat.add_assoc csd]))
    · exact hb.2.2.2.1.trans ((hx w _ hw (by omega)).trans (by rw [Nat.add_assoc csd]))
    · exact hb.2.2.2.2.1.trans ((hx w _ hw (by omega)).trans (by rw [Nat.add_assoc csd]))
    · exact hb.2.2.2.2.2.1.trans ((hx w _ hw (by omega)).trans (by rw [Nat.add_assoc csd]))
    · exact hb.2.2.2.2.2.2.1.trans ((hx w _ hw (by omega)).trans (by rw [Nat.add_assoc csd]))
    · exact hb.2.2.2.2.2.2.2.trans ((hx w _ hw (by omega)).trans (by rw [Nat.add_assoc csd]))
  have hS : 16 ≤ f.cells * 16 := by omega
  obtain ⟨d1, e1, w1⟩ := storeBytes_ok (b := ps.data) (a := dst) (n := 16)
    (v := y 0) (by omega)
  obtain ⟨d2, e2, w2⟩ := storeBytes_ok (b := d1) (a := dst + 16 * f.cells) (n := 16)
    (v := y 1) (by rw [w1.size]; omega)
  obtain ⟨d3, e3, w3⟩ := storeBytes_ok (b := d2) (a := dst + 2 * 16 * f.cells) (n := 16)
    (v := y 2) (by rw [w2.size, w1.size]; omega)
  obtain ⟨d4, e4, w4⟩ := storeBytes_ok (b := d3) (a := dst + 3 * 16 * f.cells) (n := 16)
    (v := y 3) (by rw [w3.size, w2.size, w1.size]; omega)
  obtain ⟨d5, e5, w5⟩ := storeBytes_ok (b := d4) (a := dst + 4 * 16 * f.cells) (n := 16)
    (v := y 4) (by rw [w4.size, w3.size, w2.size, w1.size]; omega)
  obtain ⟨d6, e6, w6⟩ := storeBytes_ok (b := d5) (a := dst + 5 * 16 * f.cells) (n := 16)
    (v := y 5) (by rw [w5.size, w4.size, w3.size, w2.size, w1.size]; omega)
  obtain ⟨d7, e7, w7⟩ := storeBytes_ok (b := d6) (a := dst + 6 * 16 * f.cells) (n := 16)
    (v := y 6) (by rw [w6.size, w5.size, w4.size, w3.size, w2.size, w1.size]; omega)
  obtain ⟨d8, e8, w8⟩ := storeBytes_ok (b := d7) (a := dst + 7 * 16 * f.cells) (n := 16)
    (v := y 7) (by rw [w7.size, w6.size, w5.size, w4.size, w3.size, w2.size, w1.size]; omega)
  have st : Strided ps.data dst (f.cells * 16) 16 y 8 d8 := by
    have t0 := Strided.init ps.data dst (f.cells * 16) 16 y
    have t1 := t0.step hS (d2 := d1) (by
      rw [show dst + 0 * (f.cells * 16) = dst by omega]; exact w1)
    have t2 := t1.step hS (d2 := d2) (by
      rw [show dst + 1 * (f.cells * 16) = dst + 16 * f.cells by omega]; exact w2)
    have t3 := t2.step hS (d2 := d3) (by
      rw [show dst + 2 * (f.cells * 16) = dst + 2 * 16 * f.cells by omega]; exact w3)
    have t4 := t3.step hS (d2 := d4) (by
      rw [show dst + 3 * (f.cells * 16) = dst + 3 * 16 * f.cells by omega]; exact w4)
    have t5 := t4.step hS (d2 := d5) (by
      rw [show dst + 4 * (f.cells * 16) = dst + 4 * 16 * f.cells by omega]; exact w5)
    have t6 := t5.step hS (d2 := d6) (by
      rw [show dst + 5 * (f.cells * 16) = dst + 5 * 16 * f.cells by omega]; exact w6)
    have t7 := t6.step hS (d2 := d7) (by
      rw [show dst + 6 * (f.cells * 16) = dst + 6 * 16 * f.cells by omega]; exact w7)
    have t8 := t7.step hS (d2 := d8) (by
      rw [show dst + 7 * (f.cells * 16) = dst + 7 * 16 * f.cells by omega]; exact w8)
    exact t8
  obtain ⟨sums', e9, s1, s2, s3⟩ := storeWords_ok (b := ps.sums) (a := sw + csw) (n := 8)
    (v := (add_epi32 (add_epi32 (add_epi32 (add_epi32 (add_epi32 (add_epi32 (add_epi32 (add_epi32 (ofS fun i => ps.sums.get (sw + csw + i))
      (madd_epi16 (cvtepu8_epi16 (y 0)) (set1_epi16 1#16)))
      (madd_epi16 (cvtepu8_epi16 (y 1)) (set1_epi16 1#16)))
      (madd_epi16 (cvtepu8_epi16 (y 2)) (set1_epi16 1#16)))
      (madd_epi16 (cvtepu8_epi16 (y 3)) (set1_epi16 1#16)))
      (madd_epi16 (cvtepu8_epi16 (y 4)) (set1_epi16 1#16)))
      (madd_epi16 (cvtepu8_epi16 (y 5)) (set1_epi16 1#16)))
      (madd_epi16 (cvtepu8_epi16 (y 6)) (set1_epi16 1#16)))
      (madd_epi16 (cvtepu8_epi16 (y 7)) (set1_epi16 1#16)))) (by omega)
  refine ⟨d8, sums', ?_, st.size, ?_, ?_, s1, ?_, ?_⟩
  · unfold avxBody
    dsimp only
    rw [l0, ok_bind, l1, ok_bind, l2, ok_bind, l3, ok_bind, l4, ok_bind, l5, ok_bind, l6, ok_bind,
      l7, ok_bind, hy0]
    dsimp only
    rw [e1, ok_bind, e2, ok_bind, e3, ok_bind, e4, ok_bind, e5, ok_bind, e6, ok_bind, e7, ok_bind,
      e8, ok_bind, loadWords_ok (by omega), ok_bind, e9, ok_bind]
    rfl
  · intro k w d hk hw' hd'
    rw [hcw] at hw'
    rw [hcs, cellOff_wm ho hcd, st.inside k _ hk (by omega), hy k w d hk hw' hd', toByte_u8 hu,
      ofBitVec_toBitVec]
  · intro a ha
    rw [hcs] at ha
    exact st.rest a ha
  · intro i hi
    rw [hcw] at hi
    have hp : ∀ k, k < 8 → (madd_epi16 (cvtepu8_epi16 (y k)) (set1_epi16 1#16)).s i =
        BitVec.ofInt 32 (f.unwrap (B (csw + i) (csd + (2 * k))) +
          f.unwrap (B (csw + i) (csd + (2 * k + 1)))) := by
      intro k hk
      have h0 := hy k i 0 hk hi (by omega)
      have h1 := hy k i 1 hk hi (by omega)
      rw [madd_cvt, Nat.mul_comm 2 i, show i * 2 = i * 2 + 0 from rfl, h0, h1, toNat_toBitVec,
        toNat_toBitVec, unwrap_u8 hu, unwrap_u8 hu, ofNat_ofInt, Nat.add_assoc csd, Nat.add_zero]
      rfl
    rw [← Nat.add_assoc, s2 i hi]
    unfold add_epi32
    simp only [s_ofS]
    rw [hp 0 (by omega), hp 1 (by omega), hp 2 (by omega), hp 3 (by omega), hp 4 (by omega),
      hp 5 (by omega), hp 6 (by omega), hp 7 (by omega)]
    simp only [BitVec.add_assoc, ← BitVec.ofInt_add]
    congr 2
    simp only [sumTo, Nat.reduceMul, Nat.reduceAdd]
    omega
  · intro a ha
    rw [hcw] at ha
    exact s3 a ha

/-! ## The packers -/

theorem isWidthMajor2_iff {cw : Nat} {src : SideMap} : isWidthMajor2 cw f src = true ↔
    src.order = .widthMajor ∧ f.cw = cw ∧ f.cd = 2 ∧ f.order = .widthMajor ∧ f.scalar = .uint8 := by
  unfold isWidthMajor2
  simp only [Bool.and_eq_true, beq_iff_eq, and_assoc]

theorem ssePack_effect {reg K : Nat} (hf : f.WF reg) (hreg : reg = 8 * K) {mem : Mem} {src : SideMap}
    {sw : Nat} {ps : PackedSide} (hi : isWidthMajor2 4 f src = true) (hs : SrcIs mem src B)
    (hw : src.width = f.kw) (hd : src.depth = reg)
    (hdata : ps.pos + f.kw * reg ≤ ps.data.size) (hsums : sw + f.kw ≤ ps.sums.size) :
    ∃ ps', ssePack f reg mem src sw ps = .ok ps' ∧ BlockEffect f reg B sw ps ps' := by
  obtain ⟨h1, h2, h3, h4, h5⟩ := isWidthMajor2_iff.1 hi
  have hcs : f.cellSize = 8 := by unfold SideFormat.cellSize; rw [h2, h3]
  obtain ⟨st, e, hE⟩ := grid_effect hf h3 (by omega : 0 < 4) hreg (sseBody_ok hf h2 h3 h4 h5) hs h1 hw hd
    hdata hsums
  rw [hcs, h2] at e
  refine ⟨_, ?_, hE⟩
  unfold ssePack
  rw [hcs]
  exact bind_of_ok e

theorem avxPack_effect {reg K : Nat} (hf : f.WF reg) (hreg : reg = 16 * K) {mem : Mem} {src : SideMap}
    {sw : Nat} {ps : PackedSide} (hi : isWidthMajor2 8 f src = true) (hs : SrcIs mem src B)
    (hw : src.width = f.kw) (hd : src.depth = reg)
    (hdata : ps.pos + f.kw * reg ≤ ps.data.size) (hsums : sw + f.kw ≤ ps.sums.size) :
    ∃ ps', avxPack f reg mem src sw ps = .ok ps' ∧ BlockEffect f reg B sw ps ps' := by
  obtain ⟨h1, h2, h3, h4, h5⟩ := isWidthMajor2_iff.1 hi
  have hcs : f.cellSize = 16 := by unfold SideFormat.cellSize; rw [h2, h3]
  obtain ⟨st, e, hE⟩ := grid_effect hf h3 (by omega : 0 < 8) hreg (avxBody_ok hf h2 h3 h4 h5) hs h1 hw hd
    hdata hsums
  rw [hcs, h2] at e
  refine ⟨_, ?_, hE⟩
  unfold avxPack
  rw [hcs]
  exact bind_of_ok e

theorem ssePacker_meets (mode : OvMode) (hf : f.WF 16) (hin : f.input = .uint8) : PackerMeets ssePacker mode f 16 := by
  intro o mem src B sw ps hs hor hw hd hdata hsums hfit
  unfold ssePacker
  split
  · rename_i hi
    exact ssePack_effect hf (K := 2) rfl hi hs hw hd hdata hsums
  · exact packBlock_meets mode hf hin o mem src B sw ps hs hor hw hd hdata hsums hfit

theorem avxPacker_meets (mode : OvMode) (hf : f.WF 32) (hin : f.input = .uint8) : PackerMeets avxPacker mode f 32 := by
  intro o mem src B sw ps hs hor hw hd hdata hsums hfit
  unfold avxPacker
  split
  · rename_i hi
    exact avxPack_effect hf (K := 2) rfl hi hs hw hd hdata hsums
  · split
    · rename_i hi
      exact ssePack_effect hf (K := 4) rfl hi hs hw hd hdata hsums
    · exact packBlock_meets mode hf hin o mem src B sw ps hs hor hw hd hdata hsums hfit

end

end Gemmlowp.PackSimd
