import Verif.PackSimdProof
/-!
# Packing with vector instructions has the effect of the generic packing: NEON and MSA
-/
namespace Gemmlowp.PackSimd

open Vec (VReg ofH ofS ofD s_ofS h_ofH)

/-! ## Streams of bytes -/

theorem Wrote.nil (data : Buf UInt8) (dst : Nat) (g : Nat → BitVec 8) : Wrote data dst 0 g data :=
  ⟨rfl, fun a => by rw [if_neg (by omega)]⟩

theorem Wrote.cast {d0 d1 : Buf UInt8} {dst n m : Nat} {g : Nat → BitVec 8} (h : Wrote d0 dst n g d1)
    (e : n = m) : Wrote d0 dst m g d1 := e ▸ h

theorem Wrote.append {d0 d1 d2 : Buf UInt8} {dst n m : Nat} {G g1 g2 : Nat → BitVec 8}
    (h1 : Wrote d0 dst n g1 d1) (h2 : Wrote d1 (dst + n) m g2 d2) (e1 : ∀ j, j < n → g1 j = G j)
    (e2 : ∀ j, j < m → g2 j = G (n + j)) : Wrote d0 dst (n + m) G d2 := by
  refine ⟨h2.size.trans h1.size, fun a => ?_⟩
  rw [h2.get, h1.get]
  by_cases ha : dst ≤ a ∧ a < dst + n
  · rw [if_neg (by omega), if_pos ha, if_pos (by omega), e1 _ (by omega)]
  · by_cases hb : dst + n ≤ a ∧ a < dst + n + m
    · rw [if_pos hb, if_pos (by omega), e2 _ (by omega), show n + (a - (dst + n)) = a - dst by omega]
    · rw [if_neg hb, if_neg ha, if_neg (by omega)]

/-- A loop in which iteration `k` writes the next `sz` bytes of `G`. -/
theorem wrote_loop {lo hi step n sz : Nat} {f : Nat → Buf UInt8 × Nat → M (Buf UInt8 × Nat)}
    {data : Buf UInt8} {dst : Nat} {G : Nat → BitVec 8} (hstep : 0 < step) (hn : lo + step * n = hi)
    (_hsz : dst + sz * n ≤ data.size)
    (hbody : ∀ k d, k < n → d.size = data.size → ∃ d',
      f (lo + step * k) (d, dst + sz * k) = .ok (d', dst + sz * k + sz) ∧
      ∃ g, Wrote d (dst + sz * k) sz g d' ∧ ∀ j, j < sz → g j = G (sz * k + j)) :
    ∃ d', forLoop lo hi step f (data, dst) = .ok (d', dst + sz * n) ∧ Wrote data dst (sz * n) G d' := by
  obtain ⟨⟨d', p'⟩, e, h1, h2⟩ := forLoop_n (f := f) (s := (data, dst)) (n := n)
    (fun k st => st.2 = dst + sz * k ∧ Wrote data dst (sz * k) G st.1) hstep hn
    ⟨by simp, by rw [Nat.mul_zero]; exact Wrote.nil _ _ _⟩
    (by
      rintro k ⟨d, p⟩ hk ⟨h1, h2⟩
      dsimp only at h1 h2
      subst h1
      obtain ⟨d', e, g, w, hg⟩ := hbody k d hk h2.size
      refine ⟨(d', dst + sz * k + sz), e, by rw [Nat.mul_add, Nat.mul_one]; show _ = _; omega, ?_⟩
      rw [Nat.mul_add, Nat.mul_one]
      exact h2.append w (fun _ _ => rfl) hg)
  dsimp only at h1 h2
  subst h1
  exact ⟨d', e, h2⟩

/-- The low halves of all cells, then the high halves. -/
def halfStream (cells : Nat) (v : Nat → VReg) : Nat → BitVec 8 := fun j =>
  v (j / 8 % cells) (8 * (j / 8 / cells) + j % 8)

def HalvesOk (halves : Nat → (Nat → VReg) → Buf UInt8 × Nat → M (Buf UInt8 × Nat)) : Prop :=
  ∀ cells (v : Nat → VReg) (data : Buf UInt8) (dst : Nat), 0 < cells → dst + 16 * cells ≤ data.size →
    ∃ d', halves cells v (data, dst) = .ok (d', dst + 16 * cells) ∧
      Wrote data dst (16 * cells) (halfStream cells v) d'

theorem half_low {cells c j : Nat} (v : Nat → VReg) (hc : c < cells) (hj : j < 8) :
    halfStream cells v (8 * c + j) = v c j := by
  unfold halfStream
  have e1 : (8 * c + j) / 8 = c := by omega
  have e2 : (8 * c + j) % 8 = j := by omega
  rw [e1, e2, Nat.mod_eq_of_lt hc, Nat.div_eq_of_lt hc]
  simp

theorem half_high {cells c j : Nat} (v : Nat → VReg) (hc : c < cells) (hj : j < 8) :
    halfStream cells v (8 * (cells + c) + j) = v c (8 + j) := by
  unfold halfStream
  have e1 : (8 * (cells + c) + j) / 8 = cells + c := by omega
  have e2 : (8 * (cells + c) + j) % 8 = j := by omega
  rw [e1, e2, Nat.add_mod_left, Nat.mod_eq_of_lt hc, Nat.add_div_left _ (by omega),
    Nat.div_eq_of_lt hc]

theorem neonStoreHalves_ok : HalvesOk neonStoreHalves := by
  intro cells v data dst hc hsz
  unfold neonStoreHalves
  obtain ⟨d1, e1, w1⟩ := wrote_loop (lo := 0) (hi := cells) (step := 1) (n := cells) (sz := 8)
    (data := data) (dst := dst) (G := halfStream cells v)
    (f := fun cell (st : Buf UInt8 × Nat) => do
      let data ← storeBytes st.1 st.2 8 (v cell)
      pure (data, st.2 + 8)) (by omega) (by omega) (by omega)
    (by
      intro k d hk hd
      obtain ⟨d', e, w⟩ := storeBytes_ok (b := d) (a := dst + 8 * k) (n := 8) (v := v k) (by omega)
      refine ⟨d', ?_, _, w, fun j hj => (half_low v hk hj).symm⟩
      rw [Nat.one_mul, Nat.zero_add, e, ok_bind]; rfl)
  obtain ⟨d2, e2, w2⟩ := wrote_loop (lo := 0) (hi := cells) (step := 1) (n := cells) (sz := 8)
    (data := d1) (dst := dst + 8 * cells) (G := fun j => halfStream cells v (8 * cells + j))
    (f := fun cell (st : Buf UInt8 × Nat) => do
      let data ← storeBytes st.1 st.2 8 (vget_high (v cell))
      pure (data, st.2 + 8)) (by omega) (by omega) (by rw [w1.size]; omega)
    (by
      intro k d hk hd
      rw [w1.size] at hd
      obtain ⟨d', e, w⟩ := storeBytes_ok (b := d) (a := dst + 8 * cells + 8 * k) (n := 8)
        (v := vget_high (v k)) (by omega)
      refine ⟨d', ?_, _, w, fun j hj => ?_⟩
      · rw [Nat.one_mul, Nat.zero_add, e, ok_bind]; rfl
      · rw [show 8 * cells + (8 * k + j) = 8 * (cells + k) + j by omega, half_high v hk hj]; rfl)
  refine ⟨d2, ?_, ?_⟩
  · rw [e1, ok_bind, e2, show dst + 8 * cells + 8 * cells = dst + 16 * cells by omega]
  · rw [show 16 * cells = 8 * cells + 8 * cells by omega]
    exact w1.append w2 (fun _ _ => rfl) fun _ _ => rfl

/-- Stores for pairs of cells. -/
theorem msaStorePairs_ok {pair : VReg → VReg → VReg} {h lo hi n : Nat} {v : Nat → VReg}
    {data : Buf UInt8} {dst : Nat} {G : Nat → BitVec 8} (hn : lo + 2 * n = hi)
    (hp : ∀ a b j, j < 8 → pair b a j = a (h + j) ∧ pair b a (8 + j) = b (h + j))
    (hsz : dst + 16 * n ≤ data.size)
    (hG : ∀ c j, c < 2 * n → j < 8 → G (8 * c + j) = v (lo + c) (h + j)) :
    ∃ d', msaStorePairs pair lo hi v (data, dst) = .ok (d', dst + 16 * n) ∧
      Wrote data dst (16 * n) G d' := by
  unfold msaStorePairs
  refine wrote_loop (n := n) (by omega) (by omega) hsz ?_
  intro k d hk hd
  obtain ⟨d', e, w⟩ := storeBytes_ok (b := d) (a := dst + 16 * k) (n := 16)
    (v := pair (v (lo + 2 * k + 1)) (v (lo + 2 * k))) (by omega)
  refine ⟨d', by rw [e, ok_bind]; rfl, _, w, fun j hj => ?_⟩
  by_cases h8 : j < 8
  · rw [(hp _ _ j h8).1, show 16 * k + j = 8 * (2 * k) + j by omega, hG _ _ (by omega) h8]
  · obtain ⟨i, rfl⟩ : ∃ i, j = 8 + i := ⟨j - 8, by omega⟩
    rw [(hp _ _ i (by omega)).2, show 16 * k + (8 + i) = 8 * (2 * k + 1) + i by omega,
      hG _ _ (by omega) (by omega), Nat.add_assoc]

theorem ilvr_d_halves (a b : VReg) (j : Nat) (hj : j < 8) :
    ilvr_d b a j = a (0 + j) ∧ ilvr_d b a (8 + j) = b (0 + j) := by
  unfold ilvr_d
  rw [if_pos hj, if_neg (by omega), Nat.add_sub_cancel_left, Nat.zero_add]
  exact ⟨rfl, rfl⟩

theorem ilvl_d_halves (a b : VReg) (j : Nat) (hj : j < 8) :
    ilvl_d b a j = a (8 + j) ∧ ilvl_d b a (8 + j) = b (8 + j) := by
  unfold ilvl_d
  rw [if_pos hj, if_neg (by omega)]
  exact ⟨rfl, rfl⟩

theorem msaStoreHalves_ok : HalvesOk msaStoreHalves := by
  intro cells v data dst hc hsz
  unfold msaStoreHalves
  by_cases he : cells % 2 = 0
  · rw [if_pos he]
    obtain ⟨n, rfl⟩ : ∃ n, cells = 2 * n := ⟨cells / 2, by omega⟩
    obtain ⟨d1, e1, w1⟩ := msaStorePairs_ok (pair := ilvr_d) (h := 0) (lo := 0) (hi := 2 * n) (n := n)
      (v := v) (data := data) (dst := dst) (G := halfStream (2 * n) v) (by omega) ilvr_d_halves (by omega)
      (fun c j hc hj => by rw [half_low v hc hj, Nat.zero_add, Nat.zero_add])
    obtain ⟨d2, e2, w2⟩ := msaStorePairs_ok (pair := ilvl_d) (h := 8) (lo := 0) (hi := 2 * n) (n := n)
      (v := v) (data := d1) (dst := dst + 16 * n) (G := fun j => halfStream (2 * n) v (16 * n + j))
      (by omega) ilvl_d_halves (by rw [w1.size]; omega)
      (fun c j hc hj => by
        rw [show 16 * n + (8 * c + j) = 8 * (2 * n + c) + j by omega, half_high v hc hj, Nat.zero_add])
    refine ⟨d2, ?_, ?_⟩
    · rw [e1, ok_bind, e2, show dst + 16 * n + 16 * n = dst + 16 * (2 * n) by omega]
    · rw [show 16 * (2 * n) = 16 * n + 16 * n by omega]
      exact w1.append w2 (fun _ _ => rfl) fun _ _ => rfl
  · rw [if_neg he]
    obtain ⟨n, rfl⟩ : ∃ n, cells = 2 * n + 1 := ⟨cells / 2, by omega⟩
    obtain ⟨d1, e1, w1⟩ := msaStorePairs_ok (pair := ilvr_d) (h := 0) (lo := 0) (hi := 2 * n + 1 - 1)
      (n := n) (v := v) (data := data) (dst := dst) (G := halfStream (2 * n + 1) v) (by omega)
      ilvr_d_halves (by omega)
      (fun c j hc hj => by rw [half_low v (by omega) hj, Nat.zero_add, Nat.zero_add])
    obtain ⟨d2, e2, w2⟩ := storeBytes_ok (b := d1) (a := dst + 16 * n) (n := 16)
      (v := insve_d0 (v 0) (v (2 * n + 1 - 1))) (by rw [w1.size]; omega)
    obtain ⟨d3, e3, w3⟩ := msaStorePairs_ok (pair := ilvl_d) (h := 8) (lo := 1) (hi := 2 * n + 1)
      (n := n) (v := v) (data := d2) (dst := dst + 16 * n + 16)
      (G := fun j => halfStream (2 * n + 1) v (16 * n + 16 + j)) (by omega) ilvl_d_halves
      (by rw [w2.size, w1.size]; omega)
      (fun c j hc hj => by
        rw [show 16 * n + 16 + (8 * c + j) = 8 * (2 * n + 1 + (1 + c)) + j by omega,
          half_high v (by omega) hj])
    refine ⟨d3, ?_, ?_⟩
    · rw [e1, ok_bind, e2, ok_bind, e3,
        show dst + 16 * n + 16 + 16 * n = dst + 16 * (2 * n + 1) by omega]
    · rw [show 16 * (2 * n + 1) = 16 * n + 16 + 16 * n by omega]
      refine (w1.append w2 (fun _ _ => rfl) (fun j hj => ?_)).append w3 (fun _ _ => rfl) fun _ _ => rfl
      unfold insve_d0
      by_cases h8 : j < 8
      · rw [if_pos h8, show 16 * n + j = 8 * (2 * n) + j by omega, half_low v (by omega) h8]; rfl
      · obtain ⟨i, rfl⟩ : ∃ i, j = 8 + i := ⟨j - 8, by omega⟩
        rw [if_neg h8, show 16 * n + (8 + i) = 8 * (2 * n + 1 + 0) + i by omega,
          half_high v (by omega) (by omega)]

/-- All stores of the NEON and MSA code for cells of 4x2. -/
def cellStream (cells : Nat) (x4 : Nat → Nat → VReg) : Nat → BitVec 8 := fun j =>
  x4 (2 * (j / 8 % cells) + j / 8 / cells / 4) (j / 8 / cells / 2 % 2) (8 * (j / 8 / cells % 2) + j % 8)

theorem storeCells_ok {halves : Nat → (Nat → VReg) → Buf UInt8 × Nat → M (Buf UInt8 × Nat)}
    (hh : HalvesOk halves) {cells : Nat} (hc : 0 < cells) {x4 : Nat → Nat → VReg} {data : Buf UInt8}
    {dst : Nat} (hsz : dst + 64 * cells ≤ data.size) :
    ∃ d', storeCells halves cells x4 data dst = .ok d' ∧
      Wrote data dst (64 * cells) (cellStream cells x4) d' := by
  unfold storeCells
  obtain ⟨d', e, w⟩ := wrote_loop (lo := 0) (hi := 2) (step := 1) (n := 2) (sz := 32 * cells)
    (data := data) (dst := dst) (G := cellStream cells x4)
    (f := fun outer st => forLoop 0 2 1
      (fun inner st => halves cells (fun cell => x4 (2 * cell + outer) inner) st) st)
    (by omega) (by omega) (by omega)
    (by
      intro o d ho hd
      have ho2 : 32 * cells * o ≤ 32 * cells * 1 := Nat.mul_le_mul_left _ (by omega)
      obtain ⟨d', e, w⟩ := wrote_loop (lo := 0) (hi := 2) (step := 1) (n := 2) (sz := 16 * cells)
        (data := d) (dst := dst + 32 * cells * o) (G := fun j => cellStream cells x4 (32 * cells * o + j))
        (f := fun inner st => halves cells (fun cell => x4 (2 * cell + (0 + 1 * o)) inner) st)
        (by omega) (by omega) (by omega)
        (by
          intro i d1 hi hd1
          have hi2 : 16 * cells * i ≤ 16 * cells * 1 := Nat.mul_le_mul_left _ (by omega)
          obtain ⟨d2, e2, w2⟩ := hh cells (fun cell => x4 (2 * cell + (0 + 1 * o)) (0 + 1 * i)) d1
            (dst + 32 * cells * o + 16 * cells * i) hc (by omega)
          refine ⟨d2, e2, _, w2, fun j hj => ?_⟩
          unfold cellStream halfStream
          have hq : j / 8 < 2 * cells := by omega
          have hj8 : (32 * cells * o + (16 * cells * i + j)) / 8 = cells * (4 * o + 2 * i) + j / 8 := by
            have : 32 * cells * o + (16 * cells * i + j) = 8 * (cells * (4 * o + 2 * i)) + j := by
              rw [Nat.mul_add, Nat.mul_add]
              have e1 : 32 * cells * o = 8 * (cells * (4 * o)) := by
                rw [Nat.mul_left_comm cells, Nat.mul_assoc]; omega
              have e2 : 16 * cells * i = 8 * (cells * (2 * i)) := by
                rw [Nat.mul_left_comm cells, Nat.mul_assoc]; omega
              omega
            rw [this, Nat.mul_add_div (by omega)]
          have hm8 : (32 * cells * o + (16 * cells * i + j)) % 8 = j % 8 := by
            rw [show 32 * cells * o = 8 * (4 * (cells * o)) by rw [Nat.mul_assoc]; omega,
              show 16 * cells * i = 8 * (2 * (cells * i)) by rw [Nat.mul_assoc]; omega]
            omega
          rw [hj8, hm8, Nat.mul_add_mod, Nat.mul_add_div hc]
          have hh2 : j / 8 / cells < 2 := by
            rw [Nat.div_lt_iff_lt_mul hc]; omega
          generalize j / 8 / cells = q at hh2
          rw [show (4 * o + 2 * i + q) / 4 = o by omega, show (4 * o + 2 * i + q) / 2 % 2 = i by omega,
            show (4 * o + 2 * i + q) % 2 = q by omega]
          simp)
      refine ⟨d', ?_, _, w.cast ?_, fun j hj => rfl⟩
      · rw [e]
        congr 2
        omega
      · omega)
  refine ⟨d', bind_of_ok e, w.cast (by omega)⟩

/-! ## Loads and sums -/

section
variable {f : SideFormat} {B : Nat → Nat → UInt8}

theorem loadLines_ok {mem : Mem} {src : SideMap} (hs : SrcIs mem src B) (ho : src.order = .widthMajor)
    {n : Nat} (hn : n ≤ src.width) (hd : 16 ≤ src.depth) :
    ∃ lines, loadLines mem src n = .ok lines ∧
      ∀ w i, w < n → i < 16 → lines w i = (B w i).toBitVec := by
  unfold loadLines
  obtain ⟨lines, e, h⟩ := forLoop_inv1 (hi := n) (s := (fun _ _ => 0#8 : Nat → VReg))
    (f := fun i (lines : Nat → VReg) => do
      let v ← loadBytes mem (src.base + i * src.stride) 16
      pure fun r => if r = i then v else lines r)
    (fun k lines => ∀ w i, w < k → i < 16 → lines w i = (B w i).toBitVec)
    (fun _ _ h => absurd h (Nat.not_lt_zero _))
    (by
      intro k lines hk ih
      obtain ⟨v, e, hv⟩ := loadBytes_ok (mem := mem) (a := src.base + k * src.stride) (n := 16)
        (g := fun i => B k i) (by
          intro i hi
          have := hs k i (by omega) (by omega)
          rw [← this]
          congr 1
          unfold SideMap.addr SideMap.widthStride SideMap.depthStride
          rw [ho]; simp only; omega)
      refine ⟨_, by rw [e, ok_bind]; rfl, ?_⟩
      intro w i hw hi
      show (if w = k then v else lines w) i = _
      by_cases h : w = k
      · rw [if_pos h, h]; exact hv i hi
      · rw [if_neg h]; exact ih w i (by omega) hi)
  exact ⟨lines, e, h⟩

theorem updateSums_ok {cells sw : Nat} {s : Nat → VReg} {sums : Buf (BitVec 32)}
    (hsz : sw + 4 * cells ≤ sums.size) :
    ∃ sums', updateSums cells s sw sums = .ok sums' ∧ sums'.size = sums.size ∧
      (∀ c i, c < cells → i < 4 → sums'.get (sw + (4 * c + i)) = sums.get (sw + (4 * c + i)) + (s c).s i) ∧
      ∀ a, (a < sw ∨ sw + 4 * cells ≤ a) → sums'.get a = sums.get a := by
  unfold updateSums
  obtain ⟨sums', e, h1, h2, h3⟩ := forLoop_inv1 (hi := cells) (s := sums)
    (f := fun cell sums => do
      let old ← loadWords sums (sw + 4 * cell) 4
      storeWords sums (sw + 4 * cell) 4 (add_epi32 (s cell) old))
    (fun k t => t.size = sums.size ∧
      (∀ c i, c < k → i < 4 → t.get (sw + (4 * c + i)) = sums.get (sw + (4 * c + i)) + (s c).s i) ∧
      (∀ a, (a < sw ∨ sw + 4 * k ≤ a) → t.get a = sums.get a))
    ⟨rfl, fun _ _ h => absurd h (Nat.not_lt_zero _), fun _ _ => rfl⟩
    (by
      intro k t hk ⟨h1, h2, h3⟩
      obtain ⟨t', e, k1, k2, k3⟩ := storeWords_ok (b := t) (a := sw + 4 * k) (n := 4)
        (v := add_epi32 (s k) (ofS fun i => t.get (sw + 4 * k + i))) (by omega)
      refine ⟨t', by rw [loadWords_ok (by omega), ok_bind]; exact e, k1.trans h1, ?_, ?_⟩
      · intro c i hc hi
        by_cases hck : c = k
        · subst hck
          rw [← Nat.add_assoc, k2 i hi]
          unfold add_epi32
          rw [s_ofS, s_ofS, h3 _ (by omega), BitVec.add_comm]
        · rw [k3 _ (by omega), h2 c i (by omega) hi]
      · intro a ha
        rw [k3 a (by omega), h3 a (by omega)])
  exact ⟨sums', e, h1, h2, fun a ha => h3 a (by omega)⟩

/-! ## Interleaving -/

theorem intertwined_eq (zip : VReg → VReg → Nat → VReg) (lines : Nat → VReg) (c o i : Nat) (ho : o < 2) :
    intertwined4x zip lines (2 * c + o) i =
      zip (zip (lines (4 * c)) (lines (4 * c + 2)) o) (zip (lines (4 * c + 1)) (lines (4 * c + 3)) o) i := by
  unfold intertwined4x
  have e1 : (2 * c + o) / 2 = c := by omega
  have e2 : 2 * c % 2 = 0 := by omega
  have e3 : ¬ (2 * c + 1) % 2 = 0 := by omega
  have e4 : 2 * c / 2 = c := by omega
  have e5 : (2 * c + 1) / 2 = c := by omega
  dsimp only
  rw [e1, if_pos e2, if_neg e3, e4, e5]
  by_cases h : o = 0
  · subst h; rw [if_pos (by omega)]
  · rw [if_neg (by omega), show o = 1 by omega]

theorem zip8_bytes (x : Nat → VReg) (o i h w d : Nat) (ho : o < 2) (hi : i < 2) (hh : h < 2)
    (hw : w < 4) (hd : d < 2) :
    vzipq_u8 (vzipq_u8 (x 0) (x 2) o) (vzipq_u8 (x 1) (x 3) o) i (8 * h + (4 * d + w)) =
      x w (8 * o + 4 * i + 2 * h + d) := by
  interval_cases o <;> interval_cases i <;> interval_cases h <;> interval_cases w <;>
    interval_cases d <;> rfl

theorem zip16_bytes (x : Nat → VReg) (o i h w d : Nat) (ho : o < 2) (hi : i < 2) (hh : h < 2)
    (hw : w < 4) (hd : d < 2) :
    vzipq_u16 (vzipq_u16 (x 0) (x 2) o) (vzipq_u16 (x 1) (x 3) o) i (8 * h + (w * 2 + d)) =
      x w (8 * o + 4 * i + 2 * h + d) := by
  interval_cases o <;> interval_cases i <;> interval_cases h <;> interval_cases w <;>
    interval_cases d <;> rfl

/-- Byte `off w d` of a cell is the coefficient at width `w`, depth `d`. -/
def ZipOk (zip : VReg → VReg → Nat → VReg) (off : Nat → Nat → Nat) : Prop :=
  ∀ (lines : Nat → VReg) (c p w d : Nat), p < 8 → w < 4 → d < 2 →
    intertwined4x zip lines (2 * c + p / 4) (p / 2 % 2) (8 * (p % 2) + off w d) =
      lines (4 * c + w) (2 * p + d)

theorem zip8_ok : ZipOk vzipq_u8 (fun w d => 4 * d + w) := by
  intro lines c p w d hp hw hd
  rw [intertwined_eq _ _ _ _ _ (by omega)]
  have := zip8_bytes (fun k => lines (4 * c + k)) (p / 4) (p / 2 % 2) (p % 2) w d (by omega) (by omega)
    (by omega) hw hd
  rw [show 8 * (p / 4) + 4 * (p / 2 % 2) + 2 * (p % 2) + d = 2 * p + d by omega] at this
  exact this

theorem zip16_ok : ZipOk vzipq_u16 (fun w d => w * 2 + d) := by
  intro lines c p w d hp hw hd
  rw [intertwined_eq _ _ _ _ _ (by omega)]
  have := zip16_bytes (fun k => lines (4 * c + k)) (p / 4) (p / 2 % 2) (p % 2) w d (by omega) (by omega)
    (by omega) hw hd
  rw [show 8 * (p / 4) + 4 * (p / 2 % 2) + 2 * (p % 2) + d = 2 * p + d by omega] at this
  exact this

theorem msaZipB_eq : msaZipB = vzipq_u8 := rfl
theorem msaZipH_eq : msaZipH = vzipq_u16 := rfl

/-! ## The sums of a cell -/

theorem h_high (v : VReg) (i : Nat) : (vget_high v).h i = v.h (4 + i) := by
  unfold VReg.h vget_high
  rw [show 8 + (2 * i + 1) = 2 * (4 + i) + 1 by omega, show 8 + 2 * i = 2 * (4 + i) by omega]

theorem zero_append8 (x : BitVec 8) : (0#8 ++ x : BitVec 16) = x.setWidth 16 := by
  apply BitVec.eq_of_toNat_eq
  rw [BitVec.toNat_append, BitVec.toNat_setWidth]
  have := x.isLt
  simp; omega

theorem zero_append16 (x : BitVec 16) : (0#16 ++ x : BitVec 32) = x.setWidth 32 := by
  apply BitVec.eq_of_toNat_eq
  rw [BitVec.toNat_append, BitVec.toNat_setWidth]
  have := x.isLt
  simp; omega

theorem ilvr_b_zero (v : VReg) (i : Nat) : (ilvr_b zeroes v).h i = (v i).setWidth 16 := by
  rw [← zero_append8]
  unfold VReg.h ilvr_b zip1B zeroes
  rw [if_neg (by omega), if_pos (by omega), show 2 * i / 2 = i by omega]

theorem ilvl_b_zero (v : VReg) (i : Nat) : (ilvl_b zeroes v).h i = (v (8 + i)).setWidth 16 := by
  rw [← zero_append8]
  unfold VReg.h ilvl_b zip2B zeroes
  rw [if_neg (by omega), if_pos (by omega), show 2 * i / 2 = i by omega]

theorem ilvr_h_zero (v : VReg) (i : Nat) : (ilvr_h zeroes v).s i = (v.h i).setWidth 32 := by
  rw [← zero_append16]
  unfold VReg.s VReg.h ilvr_h zip1H zeroes
  rw [if_neg (by omega), if_neg (by omega), if_pos (by omega), if_pos (by omega)]
  rw [show (2 * (2 * i) + 1) / 4 * 2 + (2 * (2 * i) + 1) % 2 = 2 * i + 1 by omega,
    show 2 * (2 * i) / 4 * 2 + 2 * (2 * i) % 2 = 2 * i by omega]
  rfl

theorem ilvl_h_zero (v : VReg) (i : Nat) : (ilvl_h zeroes v).s i = (v.h (4 + i)).setWidth 32 := by
  rw [← zero_append16]
  unfold VReg.s VReg.h ilvl_h zip2H zeroes
  rw [if_neg (by omega), if_neg (by omega), if_pos (by omega), if_pos (by omega)]
  rw [show 8 + (2 * (2 * i) + 1) / 4 * 2 + (2 * (2 * i) + 1) % 2 = 2 * (4 + i) + 1 by omega,
    show 8 + 2 * (2 * i) / 4 * 2 + 2 * (2 * i) % 2 = 2 * (4 + i) by omega]
  rfl

/-- The bytes of one column. -/
def SumsOk (sumsOf : (Nat → Nat → VReg) → Nat → VReg) (off : Nat → Nat → Nat) : Prop :=
  ∀ (x4 : Nat → Nat → VReg) (c w : Nat) (b : Nat → UInt8), w < 4 →
    (∀ p d, p < 8 → d < 2 → x4 (2 * c + p / 4) (p / 2 % 2) (8 * (p % 2) + off w d) =
      (b (2 * p + d)).toBitVec) →
    (sumsOf x4 c).s w = BitVec.ofInt 32 (sumTo 16 fun d => ((b d).toNat : Int))

theorem sum16 (b : Nat → UInt8) : BitVec.ofNat 32 ((b 0).toNat + (b 1).toNat + (b 2).toNat +
    (b 3).toNat + (b 4).toNat + (b 5).toNat + (b 6).toNat + (b 7).toNat + (b 8).toNat + (b 9).toNat +
    (b 10).toNat + (b 11).toNat + (b 12).toNat + (b 13).toNat + (b 14).toNat + (b 15).toNat) =
    BitVec.ofInt 32 (sumTo 16 fun d => ((b d).toNat : Int)) := by
  rw [ofNat_ofInt]
  congr 1
  simp only [sumTo]
  push_cast
  omega

theorem lane_depth (v : VReg) (w : Nat) :
    (vaddl_u16 (vaddl_u8 v (vget_high v)) (vget_high (vaddl_u8 v (vget_high v)))).s w =
      BitVec.ofNat 32 ((v w).toNat + (v (8 + w)).toNat + ((v (4 + w)).toNat + (v (12 + w)).toNat)) := by
  unfold vaddl_u16 vaddl_u8
  rw [s_ofS, h_high, h_ofH, h_ofH]
  unfold vget_high
  have := toNat8_lt
  simp only [u8_16, ofNat_add16]
  rw [u16_32 (by have := toNat8_lt (v w); have := toNat8_lt (v (8 + w)); omega), u16_32 (by
    have := toNat8_lt (v (4 + w)); have := toNat8_lt (v (8 + (4 + w))); omega), ofNat_add32,
    ← Nat.add_assoc 8 4 w]

theorem lane_depth_msa (v : VReg) (w : Nat) :
    (add_epi32 (ilvr_h zeroes (vaddq_u16 (ilvr_b zeroes v) (ilvl_b zeroes v)))
      (ilvl_h zeroes (vaddq_u16 (ilvr_b zeroes v) (ilvl_b zeroes v)))).s w =
      BitVec.ofNat 32 ((v w).toNat + (v (8 + w)).toNat + ((v (4 + w)).toNat + (v (12 + w)).toNat)) := by
  unfold add_epi32
  rw [s_ofS, ilvr_h_zero, ilvl_h_zero]
  unfold vaddq_u16
  rw [h_ofH, h_ofH, ilvr_b_zero, ilvl_b_zero, ilvr_b_zero, ilvl_b_zero]
  simp only [u8_16, ofNat_add16]
  rw [u16_32 (by have := toNat8_lt (v w); have := toNat8_lt (v (8 + w)); omega), u16_32 (by
    have := toNat8_lt (v (4 + w)); have := toNat8_lt (v (8 + (4 + w))); omega), ofNat_add32,
    ← Nat.add_assoc 8 4 w]

theorem sums_depth {x4 : Nat → Nat → VReg} {c w : Nat} {b : Nat → UInt8}
    (h : ∀ p d, p < 8 → d < 2 → x4 (2 * c + p / 4) (p / 2 % 2) (8 * (p % 2) + (4 * d + w)) =
      (b (2 * p + d)).toBitVec) {s : Nat → VReg}
    (hs : ∀ i, i < 4 → (s i).s w = BitVec.ofNat 32 ((x4 (2 * c + i / 2) (i % 2) w).toNat +
      (x4 (2 * c + i / 2) (i % 2) (8 + w)).toNat + ((x4 (2 * c + i / 2) (i % 2) (4 + w)).toNat +
      (x4 (2 * c + i / 2) (i % 2) (12 + w)).toNat))) :
    (add_epi32 (add_epi32 (s 0) (s 1)) (add_epi32 (s 2) (s 3))).s w =
      BitVec.ofInt 32 (sumTo 16 fun d => ((b d).toNat : Int)) := by
  unfold add_epi32
  simp only [s_ofS]
  rw [hs 0 (by omega), hs 1 (by omega), hs 2 (by omega), hs 3 (by omega), ← sum16]
  simp only [ofNat_add32]
  have h0 := h 0 0 (by omega) (by omega)
  have h1 := h 0 1 (by omega) (by omega)
  have h2 := h 1 0 (by omega) (by omega)
  have h3 := h 1 1 (by omega) (by omega)
  have h4 := h 2 0 (by omega) (by omega)
  have h5 := h 2 1 (by omega) (by omega)
  have h6 := h 3 0 (by omega) (by omega)
  have h7 := h 3 1 (by omega) (by omega)
  have h8 := h 4 0 (by omega) (by omega)
  have h9 := h 4 1 (by omega) (by omega)
  have h10 := h 5 0 (by omega) (by omega)
  have h11 := h 5 1 (by omega) (by omega)
  have h12 := h 6 0 (by omega) (by omega)
  have h13 := h 6 1 (by omega) (by omega)
  have h14 := h 7 0 (by omega) (by omega)
  have h15 := h 7 1 (by omega) (by omega)
  simp only [Nat.reduceMul, Nat.reduceDiv, Nat.reduceMod, Nat.reduceAdd, Nat.zero_add, Nat.mul_zero,
    Nat.zero_div, Nat.zero_mod, Nat.mul_one, Nat.add_zero, ← Nat.add_assoc] at h0 h1 h2 h3 h4 h5 h6 h7 h8 h9 h10 h11 h12 h13 h14 h15 ⊢
  rw [h0, h1, h2, h3, h4, h5, h6, h7, h8, h9, h10, h11, h12, h13, h14, h15]
  simp only [toNat_toBitVec]
  congr 1
  omega

theorem neonSumsDepth_ok : SumsOk neonSumsDepth (fun w d => 4 * d + w) := by
  intro x4 c w b hw h
  exact sums_depth h (s := fun i => vaddl_u16 (vaddl_u8 (x4 (2 * c + i / 2) (i % 2))
      (vget_high (x4 (2 * c + i / 2) (i % 2)))) (vget_high (vaddl_u8 (x4 (2 * c + i / 2) (i % 2))
      (vget_high (x4 (2 * c + i / 2) (i % 2)))))) fun i _ => lane_depth _ _

theorem msaSumsDepth_ok : SumsOk msaSumsDepth (fun w d => 4 * d + w) := by
  intro x4 c w b hw h
  exact sums_depth h (s := fun i =>
    add_epi32 (ilvr_h zeroes (vaddq_u16 (ilvr_b zeroes (x4 (2 * c + i / 2) (i % 2)))
      (ilvl_b zeroes (x4 (2 * c + i / 2) (i % 2)))))
      (ilvl_h zeroes (vaddq_u16 (ilvr_b zeroes (x4 (2 * c + i / 2) (i % 2)))
      (ilvl_b zeroes (x4 (2 * c + i / 2) (i % 2)))))) fun i _ => lane_depth_msa _ _

/-- The sums of pairs of bytes in lanes of 16 bits. -/
theorem vpaddlq_h (v : VReg) (i : Nat) :
    (vpaddlq_u8 v).h i = BitVec.ofNat 16 ((v (2 * i)).toNat + (v (2 * i + 1)).toNat) := by
  unfold vpaddlq_u8
  rw [h_ofH, u8_16, u8_16, ofNat_add16]

theorem hadd_u_h_h (v : VReg) (i : Nat) :
    (hadd_u_h v v).h i = BitVec.ofNat 16 ((v (2 * i)).toNat + (v (2 * i + 1)).toNat) := by
  unfold hadd_u_h
  rw [h_ofH, u8_16, u8_16, ofNat_add16, Nat.add_comm]

theorem vaddq_h (a b : VReg) (i : Nat) : (vaddq_u16 a b).h i = a.h i + b.h i := by
  unfold vaddq_u16; rw [h_ofH]

theorem sums_width {x4 : Nat → Nat → VReg} {c w : Nat} {b : Nat → UInt8}
    (h : ∀ p d, p < 8 → d < 2 → x4 (2 * c + p / 4) (p / 2 % 2) (8 * (p % 2) + (w * 2 + d)) =
      (b (2 * p + d)).toBitVec) {s : Nat → VReg}
    (hs : ∀ i l, i < 4 → (s i).h l = BitVec.ofNat 16 ((x4 (2 * c + i / 2) (i % 2) (2 * l)).toNat +
      (x4 (2 * c + i / 2) (i % 2) (2 * l + 1)).toNat)) :
    ∃ n m, (vaddq_u16 (vaddq_u16 (s 0) (s 1)) (vaddq_u16 (s 2) (s 3))).h w = BitVec.ofNat 16 n ∧
      (vaddq_u16 (vaddq_u16 (s 0) (s 1)) (vaddq_u16 (s 2) (s 3))).h (4 + w) = BitVec.ofNat 16 m ∧
      n ≤ 2040 ∧ m ≤ 2040 ∧
      BitVec.ofNat 32 (n + m) = BitVec.ofInt 32 (sumTo 16 fun d => ((b d).toNat : Int)) := by
  simp only [vaddq_h]
  rw [hs 0 _ (by omega), hs 1 _ (by omega), hs 2 _ (by omega), hs 3 _ (by omega), hs 0 _ (by omega),
    hs 1 _ (by omega), hs 2 _ (by omega), hs 3 _ (by omega)]
  simp only [ofNat_add16]
  refine ⟨_, _, rfl, rfl, ?_, ?_, ?_⟩
  · have := fun i l => toNat8_lt (x4 (2 * c + i / 2) (i % 2) l)
    have a0 := this 0 (2 * w); have a1 := this 0 (2 * w + 1)
    have a2 := this 1 (2 * w); have a3 := this 1 (2 * w + 1)
    have a4 := this 2 (2 * w); have a5 := this 2 (2 * w + 1)
    have a6 := this 3 (2 * w); have a7 := this 3 (2 * w + 1)
    omega
  · have := fun i l => toNat8_lt (x4 (2 * c + i / 2) (i % 2) l)
    have a0 := this 0 (2 * (4 + w)); have a1 := this 0 (2 * (4 + w) + 1)
    have a2 := this 1 (2 * (4 + w)); have a3 := this 1 (2 * (4 + w) + 1)
    have a4 := this 2 (2 * (4 + w)); have a5 := this 2 (2 * (4 + w) + 1)
    have a6 := this 3 (2 * (4 + w)); have a7 := this 3 (2 * (4 + w) + 1)
    omega
  · have h0 := h 0 0 (by omega) (by omega)
    have h1 := h 0 1 (by omega) (by omega)
    have h2 := h 1 0 (by omega) (by omega)
    have h3 := h 1 1 (by omega) (by omega)
    have h4 := h 2 0 (by omega) (by omega)
    have h5 := h 2 1 (by omega) (by omega)
    have h6 := h 3 0 (by omega) (by omega)
    have h7 := h 3 1 (by omega) (by omega)
    have h8 := h 4 0 (by omega) (by omega)
    have h9 := h 4 1 (by omega) (by omega)
    have h10 := h 5 0 (by omega) (by omega)
    have h11 := h 5 1 (by omega) (by omega)
    have h12 := h 6 0 (by omega) (by omega)
    have h13 := h 6 1 (by omega) (by omega)
    have h14 := h 7 0 (by omega) (by omega)
    have h15 := h 7 1 (by omega) (by omega)
    rw [Nat.mul_comm w 2] at h0 h1 h2 h3 h4 h5 h6 h7 h8 h9 h10 h11 h12 h13 h14 h15
    rw [Nat.mul_add 2 4 w]
    simp only [Nat.reduceMul, Nat.reduceDiv, Nat.reduceMod, Nat.reduceAdd, Nat.zero_add, Nat.mul_zero,
      Nat.zero_div, Nat.zero_mod, Nat.mul_one, Nat.add_zero, ← Nat.add_assoc] at h0 h1 h2 h3 h4 h5 h6 h7 h8 h9 h10 h11 h12 h13 h14 h15 ⊢
    rw [h0, h1, h2, h3, h4, h5, h6, h7, h8, h9, h10, h11, h12, h13, h14, h15, ← sum16]
    simp only [toNat_toBitVec]
    congr 1
    omega

theorem neonSumsWidth_ok : SumsOk neonSumsWidth (fun w d => w * 2 + d) := by
  intro x4 c w b hw h
  obtain ⟨n, m, e1, e2, hn, hm, e3⟩ := sums_width h
    (s := fun i => vpaddlq_u8 (x4 (2 * c + i / 2) (i % 2))) fun i l _ => vpaddlq_h _ _
  unfold neonSumsWidth vmovl_u16
  dsimp only at e1 e2 ⊢
  simp only [Nat.mul_zero, Nat.mul_one, Nat.reduceAdd]
  rw [s_ofS, vaddq_h, h_high]
  rw [e1, e2, ofNat_add16, u16_32 (by omega), e3]

theorem msaSumsWidth_ok : SumsOk msaSumsWidth (fun w d => w * 2 + d) := by
  intro x4 c w b hw h
  obtain ⟨n, m, e1, e2, hn, hm, e3⟩ := sums_width h
    (s := fun i => hadd_u_h (x4 (2 * c + i / 2) (i % 2)) (x4 (2 * c + i / 2) (i % 2)))
    fun i l _ => hadd_u_h_h _ _
  unfold msaSumsWidth add_epi32
  dsimp only at e1 e2 ⊢
  simp only [Nat.mul_zero, Nat.mul_one, Nat.reduceAdd]
  rw [s_ofS, ilvr_h_zero, ilvl_h_zero, e1, e2, u16_32 (by omega), u16_32 (by omega), ofNat_add32, e3]

end

end Gemmlowp.PackSimd
