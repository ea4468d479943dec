import Verif.IntSizesPack
/-!
# No overflow in the `int` arithmetic of the kernel loops, of unpacking and of the drivers
-/
namespace Gemmlowp
namespace IntSizes

/-- The block parameters of a product. -/
structure ParOk (b : Params) (k : KernelFormat) (reg : Nat) : Prop where
  lhs : SideOk (b.side .lhs) k.lhs reg
  rhs : SideOk (b.side .rhs) k.rhs reg
  res : b.l2_rows * b.l2_cols ≤ 2147483647
  cd : k.lhs.cd = k.rhs.cd

theorem resultMap_ok {b : Params} {k : KernelFormat} {reg : Nat} (h : ParOk b k reg) :
    MapOk (resultMap b) := by
  have a1 : 0 < b.l1_rows := h.lhs.l1w_pos
  have a2 : b.l1_rows ≤ b.l2_rows := h.lhs.l1w_le
  have a3 : b.l2_rows ≤ 1073741823 := h.lhs.l2w_le
  have b1 : 0 < b.l1_cols := h.rhs.l1w_pos
  have b2 : b.l1_cols ≤ b.l2_cols := h.rhs.l1w_le
  have b3 : b.l2_cols ≤ 1073741823 := h.rhs.l2w_le
  have hr := h.res
  refine ⟨by show 0 ≤ b.l2_rows; omega, a3, by show 0 ≤ b.l2_cols; omega, b3,
    by show 0 ≤ b.l2_rows; omega, ?_, ?_⟩
  · show (b.l2_rows - 1) * 1 ≤ _; omega
  · show (b.l2_cols - 1) * b.l2_rows ≤ _
    rw [Int.sub_mul, Int.mul_comm b.l2_cols]; omega

theorem mul_le_of_le_one {a x y : Int} (ha : 0 ≤ a) (hx : 0 < x) (h : a * x ≤ y) : a ≤ y := by
  have := Int.mul_le_mul_of_nonneg_left (by omega : 1 ≤ x) ha
  omega

theorem cellOffset_ok {f : SideFormat} {reg : Nat} (hf : FmtOk f reg) {dc rc n : Int} (h0 : 0 ≤ dc)
    (hdc : (dc + 1) * f.cd ≤ n) (hr0 : 0 ≤ rc) (hrc : rc < f.cells)
    (hn : f.kw * n ≤ 2147483647) : ∃ x, cellOffset f dc rc = .ok x := by
  have hcw := hf.wf.cw_pos
  have hcd := hf.wf.cd_pos
  have hcells := hf.wf.cells_pos
  have h1 : (dc * f.cells + rc + 1) ≤ (dc + 1) * f.cells := by rw [Int.add_mul]; omega
  have h2 : 0 ≤ dc * (f.cells : Int) := Int.mul_nonneg h0 (by omega)
  have h3 : (dc * f.cells + rc) * f.cw * f.cd ≤ 2147483647 := by
    have a1 : (dc * f.cells + rc) * (f.cw * f.cd) ≤ ((dc + 1) * f.cells) * ((f.cw : Int) * f.cd) :=
      Int.mul_le_mul_of_nonneg_right (by omega) (Int.mul_nonneg (by omega) (by omega))
    have a2 : ((dc + 1) * f.cells) * ((f.cw : Int) * f.cd) = f.kw * ((dc + 1) * f.cd) := by
      unfold SideFormat.kw; push_cast; ring
    have a3 : (f.kw : Int) * ((dc + 1) * f.cd) ≤ f.kw * n := Int.mul_le_mul_of_nonneg_left hdc (by omega)
    rw [Int.mul_assoc]; omega
  have h4 : 0 ≤ (dc * f.cells + rc) * (f.cw : Int) := Int.mul_nonneg (by omega) (by omega)
  have h5 := mul_le_of_le_one h4 (by omega) h3
  have h6 := mul_le_of_le_one (by omega) (by omega) h5
  unfold cellOffset
  rw [cint_le h2 (by omega), ok_bind, cint_le (by omega) h6, ok_bind, cint_le h4 h5, ok_bind,
    cint_le (Int.mul_nonneg h4 (by omega)) h3]
  exact ⟨_, rfl⟩

theorem kernelRun_ok {k : KernelFormat} {reg : Nat} (hl : FmtOk k.lhs reg) (hr : FmtOk k.rhs reg)
    (hcd : k.lhs.cd = k.rhs.cd) {n : Int} (h0 : 0 ≤ n) (hn1 : n ≤ 1073741823)
    (h1 : k.lhs.kw * n ≤ 2147483647) (h2 : k.rhs.kw * n ≤ 2147483647) :
    kernelRun k n = .ok () := by
  have c1 := hl.cells_le
  have c2 := hl.kw_le
  have c3 := hr.cells_le
  have c4 := hr.kw_le
  have hcd0 := hl.wf.cd_pos
  have hd : (0 : Int) < k.kDepth := by show (0 : Int) < (k.lhs.cd : Nat); omega
  have hle : n / (k.kDepth : Int) ≤ n := Int.ediv_le_self _ h0
  unfold kernelRun
  apply forI_unit (by omega) (by omega)
  intro dc d0 d1 _
  have hdc : (dc + 1) * (k.lhs.cd : Int) ≤ n := by
    have a1 := Int.mul_ediv_add_emod n k.kDepth
    have a2 := Int.emod_nonneg n (by omega : (k.kDepth : Int) ≠ 0)
    have a3 : (dc + 1) * (k.kDepth : Int) ≤ n / (k.kDepth : Int) * (k.kDepth : Int) :=
      Int.mul_le_mul_of_nonneg_right (by omega) (by omega)
    rw [Int.mul_comm (n / (k.kDepth : Int))] at a3
    show (dc + 1) * (k.kDepth : Int) ≤ n
    omega
  apply forI_unit (by omega) (by omega)
  intro rc r0 r1 _
  obtain ⟨x, hx⟩ := cellOffset_ok hl d0 hdc r0 r1 h1
  rw [hx, ok_bind]
  apply forI_unit (by omega) (by omega)
  intro cc e0 e1 _
  obtain ⟨y, hy⟩ := cellOffset_ok hr d0 (by rw [← hcd]; exact hdc) e0 e1 h2
  rw [hy, ok_bind, pure_ok]

theorem kw_depth {p : SidePar} {f : SideFormat} {reg : Nat} (hp : SideOk p f reg) {n : Int} (h0 : 0 ≤ n)
    (hn : n ≤ p.l2_depth) : (f.kw : Int) * n ≤ 2147483647 := by
  have h1 := hp.l1w_pos
  have h2 := hp.l1w_le
  have hkw := hp.fmt.wf.kw_pos
  have h3 := mult_le (a := 0) (by omega) (Int.dvd_zero _) hp.l2w_dvd (by omega)
  have h4 : (f.kw : Int) * n ≤ p.l2_width * n := Int.mul_le_mul_of_nonneg_right (by omega) h0
  have h5 : p.l2_width * n ≤ p.l2_width * p.l2_depth := Int.mul_le_mul_of_nonneg_left hn (by omega)
  have := hp.size
  omega

theorem computeRun_ok {b : Params} {k : KernelFormat} {reg : Nat} (h : ParOk b k reg) {r c d n : Int}
    (hr0 : 0 ≤ r) (hr : r + k.kRows ≤ b.l2_rows) (hc0 : 0 ≤ c) (hc : c + k.kCols ≤ b.l2_cols)
    (hd0 : 0 ≤ d) (hd : d + n ≤ b.l2_depth) (hn0 : 0 ≤ n) : computeRun k b r c d n = .ok () := by
  have kr : 0 < k.kRows := h.lhs.fmt.wf.kw_pos
  have kc : 0 < k.kCols := h.rhs.fmt.wf.kw_pos
  have ld : b.l2_depth ≤ 1073741823 := h.lhs.l2d_le
  obtain ⟨e1, _⟩ := seekRun_ok h.lhs (x := r) (sd := d) hr0 (by show r ≤ b.l2_rows; omega) hd0
    (by show d ≤ b.l2_depth; omega)
  obtain ⟨e2, _⟩ := seekRun_ok h.rhs (x := c) (sd := d) hc0 (by show c ≤ b.l2_cols; omega) hd0
    (by show d ≤ b.l2_depth; omega)
  obtain ⟨p, e3, _⟩ := block_ok (resultMap_ok h) (i := r) (j := c) (da := k.kRows) (db := k.kCols) hr0
    (by show r < b.l2_rows; omega) (by omega) hr hc0 (by show c < b.l2_cols; omega) (by omega) hc
  unfold computeRun
  rw [e1, ok_bind, e2, ok_bind, e3, ok_bind]
  exact kernelRun_ok h.lhs.fmt h.rhs.fmt h.cd hn0 (by omega)
    (kw_depth h.lhs hn0 (by show n ≤ b.l2_depth; omega)) (kw_depth h.rhs hn0 (by show n ≤ b.l2_depth; omega))

theorem computeL1_ok {b : Params} {k : KernelFormat} {reg : Nat} (h : ParOk b k reg) {r rs d n : Int}
    (hr0 : 0 ≤ r) (hrsd : (k.kRows : Int) ∣ rs) (hr : r + rs ≤ b.l2_rows) (hd0 : 0 ≤ d)
    (hd : d + n ≤ b.l2_depth) (hn0 : 0 ≤ n) (hnd : (k.kDepth : Int) ∣ n) :
    computeL1 k b r rs 0 b.l2_cols d n = .ok () := by
  have kr : 0 < k.kRows := h.lhs.fmt.wf.kw_pos
  have kc : 0 < k.kCols := h.rhs.fmt.wf.kw_pos
  have kr2 : k.kRows ≤ 1024 := h.lhs.fmt.kw_le
  have kc2 : k.kCols ≤ 1024 := h.rhs.fmt.kw_le
  have a3 : b.l2_rows ≤ 1073741823 := h.lhs.l2w_le
  have b3 : b.l2_cols ≤ 1073741823 := h.rhs.l2w_le
  have hcd : (k.kCols : Int) ∣ b.l2_cols := h.rhs.l2w_dvd
  unfold computeL1
  rw [decide_eq_true (Int.emod_eq_zero_of_dvd hrsd), decide_eq_true (Int.emod_eq_zero_of_dvd hcd),
    decide_eq_true (Int.emod_eq_zero_of_dvd hnd)]
  simp only [assertM_true, ok_bind]
  apply forI_unit (by omega) (by omega)
  intro c c0 c1 c2
  have c3 := mult_le (by omega) (by simpa using c2) hcd c1
  apply forI_unit (by omega) (by omega)
  intro r' r0 r1 r2
  have r3 := mult_le (by omega) (by simpa using r2) hrsd r1
  rw [cint_le (by omega) (by omega), ok_bind, cint_le (by omega) (by omega), ok_bind]
  exact computeRun_ok h (by omega) (by omega) (by omega) (by omega) hd0 hd hn0

theorem compute_ok {b : Params} {k : KernelFormat} {reg : Nat} (h : ParOk b k reg) {depth : Nat}
    (hd0 : 0 < depth) (hd : b.l2_depth = (roundUp reg depth : Nat)) : compute k b depth = .ok () := by
  have ld : b.l2_depth ≤ 1073741823 := h.lhs.l2d_le
  have hreg := h.lhs.fmt.wf.reg_pos
  have hreg2 := h.lhs.fmt.reg_le
  have hcd0 := h.lhs.fmt.wf.cd_pos
  have hcd1 := h.lhs.fmt.cd_le
  have hkd : 0 < k.kDepth := hcd0
  have hkd1 : k.kDepth ≤ reg := hcd1
  have hkdr : k.kDepth ∣ reg := h.lhs.fmt.wf.cd_dvd
  have l1 := le_roundUp hreg depth
  have l2 : roundUp k.kDepth depth ≤ roundUp reg depth :=
    roundUp_le_of_dvd hkd (Nat.dvd_trans hkdr (roundUp_dvd _ _)) l1
  have l3 := roundUp_dvd k.kDepth depth
  have p1 : 0 < b.l1_depth := h.lhs.l1d_pos
  have p2 : b.l1_depth ≤ b.l2_depth := h.lhs.l1d_le
  have p3 : (reg : Int) ∣ b.l1_depth := h.lhs.l1d_dvd
  have r1 : 0 < b.l1_rows := h.lhs.l1w_pos
  have r2 : b.l1_rows ≤ b.l2_rows := h.lhs.l1w_le
  have r3 : b.l2_rows ≤ 1073741823 := h.lhs.l2w_le
  have r4 : (k.kRows : Int) ∣ b.l1_rows := h.lhs.l1w_dvd
  have r5 : (k.kRows : Int) ∣ b.l2_rows := h.lhs.l2w_dvd
  unfold compute
  rw [roundUpI_eq hkd (by omega)]
  dsimp only
  have l3' : (k.kDepth : Int) ∣ (roundUp k.kDepth depth : Nat) := Int.natCast_dvd_natCast.mpr l3
  generalize roundUp k.kDepth depth = D at l2 l3' ⊢
  rw [decide_eq_true (by omega), assertM_true, ok_bind]
  apply forI_unit p1 (by omega)
  intro d d0 d1 d2
  rw [cint_le (by omega) (by omega), ok_bind]
  apply forI_unit r1 (by omega)
  intro r s0 s1 s2
  rw [cint_le (by omega) (by omega), ok_bind]
  have kk : (k.kDepth : Int) ∣ b.l1_depth := Int.dvd_trans (Int.natCast_dvd_natCast.mpr hkdr) p3
  have d2' : b.l1_depth ∣ d := by simpa using d2
  have s2' : b.l1_rows ∣ r := by simpa using s2
  refine computeL1_ok h s0 ?_ (by omega) d0 (by omega) (by omega) ?_
  · rcases Int.le_total b.l1_rows (b.l2_rows - r) with h' | h'
    · rw [Int.min_eq_left h']; exact r4
    · rw [Int.min_eq_right h']; exact Int.dvd_sub r5 (Int.dvd_trans r4 s2')
  · rcases Int.le_total b.l1_depth (D - d) with h' | h'
    · rw [Int.min_eq_left h']; exact kk
    · rw [Int.min_eq_right h']; exact Int.dvd_sub l3' (Int.dvd_trans kk d2')

/-! ## Unpacking -/

theorem loadBlock_ok {m : Map} (h : MapOk m) {R C : Nat} (hR : R ≤ 8) (hC : C ≤ 8) {r c : Int} (hr0 : 0 ≤ r)
    (hr : r + R ≤ m.a) (hc0 : 0 ≤ c) (hc : c + C ≤ m.b) : loadBlock R C m r c = .ok () := by
  have := h.a_le
  have := h.b_le
  unfold loadBlock
  refine rect_ok (by omega) (by omega) fun i j i0 i1 j0 j1 => ?_
  rw [cint_le (by omega) (by omega), ok_bind, cint_le (by omega) (by omega), ok_bind,
    data_ok h (by omega) (by omega) (by omega) (by omega)]
  rfl

theorem prefetchResult_ok {b : Params} {k : KernelFormat} {reg : Nat} (h : ParOk b k reg) {C : Nat}
    (hC : C ≤ 8) (hC0 : 0 < C) {r c : Int} (hr0 : 0 ≤ r) (hr : r ≤ b.l2_rows) (hc0 : 0 ≤ c)
    (hc : c + C ≤ b.l2_cols) : prefetchResult C (resultMap b) r c = .ok () := by
  have a1 : 0 < b.l1_rows := h.lhs.l1w_pos
  have a2 : b.l1_rows ≤ b.l2_rows := h.lhs.l1w_le
  have a3 : b.l2_rows ≤ 1073741823 := h.lhs.l2w_le
  have hres := h.res
  rw [Int.mul_comm] at hres
  have key : ∀ x : Int, 0 ≤ x → x < b.l2_cols → cint (x * b.l2_rows) = .ok (x * b.l2_rows) := by
    intro x x0 x1
    have := Int.mul_le_mul_of_nonneg_right (by omega : x ≤ b.l2_cols) (by omega : 0 ≤ b.l2_rows)
    exact cint_le (Int.mul_nonneg x0 (by omega)) (by omega)
  have hd : (resultMap b).data r c = .ok (0 + r * 1 + c * b.l2_rows) := by
    show (do
      let x ← cint (r * 1)
      let y ← cint (c * b.l2_rows)
      pure ((0 : Int) + x + y)) = _
    rw [cint_le (by omega) (by omega), ok_bind, key c hc0 (by omega)]
    rfl
  unfold prefetchResult
  rw [hd, ok_bind]
  apply forI_unit (by omega) (by omega)
  intro x x0 x1 _
  show (do
    let _ ← cint (x * b.l2_rows)
    pure ()) = _
  rw [key x x0 (by omega)]
  rfl

/-- A block of the result of `rows x cols` entries starting at (`sr`, `sc`). -/
structure BlkOk (b : Params) (dst : Map) (sr sc rows cols : Int) : Prop where
  sr0 : 0 ≤ sr
  sc0 : 0 ≤ sc
  rows0 : 0 ≤ rows
  cols0 : 0 ≤ cols
  rows_le : rows ≤ b.l2_rows
  cols_le : cols ≤ b.l2_cols
  row_end : sr + rows ≤ dst.a
  col_end : sc + cols ≤ dst.b

theorem unpackBlock_ok {b : Params} {k : KernelFormat} {reg : Nat} (h : ParOk b k reg) {dst : Map}
    (hd : MapOk dst) {sr sc rows cols : Int} (hb : BlkOk b dst sr sc rows cols) {R C : Nat} (hR : R ≤ 8)
    (hC : C ≤ 8) {r c : Int} (hr0 : 0 ≤ r) (hr : r + R ≤ rows) (hc0 : 0 ≤ c) (hc : c + C ≤ cols) :
    unpackBlock R C (resultMap b) dst r c sr sc = .ok () := by
  obtain ⟨b1, b2, b3, b4, b5, b6, b7, b8⟩ := hb
  have := hd.a_le
  have := hd.b_le
  unfold unpackBlock storeBlock
  rw [cint_le (by omega) (by omega), ok_bind, cint_le (by omega) (by omega), ok_bind,
    loadBlock_ok (resultMap_ok h) hR hC hr0 (by show r + R ≤ b.l2_rows; omega) hc0
      (by show c + C ≤ b.l2_cols; omega), ok_bind,
    loadBlock_ok hd hR hC (by omega) (by omega) (by omega) (by omega)]

theorem stripCols_ok {b : Params} {k : KernelFormat} {reg : Nat} (h : ParOk b k reg) {dst : Map}
    (hd : MapOk dst) {sr sc rows cols : Int} (hb : BlkOk b dst sr sc rows cols) {C : Nat}
    (hC : C ≤ 8) (hC0 : 0 < C) {c : Int} (hc0 : 0 ≤ c) (hc : c + C ≤ cols) :
    stripCols C (resultMap b) dst rows sr sc c = .ok () := by
  have r3 : b.l2_rows ≤ 1073741823 := h.lhs.l2w_le
  have b3 := hb.rows0
  have b4 := hb.rows_le
  have b5 := hb.cols_le
  unfold stripCols
  rw [prefetchResult_ok h hC hC0 (by omega) (by omega) hc0 (by omega), ok_bind]
  obtain ⟨r, e1, s1, s2, s3⟩ := strip_ok (n := rows) (step := 8) (r := 0) (body := fun r => do
      let x ← cint (r + 8)
      prefetchResult C (resultMap b) x c
      unpackBlock 8 C (resultMap b) dst r c sr sc) (by omega) (by omega) b3 (by omega) b3
    (fun i i0 i1 => by
      rw [cint_le (by omega) (by omega), ok_bind, prefetchResult_ok h hC hC0 (by omega) (by omega) hc0
        (by omega), ok_bind, unpackBlock_ok h hd hb (by omega) hC i0 i1 hc0 hc])
  rw [e1, ok_bind]
  obtain ⟨r', e2, t1, t2, t3⟩ := strip_ok (n := rows) (step := 4) (r := r)
    (body := fun r => unpackBlock 4 C (resultMap b) dst r c sr sc) (by omega) (by omega) b3 (by omega) s2
    (fun i i0 i1 => unpackBlock_ok h hd hb (by omega) hC (by omega) i1 hc0 hc)
  rw [e2, ok_bind]
  obtain ⟨r'', e3, _⟩ := strip_ok (n := rows) (step := 1) (r := r')
    (body := fun r => unpackBlock 1 C (resultMap b) dst r c sr sc) (by omega) (by omega) b3 (by omega) t2
    (fun i i0 i1 => unpackBlock_ok h hd hb (by omega) hC (by omega) i1 hc0 hc)
  rw [e3, ok_bind, pure_ok]

theorem strip8_ok {b : Params} {k : KernelFormat} {reg : Nat} (h : ParOk b k reg) {dst : Map}
    (hd : MapOk dst) {sr sc rows cols : Int} (hb : BlkOk b dst sr sc rows cols) {c : Int} (hc0 : 0 ≤ c)
    (hc : c + 8 ≤ cols) : strip8 (resultMap b) dst rows sr sc c = .ok () := by
  have r3 : b.l2_rows ≤ 1073741823 := h.lhs.l2w_le
  have c3 : b.l2_cols ≤ 1073741823 := h.rhs.l2w_le
  have b3 := hb.rows0
  have b4 := hb.rows_le
  have b5 := hb.cols_le
  have b6 := hb.sc0
  have b7 := hb.sr0
  have b8 := hb.row_end
  have b9 := hb.col_end
  have da := hd.a_le
  have db := hd.b_le
  unfold strip8
  rw [prefetchResult_ok h (by omega) (by omega) (by omega) (by omega) hc0 (by omega), ok_bind]
  have two : ∀ R : Nat, R ≤ 8 → ∀ r : Int, 0 ≤ r → r + R ≤ rows →
      forI 0 8 4 (fun cx _ => do
        let c ← cint (c + cx)
        unpackBlock R 4 (resultMap b) dst r c sr sc) () = .ok () := by
    intro R hR r r0 r1
    apply forI_unit (by omega) (by omega)
    intro x x0 x1 x2
    have x3 := mult_le (a := x) (b := 8) (s := 4) (by omega) (by simpa using x2) ⟨2, by omega⟩ x1
    rw [cint_le (by omega) (by omega), ok_bind]
    exact unpackBlock_ok h hd hb hR (by omega) r0 r1 (by omega) (by push_cast; omega)
  obtain ⟨r, e1, s1, s2, s3⟩ := strip_ok (n := rows) (step := 8) (r := 0) (body := fun r => do
      let gr ← cint (r + sr)
      let x ← cint (r + 8)
      prefetchResult 8 (resultMap b) x c
      forI 0 8 4 (fun cx _ => do
        let c ← cint (c + cx)
        let _ ← cint (c + sc)
        loadBlock 8 4 (resultMap b) r c) ()
      let gc ← cint (c + sc)
      storeBlock 8 8 dst gr gc) (by omega) (by omega) b3 (by omega) b3
    (fun i i0 i1 => by
      rw [cint_le (by omega) (by omega), ok_bind, cint_le (by omega) (by omega), ok_bind,
        prefetchResult_ok h (by omega) (by omega) (by omega) (by omega) hc0 (by omega), ok_bind,
        forI_unit (by omega) (by omega) (fun x x0 x1 x2 => by
          have x3 := mult_le (a := x) (b := 8) (s := 4) (by omega) (by simpa using x2) ⟨2, by omega⟩ x1
          rw [cint_le (by omega) (by omega), ok_bind, cint_le (by omega) (by omega), ok_bind]
          exact loadBlock_ok (resultMap_ok h) (by omega) (by omega) i0
            (by show i + 8 ≤ b.l2_rows; omega) (by omega)
            (by show c + x + 4 ≤ b.l2_cols; omega)), ok_bind, cint_le (by omega) (by omega), ok_bind]
      exact loadBlock_ok hd (by omega) (by omega) (by omega) (by push_cast; omega) (by omega)
        (by push_cast; omega))
  rw [e1, ok_bind]
  obtain ⟨r', e2, t1, t2, t3⟩ := strip_ok (n := rows) (step := 4) (r := r) (body := fun r =>
      forI 0 8 4 (fun cx _ => do
        let c ← cint (c + cx)
        unpackBlock 4 4 (resultMap b) dst r c sr sc) ()) (by omega) (by omega) b3 (by omega) s2
    (fun i i0 i1 => two 4 (by omega) i (by omega) i1)
  rw [e2, ok_bind]
  obtain ⟨r'', e3, _⟩ := strip_ok (n := rows) (step := 1) (r := r') (body := fun r =>
      forI 0 8 4 (fun cx _ => do
        let c ← cint (c + cx)
        unpackBlock 1 4 (resultMap b) dst r c sr sc) ()) (by omega) (by omega) b3 (by omega) t2
    (fun i i0 i1 => two 1 (by omega) i (by omega) i1)
  rw [e3, ok_bind, pure_ok]

theorem unpack_ok {b : Params} {k : KernelFormat} {reg : Nat} (h : ParOk b k reg) {dst : Map}
    (hd : MapOk dst) {sr sc rows cols : Int} (hb : BlkOk b dst sr sc rows cols) :
    unpack b dst sr sc rows cols = .ok () := by
  have c3 : b.l2_cols ≤ 1073741823 := h.rhs.l2w_le
  have b3 := hb.cols0
  have b4 := hb.rows0
  have b5 := hb.cols_le
  have b6 := hb.sc0
  have b7 := hb.sr0
  have b8 := hb.row_end
  have b9 := hb.col_end
  have da := hd.a_le
  have db := hd.b_le
  unfold unpack
  rw [decide_eq_true b7, decide_eq_true b6]
  simp only [assertM_true, ok_bind]
  rw [cint_le (by omega) (by omega), ok_bind, decide_eq_true b8, assertM_true, ok_bind,
    cint_le (by omega) (by omega), ok_bind, decide_eq_true b9, assertM_true, ok_bind]
  have tail : ∀ c8 : Int, 0 ≤ c8 → c8 ≤ cols → (do
      let c ← strip cols 4 (stripCols 4 (resultMap b) dst rows sr sc) c8
      let _ ← strip cols 1 (stripCols 1 (resultMap b) dst rows sr sc) c
      pure ()) = .ok () := by
    intro c8 s1 s2
    obtain ⟨c, e2, t1, t2, _⟩ := strip_ok (n := cols) (step := 4) (r := c8)
      (body := stripCols 4 (resultMap b) dst rows sr sc) (by omega) s1 b3 (by omega) s2
      (fun i i0 i1 => stripCols_ok h hd hb (by omega) (by omega) (by omega) i1)
    rw [e2, ok_bind]
    obtain ⟨c', e3, _⟩ := strip_ok (n := cols) (step := 1) (r := c)
      (body := stripCols 1 (resultMap b) dst rows sr sc) (by omega) (by omega) b3 (by omega) t2
      (fun i i0 i1 => stripCols_ok h hd hb (by omega) (by omega) (by omega) i1)
    rw [e3, ok_bind, pure_ok]
  by_cases hm : dst.majorA = true
  · rw [if_pos hm]
    obtain ⟨c8, e, s1, s2, _⟩ := strip_ok (n := cols) (step := 8) (r := 0)
      (body := strip8 (resultMap b) dst rows sr sc) (by omega) (by omega) b3 (by omega) b3
      (fun i i0 i1 => strip8_ok h hd hb i0 i1)
    rw [e, ok_bind]
    exact tail c8 s1 s2
  · rw [if_neg hm]; exact tail 0 (by omega) b3

/-! ## The drivers -/

/-- Sizes of a product for which the block parameters can be computed. -/
structure InitOk (k : KernelFormat) (reg rows cols depth nt : Nat) (t : Tuning) : Prop where
  wf : k.WF reg
  kRows_le : k.kRows ≤ 1024
  kCols_le : k.kCols ≤ 1024
  reg_le : reg ≤ 1024
  tuning : TuningOk t
  rows_pos : 0 < rows
  cols_pos : 0 < cols
  depth_pos : 0 < depth
  cols_le : cols ≤ rows
  threads : 0 < nt
  rows_le : roundUp k.kRows rows ≤ 1073741823
  depth_le : roundUp reg depth ≤ 1073741823
  rhs_size : roundUp k.kCols cols * roundUp reg depth ≤ 2147483647
  res_size : roundUp k.kRows rows * roundUp k.kCols cols ≤ 2147483647
  threads_le : nt ≤ 2147483647
  cache : t.factorIsOne = false → nt * (roundUp reg depth + 4 * roundUp k.kCols cols) ≤ 2147483647

/-- Sizes of a product that also leave room for the packed LHS. -/
structure SizesOk (k : KernelFormat) (reg rows cols depth nt : Nat) (t : Tuning) : Prop
    extends InitOk k reg rows cols depth nt t where
  lhs_size : roundUp k.kRows rows * roundUp reg depth ≤ 2147483647

theorem InitOk.cols_small {k : KernelFormat} {reg rows cols depth nt : Nat} {t : Tuning}
    (h : InitOk k reg rows cols depth nt t) : roundUp k.kCols cols ≤ 47400 := by
  have hkr0 : 0 < k.kRows := h.wf.lhs.kw_pos
  have hkc0 : 0 < k.kCols := h.wf.rhs.kw_pos
  have lr := le_roundUp hkr0 rows
  have lc := le_roundUp hkc0 cols
  have lt := roundUp_lt hkc0 cols
  have := h.kCols_le
  have := h.cols_le
  by_contra hn
  have h1 : 46375 ≤ cols := by omega
  have h2 : 46375 * 46375 ≤ roundUp k.kRows rows * roundUp k.kCols cols :=
    Nat.mul_le_mul (by omega) (by omega)
  have := h.res_size
  omega

theorem initI_eq {k : KernelFormat} {reg rows cols depth nt : Nat} {t : Tuning}
    (h : InitOk k reg rows cols depth nt t) {b : BlockParams}
    (hb : BlockParams.init k reg rows cols depth nt t = .ok b) :
    initI k reg rows cols depth nt t = .ok (Params.of b) := by
  have hc := h.cols_small
  obtain ⟨b', hb', g⟩ := init_good h.wf h.rows_pos h.cols_pos h.depth_pos h.threads t
  rw [hb] at hb'
  injection hb' with hb'
  subst hb'
  unfold BlockParams.init at hb
  cases h2 : findL2BlockSizes k reg rows cols depth nt t with
  | error e => rw [h2] at hb; cases hb
  | ok x =>
    obtain ⟨l2r, l2c, l2d⟩ := x
    rw [h2, ok_bind] at hb
    dsimp only at hb
    cases h1 : findL1BlockSizes k reg l2r l2c l2d t with
    | error e => rw [h1] at hb; cases hb
    | ok y =>
      obtain ⟨l1r, l1c, l1d⟩ := y
      rw [h1, ok_bind] at hb
      injection hb with hb
      subst hb
      have k1 := h.kRows_le
      have k2 := h.kCols_le
      have k3 := h.reg_le
      have k4 := h.rows_le
      have k5 := h.depth_le
      have g1 := g.l2_rows_le
      have g2 := g.l2_cols_le
      have g3 := g.l2_depth_eq
      dsimp only at g1 g2 g3
      unfold initI
      rw [findL2_eq h.wf h.tuning h.rows_pos h.cols_pos h.depth_pos h.threads h.threads_le k4 (by omega) k5
        (by omega) (by omega) (by omega) (fun _ => h.rhs_size) h.cache h2, ok_bind]
      dsimp only
      rw [findL1_eq h.wf h.tuning g.l2_rows_pos g.l2_cols_pos (by
          show 0 < l2d; rw [g3]; exact roundUp_pos h.wf.lhs.reg_pos h.depth_pos) g.l2_rows_dvd g.l2_cols_dvd
          (by show reg ∣ l2d; rw [g3]; exact roundUp_dvd _ _) (by show l2r ≤ _; omega)
          (by show l2c ≤ _; omega) (by show l2d ≤ _; omega) (by omega) (by omega) (by omega) h1, ok_bind]
      rfl

theorem parOk {k : KernelFormat} {reg rows cols depth nt : Nat} {t : Tuning}
    (h : SizesOk k reg rows cols depth nt t) {b : BlockParams} (g : b.Good k reg rows cols depth) :
    ParOk (Params.of b) k reg := by
  have hc := h.cols_small
  have k4 := h.rows_le
  have k5 := h.depth_le
  have g1 := g.l2_rows_le
  have g2 := g.l2_cols_le
  have g3 := g.l2_depth_eq
  have d : ∀ {x y : Nat}, x ∣ y → (x : Int) ∣ (y : Int) := fun h => Int.natCast_dvd_natCast.mpr h
  refine ⟨⟨⟨h.wf.lhs, h.kRows_le, h.reg_le⟩, ?_, ?_, d g.l1_rows_dvd, d g.l1_depth_dvd, d g.l2_rows_dvd,
    d (by rw [g3]; exact roundUp_dvd _ _), ?_, ?_, ?_, ?_, ?_⟩,
    ⟨⟨h.wf.rhs, h.kCols_le, h.reg_le⟩, ?_, ?_, d g.l1_cols_dvd, d g.l1_depth_dvd, d g.l2_cols_dvd,
    d (by rw [g3]; exact roundUp_dvd _ _), ?_, ?_, ?_, ?_, ?_⟩, ?_, h.wf.depth⟩
  · show (0 : Int) < b.l1_rows; have := g.l1_rows_pos; omega
  · show (0 : Int) < b.l1_depth; have := g.l1_depth_pos; omega
  · show (b.l1_rows : Int) ≤ b.l2_rows; have := g.l1_rows_le; omega
  · show (b.l1_depth : Int) ≤ b.l2_depth; have := g.l1_depth_le; omega
  · show (b.l2_rows : Int) ≤ _; omega
  · show (b.l2_depth : Int) ≤ _; omega
  · show (b.l2_rows : Int) * b.l2_depth ≤ _
    have := Nat.mul_le_mul g1 (Nat.le_of_eq g3)
    have := h.lhs_size
    have e : (b.l2_rows : Int) * b.l2_depth = ((b.l2_rows * b.l2_depth : Nat) : Int) := by push_cast; rfl
    omega
  · show (0 : Int) < b.l1_cols; have := g.l1_cols_pos; omega
  · show (0 : Int) < b.l1_depth; have := g.l1_depth_pos; omega
  · show (b.l1_cols : Int) ≤ b.l2_cols; have := g.l1_cols_le; omega
  · show (b.l1_depth : Int) ≤ b.l2_depth; have := g.l1_depth_le; omega
  · show (b.l2_cols : Int) ≤ _; omega
  · show (b.l2_depth : Int) ≤ _; omega
  · show (b.l2_cols : Int) * b.l2_depth ≤ _
    have := Nat.mul_le_mul g2 (Nat.le_of_eq g3)
    have := h.rhs_size
    have e : (b.l2_cols : Int) * b.l2_depth = ((b.l2_cols * b.l2_depth : Nat) : Int) := by push_cast; rfl
    omega
  · show (b.l2_rows : Int) * b.l2_cols ≤ _
    have := Nat.mul_le_mul g1 g2
    have := h.res_size
    have e : (b.l2_rows : Int) * b.l2_cols = ((b.l2_rows * b.l2_cols : Nat) : Int) := by push_cast; rfl
    omega

theorem packedSize_ok {p : SidePar} {f : SideFormat} {reg : Nat} (hp : SideOk p f reg) :
    packedSize p = .ok (p.l2_width * p.l2_depth) := by
  have a1 := hp.l1w_pos
  have a2 := hp.l1w_le
  have a3 := hp.l1d_pos
  have a4 := hp.l1d_le
  exact cint_le (Int.mul_nonneg (by omega) (by omega)) hp.size

theorem resultSize_ok {b : Params} {k : KernelFormat} {reg : Nat} (h : ParOk b k reg) :
    resultSize b = .ok (b.l2_rows * b.l2_cols) := by
  have a1 : 0 < b.l1_rows := h.lhs.l1w_pos
  have a2 : b.l1_rows ≤ b.l2_rows := h.lhs.l1w_le
  have b1 : 0 < b.l1_cols := h.rhs.l1w_pos
  have b2 : b.l1_cols ≤ b.l2_cols := h.rhs.l1w_le
  exact cint_le (Int.mul_nonneg (by omega) (by omega)) h.res

theorem offsetBlock_ok {size start len : Int} (h0 : 0 ≤ start) (hl : 0 ≤ len) (h : start + len ≤ size)
    (hs : size ≤ 2147483647) : offsetBlock size start len = .ok () := by
  unfold offsetBlock
  rw [decide_eq_true h0, assertM_true, ok_bind, cint_le (by omega) (by omega), ok_bind, decide_eq_true h,
    assertM_true]

/-- The map of a matrix of the model fits. -/
theorem mapOf_ok {m : MatrixMap} (ha : m.rows ≤ 1073741823) (hb : m.cols ≤ 1073741823)
    (h1 : (m.rows - 1) * m.rowsStride ≤ 2147483647) (h2 : (m.cols - 1) * m.colsStride ≤ 2147483647)
    (hr : 0 < m.rows) (hc : 0 < m.cols) : MapOk (Map.of m) := by
  have e1 : (Map.of m).strideA = m.rowsStride := by
    unfold Map.strideA Map.of MatrixMap.rowsStride; cases m.order <;> rfl
  have e2 : (Map.of m).strideB = m.colsStride := by
    unfold Map.strideB Map.of MatrixMap.colsStride; cases m.order <;> rfl
  refine ⟨by show (0 : Int) ≤ m.rows; omega, by show (m.rows : Int) ≤ _; omega,
    by show (0 : Int) ≤ m.cols; omega, by show (m.cols : Int) ≤ _; omega,
    by show (0 : Int) ≤ m.stride; omega, ?_, ?_⟩
  · rw [e1]; show ((m.rows : Int) - 1) * m.rowsStride ≤ _
    have e : ((m.rows : Int) - 1) * m.rowsStride = (((m.rows - 1) * m.rowsStride : Nat) : Int) := by
      rw [Nat.cast_mul, Nat.cast_sub (by omega)]; rfl
    omega
  · rw [e2]; show ((m.cols : Int) - 1) * m.colsStride ≤ _
    have e : ((m.cols : Int) - 1) * m.colsStride = (((m.cols - 1) * m.colsStride : Nat) : Int) := by
      rw [Nat.cast_mul, Nat.cast_sub (by omega)]; rfl
    omega

theorem single_ok {k : KernelFormat} {reg rows cols depth : Nat} {t : Tuning}
    (h : SizesOk k reg rows cols depth 1 t) {lhs rhs result : Map} (hl : MapOk lhs) (hr : MapOk rhs)
    (ho : MapOk result) (la : lhs.a = rows) (lb : lhs.b = depth) (ra : rhs.a = depth) (rb : rhs.b = cols)
    (oa : result.a = rows) (ob : result.b = cols) : single k reg t lhs rhs result = .ok () := by
  obtain ⟨b, hb, g⟩ := init_good h.wf h.rows_pos h.cols_pos h.depth_pos h.threads t
  have hp := parOk h g
  have hI := initI_eq h.toInitOk hb
  have r0 := h.rows_pos
  have c0 := h.cols_pos
  have d0 := h.depth_pos
  have cr := h.cols_le
  have k4 := h.rows_le
  have k5 := h.depth_le
  have kc := h.cols_small
  have g1 := g.l2_rows_le
  have g2 := g.l2_cols_le
  have g3 := g.l2_depth_eq
  have g4 := g.l2_rows_pos
  have g5 := g.l2_cols_pos
  have lr : rows ≤ roundUp k.kRows rows := le_roundUp h.wf.lhs.kw_pos rows
  have lc : cols ≤ roundUp k.kCols cols := le_roundUp h.wf.rhs.kw_pos cols
  have ld := le_roundUp h.wf.lhs.reg_pos depth
  have q1 : (Params.of b).l2_rows = b.l2_rows := rfl
  have q2 : (Params.of b).l2_cols = b.l2_cols := rfl
  have q3 : (Params.of b).l2_depth = b.l2_depth := rfl
  unfold single
  rw [decide_eq_true (by omega : lhs.b = rhs.a), assertM_true, ok_bind]
  dsimp only
  rw [decide_eq_true (by omega : 0 < result.a), decide_eq_true (by omega : 0 < result.b),
    decide_eq_true (by omega : 0 < lhs.b), decide_eq_true (by omega : result.b ≤ result.a)]
  simp only [assertM_true, ok_bind]
  rw [oa, ob, lb]
  have hI' : initI k reg rows cols depth 1 t = .ok (Params.of b) := by exact_mod_cast hI
  rw [hI', ok_bind, packedSize_ok hp.lhs, ok_bind, packedSize_ok hp.rhs, ok_bind, resultSize_ok hp, ok_bind]
  have pr : ∀ m : Map, MapOk m → m.a ≤ b.l2_cols → m.b = depth →
      packL2 k.rhs reg ((Params.of b).side .rhs) m = .ok () := by
    intro m hm h1 h2
    exact packL2_ok hp.rhs hm h1 (by show m.b ≤ (b.l2_depth : Int); omega)
  have body : ∀ once : Bool, once = decide ((cols : Int) ≤ (Params.of b).l2_cols) →
      forI 0 (rows : Int) (Params.of b).l2_rows (fun r _ => do
        let x ← cint ((rows : Int) - r)
        let rs := min (Params.of b).l2_rows x
        let blk ← lhs.block r 0 rs depth
        packL2 k.lhs reg ((Params.of b).side .lhs) blk
        forI 0 (cols : Int) (Params.of b).l2_cols (fun c _ => do
          let y ← cint ((cols : Int) - c)
          let cs := min (Params.of b).l2_cols y
          if once then pure () else do
            let blk ← rhs.block 0 c depth cs
            packL2 k.rhs reg ((Params.of b).side .rhs) blk.flip
          compute k (Params.of b) depth
          unpack (Params.of b) result r c rs cs
          offsetBlock rows r rs
          offsetBlock cols c cs) ()) () = .ok () := by
    intro once honce
    apply forI_unit (by omega) (by omega)
    intro r r0 r1 _
    rw [cint_le (by omega) (by omega), ok_bind]
    dsimp only
    obtain ⟨p, e1, m1⟩ := block_ok hl (i := r) (j := 0) (da := min (Params.of b).l2_rows (rows - r)) (db := depth)
      r0 (by omega) (by omega) (by omega) (by omega) (by omega) (by omega) (by omega)
    rw [e1, ok_bind, packL2_ok hp.lhs m1 (by show min (b.l2_rows : Int) _ ≤ (b.l2_rows : Int); omega)
      (by show (depth : Int) ≤ (b.l2_depth : Int); omega), ok_bind]
    apply forI_unit (by omega) (by omega)
    intro c c0 c1 _
    rw [cint_le (by omega) (by omega), ok_bind]
    have hbk : BlkOk (Params.of b) result r c (min (Params.of b).l2_rows (rows - r))
        (min (Params.of b).l2_cols (cols - c)) :=
      ⟨r0, c0, by omega, by omega, by omega, by omega, by omega, by omega⟩
    have tail : (do
        compute k (Params.of b) depth
        unpack (Params.of b) result r c (min (Params.of b).l2_rows (rows - r))
          (min (Params.of b).l2_cols (cols - c))
        offsetBlock rows r (min (Params.of b).l2_rows (rows - r))
        offsetBlock cols c (min (Params.of b).l2_cols (cols - c))) = .ok () := by
      rw [compute_ok hp h.depth_pos (by show (b.l2_depth : Int) = _; omega), ok_bind, unpack_ok hp ho hbk,
        ok_bind, offsetBlock_ok r0 (by omega) (by omega) (by omega), ok_bind,
        offsetBlock_ok c0 (by omega) (by omega) (by omega)]
    cases once
    · rw [if_neg (by decide)]
      obtain ⟨p, e2, m2⟩ := block_ok hr (i := 0) (j := c) (da := depth) (db := min (Params.of b).l2_cols (cols - c))
        (by omega) (by omega) (by omega) (by omega) c0 (by omega) (by omega) (by omega)
      rw [e2, ok_bind, pr _ (flip_ok m2) (by show min (b.l2_cols : Int) _ ≤ _; omega) rfl, ok_bind]
      exact tail
    · rw [if_pos rfl]; exact tail
  by_cases hon : (cols : Int) ≤ (Params.of b).l2_cols
  · have hd := decide_eq_true hon
    rw [hd, if_pos rfl, pr _ (flip_ok hr) (by show rhs.b ≤ _; omega) (by show rhs.a = _; omega), ok_bind]
    exact body true hd.symm
  · have hd := decide_eq_false hon
    rw [hd, if_neg (by decide)]
    exact body false hd.symm

theorem nextRow_eq {kRows rows tc n : Nat} (hk : 0 < kRows) (hk2 : kRows ≤ 1024) (htc : 0 < tc) (htc2 : tc ≤ 2147483647)
    (hn : n < tc) (h : rows * tc ≤ 2147483647) (hr : rows ≤ 1073741823) :
    nextRow kRows rows tc n = .ok ((min rows (roundUp kRows (rows * (n + 1) / tc)) : Nat) : Int) := by
  have h1 : rows * (n + 1) ≤ rows * tc := Nat.mul_le_mul_left rows hn
  have h2 : rows * (n + 1) / tc ≤ rows := by
    apply Nat.div_le_of_le_mul
    rw [Nat.mul_comm tc]; exact h1
  unfold nextRow
  have c1 : (rows : Int) * ((n : Int) + 1) = ((rows * (n + 1) : Nat) : Int) := by push_cast; rfl
  rw [cint_le (by omega) (by omega), ok_bind, c1, cint_nat (by omega), ok_bind, cdivI_nat htc (by omega), ok_bind,
    roundUpI_eq hk (by omega), pure_ok]
  congr 1
  omega

theorem task_ok {k : KernelFormat} {reg rows cols depth nt : Nat} {t : Tuning}
    (h : SizesOk k reg rows cols depth nt t) {b : BlockParams} (g : b.Good k reg rows cols depth)
    {lhs result : Map} (hl : MapOk lhs) (ho : MapOk result) (lb : lhs.b = depth) (oa : result.a = rows)
    (ob : result.b = cols) {sr sc cs : Int} (hsr : 0 ≤ sr) (hrs : sr + lhs.a ≤ rows)
    (hsc : 0 ≤ sc) (hcs0 : 0 ≤ cs) (hcs : sc + cs ≤ cols) :
    task k reg (Params.of b) lhs result sr sc lhs.a cs = .ok () := by
  have hp := parOk h g
  have r0 := h.rows_pos
  have c0 := h.cols_pos
  have d0 := h.depth_pos
  have k4 := h.rows_le
  have k5 := h.depth_le
  have kc := h.cols_small
  have g1 := g.l2_rows_le
  have g2 := g.l2_cols_le
  have g3 := g.l2_depth_eq
  have g4 := g.l2_rows_pos
  have g5 := g.l2_cols_pos
  have la := hl.a_nonneg
  have lr : rows ≤ roundUp k.kRows rows := le_roundUp h.wf.lhs.kw_pos rows
  have lc : cols ≤ roundUp k.kCols cols := le_roundUp h.wf.rhs.kw_pos cols
  have ld := le_roundUp h.wf.lhs.reg_pos depth
  have q1 : (Params.of b).l2_rows = b.l2_rows := rfl
  have q2 : (Params.of b).l2_cols = b.l2_cols := rfl
  have q3 : (Params.of b).l2_depth = b.l2_depth := rfl
  unfold task
  rw [packedSize_ok hp.lhs, ok_bind, resultSize_ok hp, ok_bind]
  apply forI_unit (by omega) (by omega)
  intro c c0 c1 _
  rw [cint_le (by omega) (by omega), ok_bind]
  dsimp only
  apply forI_unit (by omega) (by omega)
  intro r r0 r1 _
  rw [cint_le (by omega) (by omega), ok_bind]
  obtain ⟨p, e1, m1⟩ := block_ok hl (i := r) (j := 0) (da := min (Params.of b).l2_rows (lhs.a - r)) (db := lhs.b)
    r0 (by omega) (by omega) (by omega) (by omega) (by omega) (by omega) (by omega)
  rw [e1, ok_bind, packL2_ok hp.lhs m1 (by show min (b.l2_rows : Int) _ ≤ (b.l2_rows : Int); omega)
    (by show lhs.b ≤ (b.l2_depth : Int); omega), ok_bind, lb,
    compute_ok hp h.depth_pos (by show (b.l2_depth : Int) = _; omega), ok_bind, cint_le (by omega) (by omega), ok_bind,
    cint_le (by omega) (by omega), ok_bind]
  have hbk : BlkOk (Params.of b) result (sr + r) (sc + c) (min (Params.of b).l2_rows (lhs.a - r))
      (min (Params.of b).l2_cols (cs - c)) :=
    ⟨by omega, by omega, by omega, by omega, by omega, by omega, by omega, by omega⟩
  rw [unpack_ok hp ho hbk, ok_bind, offsetBlock_ok (by omega) (by omega) (by omega) (by omega), ok_bind,
    offsetBlock_ok (by omega) (by omega) (by omega) (by omega)]

theorem multi_ok {k : KernelFormat} {reg rows cols depth tc : Nat} {t : Tuning}
    (h : SizesOk k reg rows cols depth tc t) (hsplit : rows * tc ≤ 2147483647) {lhs rhs result : Map}
    (hl : MapOk lhs) (hl2 : lhs.a * lhs.strideA ≤ 2147483647) (hr : MapOk rhs)
    (ho : MapOk result) (la : lhs.a = rows) (lb : lhs.b = depth) (ra : rhs.a = depth) (rb : rhs.b = cols)
    (oa : result.a = rows) (ob : result.b = cols) : multi k reg t tc lhs rhs result = .ok () := by
  obtain ⟨b, hb, g⟩ := init_good h.wf h.rows_pos h.cols_pos h.depth_pos h.threads t
  have hp := parOk h g
  have hI := initI_eq h.toInitOk hb
  have r0 := h.rows_pos
  have c0 := h.cols_pos
  have d0 := h.depth_pos
  have cr := h.cols_le
  have k4 := h.rows_le
  have k5 := h.depth_le
  have kr := h.kRows_le
  have kc := h.cols_small
  have g1 := g.l2_rows_le
  have g2 := g.l2_cols_le
  have g3 := g.l2_depth_eq
  have g4 := g.l2_rows_pos
  have g5 := g.l2_cols_pos
  have kr0 : 0 < k.kRows := h.wf.lhs.kw_pos
  have lr : rows ≤ roundUp k.kRows rows := le_roundUp h.wf.lhs.kw_pos rows
  have lc : cols ≤ roundUp k.kCols cols := le_roundUp h.wf.rhs.kw_pos cols
  have ld := le_roundUp h.wf.lhs.reg_pos depth
  have q1 : (Params.of b).l2_rows = b.l2_rows := rfl
  have q2 : (Params.of b).l2_cols = b.l2_cols := rfl
  have q3 : (Params.of b).l2_depth = b.l2_depth := rfl
  have htc := h.threads
  have htc2 := h.threads_le
  unfold multi
  rw [decide_eq_true (by omega : lhs.b = rhs.a), assertM_true, ok_bind]
  dsimp only
  rw [decide_eq_true (by omega : 0 < result.a), decide_eq_true (by omega : 0 < result.b),
    decide_eq_true (by omega : 0 < lhs.b), decide_eq_true (by omega : result.b ≤ result.a)]
  simp only [assertM_true, ok_bind]
  rw [oa, ob, lb, hI, ok_bind, packedSize_ok hp.rhs, ok_bind]
  apply forI_unit (by omega) (by omega)
  intro c c0 c1 _
  rw [cint_le (by omega) (by omega), ok_bind]
  obtain ⟨p, e2, m2⟩ := block_ok hr (i := 0) (j := c) (da := depth) (db := min (Params.of b).l2_cols (cols - c))
    (by omega) (by omega) (by omega) (by omega) c0 (by omega) (by omega) (by omega)
  rw [e2, ok_bind, packL2_ok hp.rhs (flip_ok m2) (by show min (b.l2_cols : Int) _ ≤ (b.l2_cols : Int); omega)
    (by show (depth : Int) ≤ (b.l2_depth : Int); omega), ok_bind]
  let st : Nat → Nat := fun i => min rows (roundUp k.kRows (rows * i / tc))
  have mono : ∀ i, st i ≤ st (i + 1) := by
    intro i
    have a1 : rows * i / tc ≤ rows * (i + 1) / tc := Nat.div_le_div_right (Nat.mul_le_mul_left _ (by omega))
    have a2 := roundUp_mono kr0 a1
    show min _ _ ≤ min _ _
    omega
  have zero : st 0 = 0 := by
    have e : roundUp k.kRows 0 = 0 := Nat.eq_zero_of_le_zero (roundUp_le_of_dvd kr0 (Nat.dvd_zero _) (Nat.le_refl _))
    show min rows (roundUp k.kRows (rows * 0 / tc)) = 0
    rw [Nat.mul_zero, Nat.zero_div, e, Nat.min_zero]
  obtain ⟨s', e', hl', _⟩ := forI_inv (lo := 0) (hi := (tc : Int)) (step := 1) (f := fun n startRow => do
      let next ← nextRow k.kRows rows tc n
      let blockRows ← cint (next - startRow)
      let blk ← lhs.block startRow 0 blockRows depth
      task k reg (Params.of b) blk result startRow c blockRows (min (Params.of b).l2_cols (cols - c))
      pure next) (fun i s => s = (st i.toNat : Nat)) (by omega) (by omega)
    (fun i s i0 i1 _ hs => by
      obtain ⟨n, rfl⟩ := Int.eq_ofNat_of_zero_le i0
      have e1 : ((n : Int) + 1).toNat = n + 1 := by omega
      have e0 : ((n : Int)).toNat = n := by omega
      rw [e0] at hs
      refine ⟨(st (n + 1) : Nat), ?_, by rw [e1]⟩
      have hm := mono n
      have hle : st (n + 1) ≤ rows := Nat.min_le_left _ _
      rw [nextRow_eq kr0 kr htc htc2 (by omega) hsplit (by omega), ok_bind]
      show (do
        let blockRows ← cint ((st (n + 1) : Nat) - s)
        let blk ← lhs.block s 0 blockRows depth
        task k reg (Params.of b) blk result s c blockRows (min (Params.of b).l2_cols (cols - c))
        pure ((st (n + 1) : Nat) : Int)) = _
      subst hs
      rw [cint_le (by omega) (by omega), ok_bind]
      have sa := hl.strideA_nonneg
      have hx : (st n : Int) * lhs.strideA ≤ lhs.a * lhs.strideA :=
        Int.mul_le_mul_of_nonneg_right (by omega) sa
      have hdat : lhs.data (st n : Nat) 0 = .ok (lhs.base + (st n : Nat) * lhs.strideA + 0 * lhs.strideB) := by
        unfold Map.data
        rw [cint_le (Int.mul_nonneg (by omega) sa) (by omega), ok_bind, cint_le (by omega) (by omega), ok_bind,
          pure_ok]
      have lal := hl.a_le
      have lbl := hl.b_le
      rw [block_data hdat (by omega) (by omega) (by omega) (by omega) (by omega) (by omega) (by omega) (by omega),
        ok_bind]
      have m3 := sub_ok hl (p := lhs.base + (st n : Nat) * lhs.strideA + 0 * lhs.strideB)
        (da := (st (n + 1) : Nat) - (st n : Nat)) (db := depth) (by omega) (by omega) (by omega) (by omega)
      have ht := task_ok h g m3 ho rfl oa ob (sr := (st n : Nat)) (sc := c)
        (cs := min (Params.of b).l2_cols (cols - c)) (by omega)
        (by show ((st n : Nat) : Int) + ((st (n + 1) : Nat) - (st n : Nat)) ≤ rows; omega) c0 (by omega) (by omega)
      rw [show task k reg (Params.of b) _ result _ c _ _ = _ from ht, ok_bind, pure_ok]) (s := 0) (by
        show (0 : Int) = (st 0 : Nat); rw [zero]; rfl)
  rw [hl', ok_bind, pure_ok]

end IntSizes
end Gemmlowp
