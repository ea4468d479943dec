import Verif.Kernel
/-!
# The end of the assembly kernels: accumulating into and storing to the destination block
-/
namespace Gemmlowp.Asm

/-- A register block of the result: a register whose 32-bit lanes are consecutive rows of a column,
starting at row `row` of column `col`. -/
structure Tile where
  reg : Nat
  row : Nat
  col : Nat
  deriving DecidableEq

/-- Add the `n` lanes in memory to the register (`paddd off(dst_ptr, …), x`).  `x r i` is 32-bit lane
`i` of register `r`.  The SSE instruction needs the address to be a multiple of 16 bytes (four
elements); the block of results it points into is aligned (internal/allocator.h), so the position
decides.  Strides are in elements, not bytes.  Simplified: address arithmetic does not wrap around. -/
def accTile (n align : Nat) (dst : Buf (BitVec 32)) (dp cs : Nat) (x : Nat → Nat → BitVec 32)
    (t : Tile) : M (Nat → Nat → BitVec 32) :=
  let pos := dp + t.row + t.col * cs
  if pos % align = 0 then
    if pos + n ≤ dst.size then
      .ok (fun r i => if r = t.reg then x r i + dst.get (pos + i) else x r i)
    else .error .oob
  else .error .misaligned

/-- Store the `n` lanes of the register (`movdqu x, off(dst_ptr, …)`). -/
def storeTile (n : Nat) (dp cs : Nat) (x : Nat → Nat → BitVec 32) (dst : Buf (BitVec 32)) (t : Tile) :
    M (Buf (BitVec 32)) :=
  (List.range n).foldlM (fun dst i => dst.write (dp + t.row + t.col * cs + i) (x t.reg i)) dst

/-- The end of the kernels: if `start_depth` is not 0 the additions (kernel_sse.h:176-184, 471-485;
kernel_avx.h:308-325), then the stores (kernel_sse.h:186-192, 487-500; kernel_avx.h:327-343). -/
def finish (n align : Nat) (tiles : List Tile) (dst : Buf (BitVec 32)) (dp cs sd : Nat)
    (x : Nat → Nat → BitVec 32) : M (Buf (BitVec 32)) :=
  (if sd = 0 then .ok x else tiles.foldlM (accTile n align dst dp cs) x) >>= fun x =>
    tiles.foldlM (storeTile n dp cs x) dst

/-! ## Correctness -/

theorem accTiles_ok {n align dp cs : Nat} {dst : Buf (BitVec 32)} :
    ∀ (tiles : List Tile) (x : Nat → Nat → BitVec 32),
    (tiles.map Tile.reg).Nodup →
    (∀ t ∈ tiles, (dp + t.row + t.col * cs) % align = 0 ∧ dp + t.row + t.col * cs + n ≤ dst.size) →
    ∃ x', tiles.foldlM (accTile n align dst dp cs) x = .ok x' ∧
      (∀ t ∈ tiles, ∀ i, x' t.reg i = x t.reg i + dst.get (dp + t.row + t.col * cs + i)) ∧
      (∀ r, r ∉ tiles.map Tile.reg → x' r = x r) := by
  intro tiles
  induction tiles with
  | nil => intro x _ _; exact ⟨x, rfl, by simp, fun _ _ => rfl⟩
  | cons t ts ih =>
    intro x hnd hok
    rw [List.map_cons, List.nodup_cons] at hnd
    obtain ⟨ha, hs⟩ := hok t (List.mem_cons_self ..)
    obtain ⟨x', h1, h2, h3⟩ := ih (fun r i => if r = t.reg then x r i +
      dst.get (dp + t.row + t.col * cs + i) else x r i) hnd.2
      (fun t' ht' => hok t' (List.mem_cons_of_mem _ ht'))
    refine ⟨x', ?_, ?_, ?_⟩
    · rw [List.foldlM_cons]
      unfold accTile
      dsimp only
      rw [if_pos ha, if_pos hs, ok_bind]
      exact h1
    · intro t' ht' i
      rcases List.mem_cons.1 ht' with rfl | h
      · rw [h3 _ hnd.1]; exact if_pos rfl
      · rw [h2 t' h i, if_neg]
        intro he
        exact hnd.1 (List.mem_map.2 ⟨t', h, he⟩)
    · intro r hr
      rw [List.map_cons, List.mem_cons, not_or] at hr
      rw [h3 r hr.2]
      funext i
      rw [if_neg hr.1]

/-- A sequence of stores. -/
def writeList (l : List (Nat × BitVec 32)) (dst : Buf (BitVec 32)) : M (Buf (BitVec 32)) :=
  l.foldlM (fun d p => d.write p.1 p.2) dst

theorem writeList_ok : ∀ (l : List (Nat × BitVec 32)) (dst : Buf (BitVec 32)),
    (∀ p ∈ l, p.1 < dst.size) → (∀ p ∈ l, ∀ q ∈ l, p.1 = q.1 → p.2 = q.2) →
    ∃ dst', writeList l dst = .ok dst' ∧ dst'.size = dst.size ∧
      (∀ p ∈ l, dst'.get p.1 = p.2) ∧ (∀ j, (∀ p ∈ l, j ≠ p.1) → dst'.get j = dst.get j) := by
  intro l
  induction l with
  | nil => intro dst _ _; exact ⟨dst, rfl, rfl, by simp, fun _ _ => rfl⟩
  | cons a l ih =>
    intro dst hr hc
    obtain ⟨dst', h1, h2, h3, h4⟩ := ih (dst.upd a.1 a.2)
      (fun p hp => hr p (List.mem_cons_of_mem _ hp))
      (fun p hp q hq => hc p (List.mem_cons_of_mem _ hp) q (List.mem_cons_of_mem _ hq))
    refine ⟨dst', ?_, h2, ?_, ?_⟩
    · unfold writeList
      rw [List.foldlM_cons, Buf.write_ok (hr a (List.mem_cons_self ..)), ok_bind]
      exact h1
    · intro p hp
      rcases List.mem_cons.1 hp with rfl | h
      · by_cases hin : ∃ q ∈ l, p.1 = q.1
        · obtain ⟨q, hq, he⟩ := hin
          rw [he, h3 q hq]
          exact (hc p (List.mem_cons_self ..) q (List.mem_cons_of_mem _ hq) he).symm
        · rw [h4 p.1 (fun q hq he => hin ⟨q, hq, he⟩), Buf.upd_get, if_pos rfl]
      · exact h3 p h
    · intro j hj
      rw [h4 j (fun p hp => hj p (List.mem_cons_of_mem _ hp)), Buf.upd_get,
        if_neg (hj a (List.mem_cons_self ..))]

/-- The stores of a list of blocks. -/
def tileWrites (n dp cs : Nat) (x : Nat → Nat → BitVec 32) (tiles : List Tile) :
    List (Nat × BitVec 32) :=
  tiles.flatMap fun t => (List.range n).map fun i => (dp + t.row + t.col * cs + i, x t.reg i)

theorem storeTiles_eq {n dp cs : Nat} {x : Nat → Nat → BitVec 32} :
    ∀ (tiles : List Tile) (dst : Buf (BitVec 32)),
    tiles.foldlM (storeTile n dp cs x) dst = writeList (tileWrites n dp cs x tiles) dst := by
  intro tiles
  induction tiles with
  | nil => intro dst; rfl
  | cons t ts ih =>
    intro dst
    have e : tileWrites n dp cs x (t :: ts) =
      (List.range n).map (fun i => (dp + t.row + t.col * cs + i, x t.reg i)) ++
        tileWrites n dp cs x ts := rfl
    rw [e]
    unfold writeList at ih ⊢
    rw [List.foldlM_append, List.foldlM_cons, List.foldlM_map]
    congr 1
    funext d
    exact ih d

theorem mem_tileWrites {n dp cs : Nat} {x : Nat → Nat → BitVec 32} {tiles : List Tile}
    {p : Nat × BitVec 32} : p ∈ tileWrites n dp cs x tiles ↔
      ∃ t ∈ tiles, ∃ i, i < n ∧ p = (dp + t.row + t.col * cs + i, x t.reg i) := by
  unfold tileWrites
  simp only [List.mem_flatMap, List.mem_map, List.mem_range]
  constructor
  · rintro ⟨t, ht, i, hi, rfl⟩; exact ⟨t, ht, i, hi, rfl⟩
  · rintro ⟨t, ht, i, hi, rfl⟩; exact ⟨t, ht, i, hi, rfl⟩

/-- The blocks `tiles` of `n` lanes partition a block of `R` rows and `C` columns. -/
structure Covers (n R C : Nat) (tiles : List Tile) : Prop where
  nodup : (tiles.map Tile.reg).Nodup
  inside : ∀ t ∈ tiles, t.row + n ≤ R ∧ t.col < C ∧ n ∣ t.row
  find : ∀ r c, r < R → c < C → ∃ t ∈ tiles, t.row = r / n * n ∧ t.col = c
  unique : ∀ t ∈ tiles, ∀ t' ∈ tiles, t.row = t'.row → t.col = t'.col → t.reg = t'.reg

/-- The end of a kernel leaves in each entry the lane of its register, plus the old entry if
`start_depth` is not 0, and changes nothing else. -/
theorem finish_ok {n align R C dp cs sd : Nat} {tiles : List Tile} {dst : Buf (BitVec 32)}
    {x : Nat → Nat → BitVec 32} (hn : 0 < n) (hc : Covers n R C tiles)
    (hal : ∀ t ∈ tiles, (dp + t.row + t.col * cs) % align = 0)
    (hsz : ∀ r c, r < R → c < C → dp + (r * 1 + c * cs) < dst.size)
    (hinj : ∀ r c r' c', r < R → c < C → r' < R → c' < C →
      r * 1 + c * cs = r' * 1 + c' * cs → r = r' ∧ c = c') :
    ∃ dst', finish n align tiles dst dp cs sd x = .ok dst' ∧ dst'.size = dst.size ∧
      (∀ t ∈ tiles, ∀ i, i < n → dst'.get (dp + ((t.row + i) * 1 + t.col * cs)) =
        x t.reg i + if sd = 0 then 0#32 else dst.get (dp + ((t.row + i) * 1 + t.col * cs))) ∧
      (∀ j, (∀ r c, r < R → c < C → j ≠ dp + (r * 1 + c * cs)) → dst'.get j = dst.get j) := by
  have hpos : ∀ t : Tile, ∀ i, dp + t.row + t.col * cs + i = dp + ((t.row + i) * 1 + t.col * cs) := by
    intro t i; omega
  obtain ⟨x', e1, e2⟩ : ∃ x', (if sd = 0 then .ok x else
      tiles.foldlM (accTile n align dst dp cs) x : M _) = .ok x' ∧
      ∀ t ∈ tiles, ∀ i, x' t.reg i = x t.reg i + if sd = 0 then 0#32 else
        dst.get (dp + ((t.row + i) * 1 + t.col * cs)) := by
    by_cases h0 : sd = 0
    · exact ⟨x, by rw [if_pos h0], by intro t _ i; rw [if_pos h0, BitVec.add_zero]⟩
    · obtain ⟨x', h1, h2, -⟩ := accTiles_ok (n := n) (align := align) (dp := dp) (cs := cs)
        (dst := dst) tiles x hc.nodup (by
          intro t ht
          refine ⟨hal t ht, ?_⟩
          obtain ⟨i1, i2, -⟩ := hc.inside t ht
          have := hsz (t.row + (n - 1)) t.col (by omega) i2
          omega)
      refine ⟨x', by rw [if_neg h0]; exact h1, ?_⟩
      intro t ht i
      rw [h2 t ht i, if_neg h0, hpos]
  obtain ⟨dst', f1, f2, f3, f4⟩ := writeList_ok (tileWrites n dp cs x' tiles) dst
    (by
      intro p hp
      obtain ⟨t, ht, i, hi, rfl⟩ := mem_tileWrites.1 hp
      obtain ⟨i1, i2, -⟩ := hc.inside t ht
      dsimp only
      rw [hpos]
      exact hsz _ _ (by omega) i2)
    (by
      intro p hp q hq he
      obtain ⟨t, ht, i, hi, rfl⟩ := mem_tileWrites.1 hp
      obtain ⟨t', ht', i', hi', rfl⟩ := mem_tileWrites.1 hq
      obtain ⟨i1, i2, i3⟩ := hc.inside t ht
      obtain ⟨j1, j2, j3⟩ := hc.inside t' ht'
      dsimp only at he ⊢
      rw [hpos, hpos] at he
      obtain ⟨a1, a2⟩ := hinj _ _ _ _ (by omega) i2 (by omega) j2 (Nat.add_left_cancel he)
      obtain ⟨u, hu⟩ := i3
      obtain ⟨u', hu'⟩ := j3
      rw [hu, hu'] at a1
      have huu : u = u' := by
        have h1 : (n * u + i) / n = u := by rw [Nat.mul_add_div hn, Nat.div_eq_of_lt hi]; rfl
        have h2 : (n * u' + i') / n = u' := by rw [Nat.mul_add_div hn, Nat.div_eq_of_lt hi']; rfl
        rw [← h1, a1, h2]
      subst huu
      have hii : i = i' := by omega
      subst hii
      rw [hc.unique t ht t' ht' (by rw [hu, hu']) a2])
  refine ⟨dst', ?_, f2, ?_, ?_⟩
  · unfold finish
    rw [e1, ok_bind, storeTiles_eq]
    exact f1
  · intro t ht i hi
    have := f3 _ (mem_tileWrites.2 ⟨t, ht, i, hi, rfl⟩)
    dsimp only at this
    rw [hpos] at this
    rw [this, e2 t ht i]
  · intro j hj
    apply f4
    intro p hp he
    obtain ⟨t, ht, i, hi, rfl⟩ := mem_tileWrites.1 hp
    obtain ⟨i1, i2, -⟩ := hc.inside t ht
    dsimp only at he
    rw [hpos] at he
    exact hj _ _ (by omega) i2 he

end Gemmlowp.Asm
