import Verif.OutCastProof
/-!
# The vector stores put every entry of a block at its place

What the store functions write does not depend on values, so that it can be checked once and for all: for
every set of instructions, every type, every shape and both orders, `table` says that the lane which
holds entry `(r, c)` is stored at the place of entry `(r, c)`, once.  These are all cases that exist, not a
sample.
-/
namespace Gemmlowp.OutSimd

/-- The entry of the block at whose place a store goes. -/
def Place.pos (o : MapOrder) (p : Place) : Nat × Nat :=
  match o with
  | .colMajor => (p.i + p.a + p.k, p.j + p.b + p.n)
  | .rowMajor => (p.i + p.a + p.n, p.j + p.b + p.k)

theorem Place.addr_pos (p : Place) (dst : MatrixMap) (row col : Nat) :
    p.addr dst row col = dst.addr (row + (p.pos dst.order).1) (col + (p.pos dst.order).2) := by
  unfold Place.addr Place.pos MatrixMap.addr MatrixMap.rowsStride MatrixMap.colsStride
  cases dst.order <;> simp only [Nat.mul_add, Nat.add_mul, Nat.mul_one] <;> omega

/-- The number of the entry held by a lane, registers having `L` lanes. -/
def idx (L : Nat) (s : Src) : Nat := s.1 * L + s.2

/-- A store function writes the lane of every entry to the place of the entry, once. -/
def good (A : VArch) (e : Elt) (R C : Nat) (o : MapOrder) : Bool :=
  match storeOf A e R C o with
  | none => false
  | some st =>
    let L := perReg A e (R * C)
    st.all (fun q => decide (q.2.2 < L) && decide (q.2.1 < R * C / L) &&
      decide (q.1.pos o = (idx L q.2 % R, idx L q.2 / R))) &&
    (st.map fun q => idx L q.2).isPerm (rect (fun i j => i + j * R) 0 R 0 C)

/-- The types that a set of instructions supports. -/
def Elt.Has (A : VArch) (e : Elt) : Prop := e = .i8 → A = .neon

/-- The shapes that are stored. -/
def StoreShape (R C : Nat) : Prop := Shape R C ∨ (R = 8 ∧ C = 8)

theorem table {A : VArch} {e : Elt} (h : Elt.Has A e) {R C : Nat} (hs : StoreShape R C) (o : MapOrder) :
    good A e R C o = true := by
  have hs' : (R, C) ∈ [(8, 4), (4, 4), (1, 4), (8, 1), (4, 1), (1, 1), (8, 8)] := by
    rcases hs with ⟨rfl | rfl | rfl, rfl | rfl⟩ | ⟨rfl, rfl⟩ <;> decide
  have key : ∀ q ∈ [(8, 4), (4, 4), (1, 4), (8, 1), (4, 1), (1, 1), (8, 8)], good A e q.1 q.2 o = true := by
    cases A <;> cases e <;> first | (cases h rfl; done) | (cases o <;> decide +kernel)
  exact key _ hs'

theorem srcVal_ok {A : VArch} {e : Elt} {n : Nat} {v : Nat → Int} {s : Src} (h1 : s.2 < perReg A e n)
    (h2 : s.1 < n / perReg A e n) : srcVal (finalRegs A e n v) s = .ok (v (idx (perReg A e n) s)) := by
  unfold srcVal finalRegs
  simp only [List.getElem?_map, List.getElem?_range h2, Option.map_some, List.getElem?_range h1, idx]

/-- The stores of a store function, as addresses and values. -/
theorem good_writes {A : VArch} {e : Elt} (h : Elt.Has A e) {R C : Nat} (hs : StoreShape R C) (dst : MatrixMap)
    (row col : Nat) (v : Nat → Int) :
    ∃ st, storeOf A e R C dst.order = some st ∧
      (∀ q ∈ st, ∃ i j, i < R ∧ j < C ∧ q.1.addr dst row col = dst.addr (row + i) (col + j) ∧
        srcVal (finalRegs A e (R * C) v) q.2 = .ok (v (i + j * R))) ∧
      (st.map fun q => idx (perReg A e (R * C)) q.2).Perm (rect (fun i j => i + j * R) 0 R 0 C) ∧
      ∀ q ∈ st, q.1.addr dst row col = dst.addr (row + idx (perReg A e (R * C)) q.2 % R)
          (col + idx (perReg A e (R * C)) q.2 / R) ∧
        srcVal (finalRegs A e (R * C) v) q.2 = .ok (v (idx (perReg A e (R * C)) q.2)) := by
  have hg := table h hs dst.order
  unfold good at hg
  cases hst : storeOf A e R C dst.order with
  | none => rw [hst] at hg; cases hg
  | some st =>
    rw [hst] at hg
    simp only [Bool.and_eq_true, List.all_eq_true, decide_eq_true_eq] at hg
    have hperm := List.isPerm_iff.1 hg.2
    have h2 : ∀ q ∈ st, q.1.addr dst row col = dst.addr (row + idx (perReg A e (R * C)) q.2 % R)
          (col + idx (perReg A e (R * C)) q.2 / R) ∧
        srcVal (finalRegs A e (R * C) v) q.2 = .ok (v (idx (perReg A e (R * C)) q.2)) := by
      intro q hq
      obtain ⟨⟨l1, l2⟩, l3⟩ := hg.1 q hq
      refine ⟨?_, srcVal_ok l1 l2⟩
      rw [Place.addr_pos, l3]
    refine ⟨st, rfl, fun q hq => ?_, hperm, h2⟩
    have hm := hperm.mem_iff.1 (List.mem_map_of_mem (f := fun q : Place × Src => idx (perReg A e (R * C)) q.2) hq)
    obtain ⟨i, j, hi, hj, hij⟩ := mem_rect.1 hm
    have hi' : i < R := by omega
    obtain ⟨e1, e2⟩ := h2 q hq
    have d1 : idx (perReg A e (R * C)) q.2 % R = i := by
      rw [← hij, Nat.add_mul_mod_self_right, Nat.mod_eq_of_lt hi']
    have d2 : idx (perReg A e (R * C)) q.2 / R = j := by
      rw [← hij, Nat.add_mul_div_right _ _ (by omega), Nat.div_eq_of_lt hi', Nat.zero_add]
    refine ⟨i, j, hi', by omega, ?_, ?_⟩
    · rw [e1, d1, d2]
    · rw [e2, ← hij]

theorem runStore_trace {dst : MatrixMap} {row col : Nat} {regs : List FReg} {val : Src → Int} : ∀ (st : St)
    (t : Trace Int), (∀ q ∈ st, srcVal regs q.2 = .ok (val q.2)) →
    runStore storeTrace dst row col regs st t = .ok (t ++ st.map fun q => (q.1.addr dst row col, val q.2)) := by
  intro st
  induction st with
  | nil => intro t _; simp [runStore]
  | cons q st ih =>
    intro t h
    obtain ⟨p, s⟩ := q
    unfold runStore
    rw [show srcVal regs s = _ from h _ (List.mem_cons_self ..), ok_bind]
    show runStore storeTrace dst row col regs st (t ++ [(p.addr dst row col, val s)]) = _
    rw [ih _ fun q hq => h q (List.mem_cons_of_mem _ hq)]
    simp

theorem rect_map {γ δ : Type} (F : γ → δ) (out : Nat → Nat → γ) (r0 m c0 n : Nat) :
    (rect out r0 m c0 n).map F = rect (fun r c => F (out r c)) r0 m c0 n := by
  unfold rect
  rw [List.map_flatMap]
  simp only [List.map_map]
  rfl

/-- A block stored to the result matrix. -/
theorem storeV_adds {A : VArch} {e : Elt} (h : Elt.Has A e) {R C : Nat} (hs : StoreShape R C) (dst : MatrixMap)
    (row col : Nat) (v : Nat → Int) (t : Trace Int) :
    ∃ t', storeFinalV A e storeTrace dst R C (finalRegs A e (R * C) v) row col t = .ok t' ∧
      Adds t t' (rect (fun i j => (dst.addr (row + i) (col + j), v (i + j * R))) 0 R 0 C) := by
  obtain ⟨st, e1, _, hperm, h2⟩ := good_writes h hs dst row col v
  unfold storeFinalV
  rw [e1]
  dsimp only
  refine ⟨_, runStore_trace (val := fun s => v (idx (perReg A e (R * C)) s)) st t (fun q hq => (h2 q hq).2), _, rfl, ?_⟩
  have hm : (st.map fun q => (q.1.addr dst row col, v (idx (perReg A e (R * C)) q.2))) =
      (st.map fun q => idx (perReg A e (R * C)) q.2).map
        fun x => (dst.addr (row + x % R) (col + x / R), v x) := by
    rw [List.map_map]
    apply List.map_congr_left
    intro q hq
    show _ = (_, _)
    rw [(h2 q hq).1]
  rw [hm]
  refine (hperm.map _).trans ?_
  rw [rect_map]
  apply List.Perm.of_eq
  apply rect_congr
  intro r c _ hr _ hc
  have hr' : r < R := by omega
  rw [Nat.add_mul_mod_self_right, Nat.mod_eq_of_lt hr', Nat.add_mul_div_right _ _ (by omega),
    Nat.div_eq_of_lt hr', Nat.zero_add]

theorem runStore_local {dst : MatrixMap} {row col : Nat} {regs : List FReg} {V : Nat → Int} : ∀ (st : St)
    (b : Buf (Option Int)), (∀ q ∈ st, q.1.addr dst row col < b.size ∧
      srcVal regs q.2 = .ok (V (q.1.addr dst row col))) →
    ∃ b', runStore storeLocal dst row col regs st b = .ok b' ∧ b'.size = b.size ∧ ∀ a,
      ((∃ q ∈ st, q.1.addr dst row col = a) → b'.get a = some (V a)) ∧
      ((∀ q ∈ st, q.1.addr dst row col ≠ a) → b'.get a = b.get a) := by
  intro st
  induction st with
  | nil =>
    intro b _
    exact ⟨b, rfl, rfl, fun a => ⟨fun ⟨q, hq, _⟩ => absurd hq (List.not_mem_nil), fun _ => rfl⟩⟩
  | cons q st ih =>
    intro b h
    obtain ⟨p, s⟩ := q
    have h0 := h _ (List.mem_cons_self ..)
    unfold runStore
    rw [show srcVal regs s = _ from h0.2, ok_bind]
    have hw : storeLocal (p.addr dst row col) (V (p.addr dst row col)) b =
        .ok (b.upd (p.addr dst row col) (some (V (p.addr dst row col)))) := Buf.write_ok h0.1 _
    rw [hw, ok_bind]
    obtain ⟨b', e1, e2, e3⟩ := ih (b.upd (p.addr dst row col) (some (V (p.addr dst row col))))
      (fun q hq => h q (List.mem_cons_of_mem _ hq))
    refine ⟨b', e1, e2, fun a => ⟨?_, ?_⟩⟩
    · rintro ⟨q, hq, rfl⟩
      by_cases hin : ∃ q' ∈ st, q'.1.addr dst row col = q.1.addr dst row col
      · exact (e3 _).1 hin
      · rw [(e3 _).2 (fun q' hq' he => hin ⟨q', hq', he⟩)]
        rcases List.mem_cons.1 hq with rfl | hq
        · simp [Buf.upd]
        · exact absurd ⟨q, hq, rfl⟩ hin
    · intro hn
      rw [(e3 _).2 (fun q' hq' => hn q' (List.mem_cons_of_mem _ hq'))]
      have : a ≠ p.addr dst row col := fun he => hn _ (List.mem_cons_self ..) he.symm
      simp [Buf.upd, this]

/-- An 8×4 block stored to the local column-major array of 8×8 entries. -/
theorem storeV_local {A : VArch} {e : Elt} (h : Elt.Has A e) (v : Nat → Int) (cx : Nat) (hcx : cx + 4 ≤ 8)
    (b : Buf (Option Int)) (hb : b.size = 64) :
    ∃ b', storeFinalV A e storeLocal (MatrixMap.mk3 .colMajor 0 8 8) 8 4 (finalRegs A e (8 * 4) v) 0 cx b = .ok b' ∧
      b'.size = 64 ∧ ∀ a, b'.get a =
        if 8 * cx ≤ a ∧ a < 8 * cx + 32 then some (v (a - 8 * cx)) else b.get a := by
  obtain ⟨st, e1, h1, hperm, h2⟩ := good_writes h (Or.inl ⟨Or.inl rfl, Or.inl rfl⟩)
    (MatrixMap.mk3 .colMajor 0 8 8) 0 cx v
  have haddr : ∀ i j, (MatrixMap.mk3 .colMajor 0 8 8).addr i j = i + j * 8 := by
    intro i j
    show 0 + i * 1 + j * 8 = _
    omega
  unfold storeFinalV
  rw [e1]
  dsimp only
  obtain ⟨b', q1, q2, q3⟩ := runStore_local (V := fun a => v (a - 8 * cx)) (regs := finalRegs A e (8 * 4) v)
    (dst := MatrixMap.mk3 .colMajor 0 8 8) (row := 0) (col := cx) st b (fun q hq => by
      obtain ⟨i, j, hi, hj, ea, ev⟩ := h1 q hq
      rw [ea, haddr]
      refine ⟨by omega, ?_⟩
      rw [ev]
      congr 2
      omega)
  refine ⟨b', q1, q2.trans hb, fun a => ?_⟩
  by_cases ha : 8 * cx ≤ a ∧ a < 8 * cx + 32
  · rw [if_pos ha]
    refine (q3 a).1 ?_
    have hm : (a - 8 * cx) ∈ rect (fun i j => i + j * 8) 0 8 0 4 :=
      mem_rect.2 ⟨(a - 8 * cx) % 8, (a - 8 * cx) / 8, by omega, by omega, by omega⟩
    obtain ⟨q, hq, hx⟩ := List.mem_map.1 (hperm.mem_iff.2 hm)
    refine ⟨q, hq, ?_⟩
    rw [(h2 q hq).1, haddr, show idx (perReg A e (8 * 4)) q.2 = _ from hx]
    omega
  · rw [if_neg ha]
    refine (q3 a).2 fun q hq he => ?_
    obtain ⟨i, j, hi, hj, ea, ev⟩ := h1 q hq
    rw [ea, haddr] at he
    omega

end Gemmlowp.OutSimd
