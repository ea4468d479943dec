import Verif.MetaTransformCheck
/-!
# The transformations: loops and leftovers
-/
namespace Gemmlowp.MetaAsm

open Vec (VReg)

/-! ## Memory -/

theorem memAfter_of_bytes {a : Int} {b : BitVec 8} {m : Int → BitVec 8} : ∀ {l : List (Write VReg Int)},
    (∀ x ∈ bytesOf l, x.1 = a → x.2 = b) → (∃ x ∈ bytesOf l, x.1 = a) → memAfter l m a = b
  | [], _, h => by obtain ⟨x, hx, _⟩ := h; simp [bytesOf] at hx
  | w :: l, h, he => by
    rw [memAfter]
    have hsplit : bytesOf (w :: l) =
        ((List.range w.size).map fun (b : Nat) => (w.addr + b, w.v (w.size * w.lane + b))) ++ bytesOf l := by
      simp [bytesOf]
    rw [hsplit] at h he
    by_cases hc : w.addr ≤ a ∧ a < w.addr + w.size
    · rw [if_pos hc]
      refine h (a, _) ?_ rfl
      refine List.mem_append_left _ (List.mem_map.2 ⟨(a - w.addr).toNat, List.mem_range.2 (by omega), ?_⟩)
      rw [show w.addr + ((a - w.addr).toNat : Int) = a by omega]
    · rw [if_neg hc]
      apply memAfter_of_bytes (fun x hx => h x (List.mem_append_right _ hx))
      obtain ⟨x, hx, e⟩ := he
      rcases List.mem_append.1 hx with hx | hx
      · obtain ⟨t, ht, rfl⟩ := List.mem_map.1 hx
        rw [List.mem_range] at ht
        dsimp only at e
        omega
      · exact ⟨x, hx, e⟩

theorem memAfter_of_not {a : Int} {m : Int → BitVec 8} : ∀ {l : List (Write VReg Int)},
    (∀ x ∈ bytesOf l, x.1 ≠ a) → memAfter l m a = m a
  | [], _ => rfl
  | w :: l, h => by
    rw [memAfter]
    have hsplit : bytesOf (w :: l) =
        ((List.range w.size).map fun (b : Nat) => (w.addr + b, w.v (w.size * w.lane + b))) ++ bytesOf l := by
      simp [bytesOf]
    rw [hsplit] at h
    rw [if_neg, memAfter_of_not (fun x hx => h x (List.mem_append_right _ hx))]
    intro hc
    refine h (w.addr + ((a - w.addr).toNat : Nat), _)
      (List.mem_append_left _ (List.mem_map.2 ⟨(a - w.addr).toNat, List.mem_range.2 (by omega), rfl⟩)) ?_
    dsimp only
    omega

theorem writesIn_bytesOf (ok : Int → Bool) (l : List (Write VReg Int)) :
    writesIn ok l = true ↔ ∀ x ∈ bytesOf l, ok x.1 = true := by
  unfold writesIn bytesOf
  simp only [List.all_eq_true, List.mem_range, List.mem_flatMap, List.mem_map]
  constructor
  · rintro h _ ⟨w, hw, b, hb, rfl⟩; exact h w hw b hb
  · intro h w hw b hb; exact h _ ⟨w, hw, b, hb, rfl⟩

/-- An element in memory. -/
def elem (sz : Nat) (m : Int → BitVec 8) (a : Int) : BitVec 32 := if sz = 4 then word m a else (m a).zeroExtend 32

/-- The elements from `out` on, of `so` bytes, have become `g`; the rest of memory is as before. -/
structure Applied (m m' : Int → BitVec 8) (out : Int) (so n : Nat) (g : Nat → BitVec 32) : Prop where
  val : ∀ i k : Nat, i < n → k < so → m' (out + (so * i + k : Nat)) = (g i).extractLsb' (8 * k) 8
  rest : ∀ a, a < out ∨ out + (so * n : Nat) ≤ a → m' a = m a

theorem Applied.zero (m : Int → BitVec 8) (out : Int) (so : Nat) (g : Nat → BitVec 32) : Applied m m out so 0 g :=
  ⟨by intro i k h; omega, fun _ _ => rfl⟩

theorem Applied.append {m m1 m2 : Int → BitVec 8} {out : Int} {so n n' : Nat} {g : Nat → BitVec 32}
    (h1 : Applied m m1 out so n g) (h2 : Applied m1 m2 (out + (so * n : Nat)) so n' fun i => g (n + i)) :
    Applied m m2 out so (n + n') g := by
  have hm : so * (n + n') = so * n + so * n' := Nat.mul_add ..
  constructor
  · intro i k hi hk
    by_cases h : i < n
    · have hb : so * i + so ≤ so * n := by
        have := Nat.mul_le_mul_left so (show i + 1 ≤ n from h)
        rw [Nat.mul_add] at this; omega
      rw [h2.rest _ (by omega)]
      exact h1.val i k h hk
    · have := h2.val (i - n) k (by omega) hk
      rw [show n + (i - n) = i by omega] at this
      rw [← this]
      congr 1
      have hb : so * i = so * n + so * (i - n) := by rw [← Nat.mul_add]; congr 1; omega
      omega
  · intro a ha
    rw [h2.rest a (by omega)]
    exact h1.rest a (by omega)

/-- What a list of stores writes, in whatever order: byte `k` of `g i` at place `so * i + k` from `out` on. -/
structure Wrote (l : List (Write VReg Int)) (out : Int) (so n : Nat) (g : Nat → BitVec 32) : Prop where
  sub : ∀ x ∈ bytesOf l, ∃ i k : Nat, i < n ∧ k < so ∧ x = (out + (so * i + k : Nat), (g i).extractLsb' (8 * k) 8)
  all : ∀ i k : Nat, i < n → k < so → ∃ x ∈ bytesOf l, x.1 = out + (so * i + k : Nat)

theorem place_lt {so n i k : Nat} (hi : i < n) (hk : k < so) : so * i + k < so * n := by
  have := Nat.mul_le_mul_left so (show i + 1 ≤ n from hi)
  rw [Nat.mul_add] at this; omega

theorem place_inj {so i k i' k' : Nat} (h1 : k < so) (h2 : k' < so) (h3 : so * i + k = so * i' + k') :
    i = i' ∧ k = k' := by
  have a1 : (so * i + k) / so = i := by rw [Nat.mul_add_div (by omega), Nat.div_eq_of_lt h1, Nat.add_zero]
  have a2 : (so * i' + k') / so = i' := by rw [Nat.mul_add_div (by omega), Nat.div_eq_of_lt h2, Nat.add_zero]
  have : i = i' := by rw [← a1, ← a2, h3]
  subst this
  exact ⟨rfl, by omega⟩

theorem Wrote.applied {l : List (Write VReg Int)} {out : Int} {so n : Nat} {g : Nat → BitVec 32}
    (h : Wrote l out so n g) (m : Int → BitVec 8) : Applied m (memAfter l m) out so n g where
  val i k hi hk := by
    apply memAfter_of_bytes
    · intro x hx e
      obtain ⟨i', k', _, hk', rfl⟩ := h.sub x hx
      obtain ⟨rfl, rfl⟩ := place_inj (i := i) (i' := i') hk hk' (by dsimp only at e; omega)
      rfl
    · exact h.all i k hi hk
  rest a ha := by
    apply memAfter_of_not
    intro x hx e
    obtain ⟨i', k', hi', hk', rfl⟩ := h.sub x hx
    have := place_lt hi' hk'
    dsimp only at e
    omega

theorem Wrote.writesIn {l : List (Write VReg Int)} {out : Int} {so n : Nat} {g : Nat → BitVec 32}
    (h : Wrote l out so n g) {ok : Int → Bool} (ho : ∀ q : Nat, q < so * n → ok (out + q) = true) :
    writesIn ok l = true := by
  rw [writesIn_bytesOf]
  intro x hx
  obtain ⟨i, k, hi, hk, rfl⟩ := h.sub x hx
  exact ho _ (place_lt hi hk)

theorem Wrote.zero (out : Int) (so : Nat) (g : Nat → BitVec 32) : Wrote [] out so 0 g :=
  ⟨by intro x hx; simp [bytesOf] at hx, by intro i k h; omega⟩

theorem bytesOf_append (l l' : List (Write VReg Int)) : bytesOf (l ++ l') = bytesOf l ++ bytesOf l' := by
  simp [bytesOf]

theorem Wrote.append {l l' : List (Write VReg Int)} {out : Int} {so n n' : Nat} {g : Nat → BitVec 32}
    (h : Wrote l out so n g) (h' : Wrote l' (out + (so * n : Nat)) so n' fun i => g (n + i)) :
    Wrote (l' ++ l) out so (n + n') g where
  sub x hx := by
    rw [bytesOf_append, List.mem_append] at hx
    rcases hx with hx | hx
    · obtain ⟨i, k, hi, hk, rfl⟩ := h'.sub x hx
      refine ⟨n + i, k, by omega, hk, ?_⟩
      rw [Nat.mul_add, show out + ((so * n : Nat) : Int) + ((so * i + k : Nat) : Int) =
        out + ((so * n + so * i + k : Nat) : Int) by omega]
    · obtain ⟨i, k, hi, hk, rfl⟩ := h.sub x hx
      exact ⟨i, k, by omega, hk, rfl⟩
  all i k hi hk := by
    rw [bytesOf_append]
    by_cases hn : i < n
    · obtain ⟨x, hx, e⟩ := h.all i k hn hk
      exact ⟨x, List.mem_append_right _ hx, e⟩
    · obtain ⟨x, hx, e⟩ := h'.all (i - n) k (by omega) hk
      refine ⟨x, List.mem_append_left _ hx, ?_⟩
      have hb : so * i = so * n + so * (i - n) := by rw [← Nat.mul_add]; congr 1; omega
      omega

theorem Wrote.congr {l : List (Write VReg Int)} {out : Int} {so n : Nat} {g g' : Nat → BitVec 32}
    (h : Wrote l out so n g) (e : ∀ i, i < n → g i = g' i) : Wrote l out so n g' where
  sub x hx := by
    obtain ⟨i, k, hi, hk, e'⟩ := h.sub x hx
    exact ⟨i, k, hi, hk, by rw [e', e i hi]⟩
  all := h.all

/-! ## One block -/

theorem CE.eval_congr (f : FloatOps) (mem mem' : Int → BitVec 8) {s s' : St VReg Int} (c : CE)
    (h : ∀ p, s'.x (.par p) = s.x (.par p)) : c.ve.eval f mem s = c.ve.eval f mem' s' := by
  cases c <;> simp only [CE.ve, VE.eval, machine, XE.eval, h, Nat.cast_zero, Int.zero_mul]

/-- The registers that do not change are set. -/
def Kind.Ready (K : Kind) (f : FloatOps) (s : St VReg Int) : Prop :=
  ∀ c ∈ K.consts, s.v c.1 = c.2.ve.eval f (fun _ => 0) s

theorem Kind.start_eval {K : Kind} {f : FloatOps} {s : St VReg Int} (h : K.Ready f s) (mem : Int → BitVec 8) :
    evalSt f mem s K.start = s := by
  apply evalSt_ext
  · intro r
    show VE.eval f mem s (match K.consts.lookup r with | some c => c.ve | none => .reg r) = s.v r
    cases e : K.consts.lookup r with
    | none => rfl
    | some c =>
      have : (r, c) ∈ K.consts := by
        rw [List.lookup_eq_some_iff] at e
        obtain ⟨l1, l2, e1, _⟩ := e
        rw [e1]; simp
      rw [h _ this]
      exact CE.eval_congr f _ _ c fun _ => rfl
  · intro r
    show s.x r + (0 : Nat) * s.x .stride + 0 = s.x r
    simp
  · rfl
  · rfl
  · rfl

/-- What is computed for element `i` from memory `mem`. -/
def Kind.at (K : Kind) (f : FloatOps) (mem : Int → BitVec 8) (s : St VReg Int) (i : Nat) : BitVec 32 :=
  K.val f (fun p => s.x (.par p)) (elem K.si mem (s.x .inp + (K.si * i : Nat)))
    (elem 1 mem (s.x (K.bp.getD .inp) + i))

/-- `expr` and `val` say the same, and results fit. -/
structure Kind.Sound (K : Kind) : Prop where
  si : K.si = 1 ∨ K.si = 4
  so : K.so = 1 ∨ K.so = 4
  expr : ∀ f mem s a b, (K.expr a b).eval f mem s = K.val f (fun p => s.x (.par p)) (a.eval f mem s) (b.eval f mem s)

theorem elemE_eval (f : FloatOps) (mem : Int → BitVec 8) (s : St VReg Int) {sz : Nat} (hs : sz = 1 ∨ sz = 4) (p : X)
    (i : Nat) : (elemE sz p i).eval f mem s = elem sz mem (s.x p + (sz * i : Nat)) := by
  unfold elemE elem
  rcases hs with rfl | rfl
  · rw [if_neg (by omega), if_neg (by omega)]
    simp only [LE.eval, XE.eval, Nat.cast_zero, Int.zero_mul, Int.add_zero, Nat.one_mul]
  · rw [if_pos rfl, if_pos rfl]
    simp only [LE.eval, XE.eval, Nat.cast_zero, Int.zero_mul, Int.add_zero]

theorem zx_low (b : BitVec 8) : (b.zeroExtend 32).extractLsb' 0 8 = b := by
  apply BitVec.eq_of_toNat_eq
  have := b.isLt
  rw [BitVec.extractLsb'_toNat, BitVec.toNat_setWidth, Nat.shiftRight_zero]
  omega

theorem byteE_eval {K : Kind} (hK : K.Sound) (f : FloatOps) (mem : Int → BitVec 8) (s : St VReg Int) {i k : Nat}
    (hk : k < K.so) {b : BitVec 8} (h : b.zeroExtend 32 = (K.byteE i k).eval f mem s) :
    b = (K.at f mem s i).extractLsb' (8 * k) 8 := by
  rw [← zx_low b, h]
  unfold Kind.byteE Kind.at
  dsimp only
  have e : (K.expr (elemE K.si .inp i) (elemE 1 (K.bp.getD .inp) i)).eval f mem s =
      K.val f (fun p => s.x (.par p)) (elem K.si mem (s.x .inp + (K.si * i : Nat)))
        (elem 1 mem (s.x (K.bp.getD .inp) + i)) := by
    rw [hK.expr, elemE_eval f mem s hK.si, elemE_eval f mem s (Or.inl rfl), Nat.one_mul]
  rcases hK.so with h1 | h4
  · rw [if_neg (by omega), e, show k = 0 by omega]
  · rw [if_pos h4, LE.eval, e, zx_low]

/-- What a block does. -/
structure Kind.Block (K : Kind) (f : FloatOps) (m : Int → BitVec 8) (keep : List X) (n : Nat) (s s' : St VReg Int) :
    Prop where
  inp : s'.x .inp = s.x .inp + (K.si * n : Nat)
  out : s'.x .out = s.x .out + (K.so * n : Nat)
  bp : ∀ b, K.bp = some b → s'.x b = s.x b + n
  par : ∀ p, s'.x (.par p) = s.x (.par p)
  keep : ∀ r ∈ keep, s'.x r = s.x r
  ready : K.Ready f s'
  bytes : ∃ l, s'.wr = l ++ s.wr ∧ Wrote l (s.x .out) K.so n (K.at f (memAfter s.wr m) s)
  rd : ∀ ok : Int → Bool, (∀ q : Nat, q < K.si * n → ok (s.x .inp + q) = true) →
    (∀ b, K.bp = some b → ∀ q : Nat, q < n → ok (s.x b + q) = true) → readsIn ok s.rd = true → readsIn ok s'.rd = true

theorem Kind.Block.mem {K : Kind} {f : FloatOps} {m : Int → BitVec 8} {keep : List X} {n : Nat} {s s' : St VReg Int}
    (h : K.Block f m keep n s s') :
    Applied (memAfter s.wr m) (memAfter s'.wr m) (s.x .out) K.so n (K.at f (memAfter s.wr m) s) := by
  obtain ⟨l, e, hl⟩ := h.bytes
  rw [e, memAfter_append]
  exact hl.applied _

theorem Kind.exec_eq {K : Kind} {f : FloatOps} {s : St VReg Int} (hs : K.Ready f s) (m : Int → BitVec 8)
    (l : List Ins) : execM f m l s = evalSt f (memAfter s.wr m) s (exec sym l K.start) := by
  rw [eval_exec, K.start_eval hs]; rfl

theorem Kind.exec_x {K : Kind} {f : FloatOps} {s : St VReg Int} (hs : K.Ready f s) (m : Int → BitVec 8)
    (l : List Ins) (r : X) : (execM f m l s).x r = ((exec sym l K.start).x r).eval s.x := by
  rw [K.exec_eq hs]; rfl

theorem Kind.block {K : Kind} (hK : K.Sound) {keep : List X} {n : Nat} {l : List Ins} (h : K.blockOk keep n l = true)
    (f : FloatOps) (m : Int → BitVec 8) {s : St VReg Int} (hs : K.Ready f s) :
    K.Block f m keep n s (execM f m l s) := by
  obtain ⟨mem, hmem⟩ : ∃ mem, mem = memAfter s.wr m := ⟨_, rfl⟩
  have ex : execM f m l s = evalSt f mem s (exec sym l K.start) := by
    rw [hmem]; exact K.exec_eq hs m l
  unfold Kind.blockOk at h
  simp only [Bool.and_eq_true, decide_eq_true_eq, List.all_eq_true] at h
  obtain ⟨⟨⟨⟨⟨⟨⟨hw, hinp⟩, hout⟩, hbp⟩, hc⟩, hpar⟩, hkeep⟩, hrd⟩ := h
  have lin0 : ∀ r n, (XE.lin r 0 n).eval s.x = s.x r + n := by intro r n; simp only [XE.eval]; omega
  have xe : ∀ r, (execM f m l s).x r = ((exec sym l K.start).x r).eval s.x := by intro r; rw [ex]; rfl
  have par : ∀ p, (execM f m l s).x (.par p) = s.x (.par p) := by
    intro p; rw [xe, hpar p (mem_allPars p), lin0]; omega
  have wr : (execM f m l s).wr = (exec sym l K.start).wr.map (evalWr f mem s) ++ s.wr := by rw [ex]; rfl
  have bytes : ∀ x, x ∈ bytesOf ((exec sym l K.start).wr.map (evalWr f mem s)) → ∃ i k : Nat, i < n ∧ k < K.so ∧
      x = (s.x .out + (K.so * i + k : Nat), (K.at f mem s i).extractLsb' (8 * k) 8) := by
    intro x hx
    rw [bytesOf_eval, List.mem_map] at hx
    obtain ⟨y, hy, rfl⟩ := hx
    have := (mem_of_sameMembers hw (y.1, lane y.2.1 .b y.2.2)).1 (List.mem_map.2 ⟨y, hy, rfl⟩)
    obtain ⟨⟨i, k⟩, hik, e⟩ := List.mem_map.1 this
    rw [mem_pairs] at hik
    rw [Prod.mk.injEq] at e
    refine ⟨i, k, hik.1, hik.2, Prod.ext ?_ ?_⟩
    · dsimp only; rw [← e.1, lin0]
    · dsimp only
      apply byteE_eval hK f mem s hik.2
      rw [e.2, lane_eval]; rfl
  have all : ∀ i k : Nat, i < n → k < K.so → ∃ x ∈ bytesOf ((exec sym l K.start).wr.map (evalWr f mem s)),
      x.1 = s.x .out + (K.so * i + k : Nat) := by
    intro i k hi hk
    have := (mem_of_sameMembers hw (.lin .out 0 (K.so * i + k : Nat), K.byteE i k)).2
      (List.mem_map.2 ⟨(i, k), (mem_pairs _).2 ⟨hi, hk⟩, rfl⟩)
    obtain ⟨y, hy, e⟩ := List.mem_map.1 this
    rw [Prod.mk.injEq] at e
    rw [bytesOf_eval]
    refine ⟨_, List.mem_map.2 ⟨y, hy, rfl⟩, ?_⟩
    dsimp only
    rw [e.1, lin0]
  refine ⟨?_, ?_, ?_, par, ?_, ?_, ?_, ?_⟩
  · rw [xe, hinp, lin0]
  · rw [xe, hout, lin0]
  · intro b hb
    rw [hb] at hbp
    dsimp only at hbp
    rw [decide_eq_true_eq] at hbp
    rw [xe, hbp, lin0]
  · intro r hr
    rw [xe, hkeep r hr, lin0]; omega
  · intro c hc'
    have : (execM f m l s).v c.1 = c.2.ve.eval f mem s := by rw [ex]; show VE.eval f mem s _ = _; rw [hc c hc']
    rw [this]
    exact CE.eval_congr f _ _ _ par
  · rw [← hmem]
    exact ⟨_, wr, bytes, all⟩
  · intro ok h1 h2 h3
    rw [ex]
    show readsIn ok ((exec sym l K.start).rd.map _ ++ s.rd) = true
    rw [readsIn_append, h3, Bool.and_true]
    unfold readsIn
    simp only [List.all_eq_true, List.mem_map, List.mem_range]
    rintro _ ⟨⟨e, w⟩, hr', rfl⟩ q hq
    have := hrd (e, w) hr'
    unfold readOk at this
    dsimp only at this hq ⊢
    split at this
    · rename_i r o
      rw [Bool.or_eq_true, Bool.and_eq_true, Bool.and_eq_true, decide_eq_true_eq, decide_eq_true_eq,
        decide_eq_true_eq, decide_eq_true_eq] at this
      rw [lin0, show s.x r + o + (q : Int) = s.x r + ((o.toNat + q : Nat) : Int) by omega]
      rcases this with ⟨rfl, h0⟩ | ⟨hb, h0⟩
      · exact h1 _ (by omega)
      · exact h2 r hb _ (by omega)
    · exact absurd this (by simp)

/-! ## Blocks one after the other -/

/-- Writing the first results does not change what is computed for the rest. -/
def Kind.Stable (K : Kind) (f : FloatOps) (m : Int → BitVec 8) (s : St VReg Int) (n : Nat) : Prop :=
  ∀ (c : Nat) (m' : Int → BitVec 8), c ≤ n → Applied m m' (s.x .out) K.so c (K.at f m s) →
    ∀ i, c ≤ i → i < n → K.at f m' s i = K.at f m s i

theorem Applied.congr {m m' : Int → BitVec 8} {out : Int} {so n : Nat} {g g' : Nat → BitVec 32}
    (h : Applied m m' out so n g) (e : ∀ i, i < n → g i = g' i) : Applied m m' out so n g' :=
  ⟨fun i k hi hk => by rw [h.val i k hi hk, e i hi], h.rest⟩

theorem Kind.Block.refl {K : Kind} {f : FloatOps} {m : Int → BitVec 8} {keep : List X} {s : St VReg Int}
    (hs : K.Ready f s) : K.Block f m keep 0 s s :=
  ⟨by simp, by simp, fun _ _ => by simp, fun _ => rfl, fun _ _ => rfl, hs, ⟨[], rfl, Wrote.zero _ _ _⟩,
    fun _ _ _ h => h⟩

theorem Kind.at_of {K : Kind} (f : FloatOps) (mem : Int → BitVec 8) {s s1 : St VReg Int} {n : Nat}
    (hv : K.bp = none → ∀ f p a b b', K.val f p a b = K.val f p a b')
    (inp : s1.x .inp = s.x .inp + (K.si * n : Nat)) (bp : ∀ b, K.bp = some b → s1.x b = s.x b + n)
    (par : ∀ p, s1.x (.par p) = s.x (.par p)) (i : Nat) : K.at f mem s1 i = K.at f mem s (n + i) := by
  unfold Kind.at
  simp only [par, inp]
  rw [show s.x .inp + ((K.si * n : Nat) : Int) + (K.si * i : Nat) = s.x .inp + (K.si * (n + i) : Nat) by
    rw [Nat.mul_add]; omega]
  cases e : K.bp with
  | none => exact hv e _ _ _ _ _
  | some b =>
    simp only [Option.getD_some, bp b e]
    rw [show s.x b + (n : Int) + (i : Int) = s.x b + ((n + i : Nat) : Int) by omega]

section
variable {K : Kind} (hv : K.bp = none → ∀ f p a b b', K.val f p a b = K.val f p a b')
include hv

theorem Kind.Block.at_next {f : FloatOps} {m : Int → BitVec 8} {keep : List X} {n : Nat} {s s1 : St VReg Int}
    (h : K.Block f m keep n s s1) (mem : Int → BitVec 8) (i : Nat) : K.at f mem s1 i = K.at f mem s (n + i) :=
  Kind.at_of f mem hv h.inp h.bp h.par i

theorem Kind.Block.trans {f : FloatOps} {m : Int → BitVec 8} {keep : List X} {n n' : Nat} {s s1 s2 : St VReg Int}
    (h1 : K.Block f m keep n s s1) (h2 : K.Block f m keep n' s1 s2) (st : K.Stable f (memAfter s.wr m) s (n + n')) :
    K.Block f m keep (n + n') s s2 := by
  have mi : K.si * (n + n') = K.si * n + K.si * n' := Nat.mul_add ..
  have mo : K.so * (n + n') = K.so * n + K.so * n' := Nat.mul_add ..
  refine ⟨?_, ?_, ?_, ?_, ?_, h2.ready, ?_, ?_⟩
  · rw [h2.inp, h1.inp]; omega
  · rw [h2.out, h1.out]; omega
  · intro b hb; rw [h2.bp b hb, h1.bp b hb]; omega
  · intro p; rw [h2.par, h1.par]
  · intro r hr; rw [h2.keep r hr, h1.keep r hr]
  · obtain ⟨l1, e1, w1⟩ := h1.bytes
    obtain ⟨l2, e2, w2⟩ := h2.bytes
    refine ⟨l2 ++ l1, by rw [e2, e1, List.append_assoc], w1.append ?_⟩
    rw [h1.out] at w2
    refine w2.congr fun i hi => ?_
    rw [h1.at_next hv]
    exact st n _ (by omega) h1.mem (n + i) (by omega) (by omega)
  · intro ok a b c
    refine h2.rd ok ?_ ?_ (h1.rd ok ?_ ?_ c)
    · intro q hq
      have := a (K.si * n + q) (by omega)
      rw [h1.inp, show s.x .inp + ((K.si * n : Nat) : Int) + (q : Int) = s.x .inp + ((K.si * n + q : Nat) : Int) by omega]
      exact this
    · intro r hr q hq
      have := b r hr (n + q) (by omega)
      rw [h1.bp r hr, show s.x r + (n : Int) + (q : Int) = s.x r + ((n + q : Nat) : Int) by omega]
      exact this
    · intro q hq; exact a q (by omega)
    · intro r hr q hq; exact b r hr q (by omega)

theorem Kind.Stable.next {f : FloatOps} {m : Int → BitVec 8} {keep : List X} {n n' : Nat} {s s1 : St VReg Int}
    (st : K.Stable f (memAfter s.wr m) s (n + n')) (h : K.Block f m keep n s s1) :
    K.Stable f (memAfter s1.wr m) s1 n' := by
  have e : ∀ i, i < n' → K.at f (memAfter s1.wr m) s1 i = K.at f (memAfter s.wr m) s (n + i) := by
    intro i hi
    rw [h.at_next hv]
    exact st n _ (by omega) h.mem (n + i) (by omega) (by omega)
  intro c m' hc ap i hi hi'
  rw [h.at_next hv, e i hi']
  rw [h.out] at ap
  exact st (n + c) m' (by omega) (h.mem.append (ap.congr fun j hj => e j (by omega))) (n + i) (by omega) (by omega)

omit hv in
theorem Kind.Stable.mono {f : FloatOps} {m : Int → BitVec 8} {n n' : Nat} {s : St VReg Int}
    (st : K.Stable f m s n) (h : n' ≤ n) : K.Stable f m s n' :=
  fun c m' hc ap i hi hi' => st c m' (by omega) ap i hi (by omega)

omit hv in
theorem Kind.Block.weaken {f : FloatOps} {m : Int → BitVec 8} {keep : List X} {n : Nat} {s s1 : St VReg Int}
    (h : K.Block f m keep n s s1) : K.Block f m [] n s s1 :=
  ⟨h.inp, h.out, h.bp, h.par, by simp, h.ready, h.bytes, h.rd⟩

theorem Kind.loop (hK : K.Sound) {body : List Ins} (hb : K.bodyOk body = true) (f : FloatOps) (m : Int → BitVec 8) :
    ∀ (q : Nat) (fuel : Nat) (s : St VReg Int), q + 1 ≤ fuel → K.Ready f s → s.x K.ctr = (16 * (q + 1) : Nat) →
      K.Stable f (memAfter s.wr m) s (16 * (q + 1)) →
      ∃ s1, loopM f m body .ne fuel s = some s1 ∧ K.Block f m K.keep (16 * (q + 1)) s s1 := by
  unfold Kind.bodyOk at hb
  simp only [Bool.and_eq_true, decide_eq_true_eq] at hb
  obtain ⟨⟨hbl, hctr⟩, hfl⟩ := hb
  intro q
  induction q with
  | zero =>
    intro fuel s hf hs hc st
    obtain ⟨fuel, rfl⟩ : ∃ g, fuel = g + 1 := ⟨fuel - 1, by omega⟩
    have bl := Kind.block hK hbl f m hs
    refine ⟨_, ?_, bl⟩
    have fl : (execM f m body s).x .flags = 0 := by
      rw [K.exec_x hs, hfl, XE.eval, hc]
      simp
    simp only [loopM, fl, Cond.holds]
    simp
  | succ q ih =>
    intro fuel s hf hs hc st
    obtain ⟨fuel, rfl⟩ : ∃ g, fuel = g + 1 := ⟨fuel - 1, by omega⟩
    have bl := Kind.block hK hbl f m hs
    have xe := K.exec_x hs m body
    have fl : (execM f m body s).x .flags = (16 * (q + 1) : Nat) := by
      rw [xe, hfl, XE.eval, hc]; push_cast; omega
    have ct : (execM f m body s).x K.ctr = (16 * (q + 1) : Nat) := by
      rw [xe, hctr, XE.eval, hc]; push_cast; omega
    have st' : K.Stable f (memAfter s.wr m) s (16 + 16 * (q + 1)) := by
      rw [show 16 + 16 * (q + 1) = 16 * (q + 1 + 1) by omega]; exact st
    obtain ⟨s1, e1, b1⟩ := ih fuel _ (by omega) bl.ready ct (st'.next hv bl)
    refine ⟨s1, ?_, ?_⟩
    · rw [loopM]
      rw [if_pos, e1]
      rw [fl]
      simp only [Cond.holds]
      rw [decide_eq_true_eq]
      push_cast; omega
    · rw [show 16 * (q + 1 + 1) = 16 + 16 * (q + 1) by omega]
      exact bl.trans hv b1 st'

/-- Loop and leftovers, after the beginning. -/
theorem Kind.run (hK : K.Sound) {r : Nat} {p : Prog} (hp : K.progOk r p = true) (f : FloatOps) (m : Int → BitVec 8)
    {s0 s : St VReg Int} {q : Nat} (e : execM f m p.init s0 = s) (hs : K.Ready f s) (hn : 0 < 16 * q + r)
    (hc : s.x K.ctr = (16 * q : Nat)) (hfl : r = 0 ∨ s.x .flags = (16 * q : Nat)) (hcount : (q : Int) ≤ s.x .count)
    (st : K.Stable f (memAfter s.wr m) s (16 * q + r)) :
    ∃ s1, p.runM f m s0 = some (execM f m p.tail s1) ∧ K.Block f m K.keep (16 * q) s s1 ∧
      K.Block f m [] (16 * q + r) s (execM f m p.tail s1) := by
  unfold Kind.progOk at hp
  rw [Bool.and_eq_true, Bool.and_eq_true, Bool.and_eq_true, Bool.and_eq_true, decide_eq_true_eq, decide_eq_true_eq] at hp
  obtain ⟨⟨⟨⟨hsk, hcd⟩, hlf⟩, hb⟩, ht⟩ := hp
  unfold Prog.runM
  rw [if_pos hlf]
  dsimp only
  rw [e, hsk, hcd]
  rcases q with _ | q
  · have hr : r ≠ 0 := by omega
    rw [if_pos (by simp [hr, hfl.resolve_left hr])]
    have := Kind.block hK ht f m hs
    refine ⟨s, rfl, Kind.Block.refl hs, ?_⟩
    rw [show 16 * 0 + r = r by omega]
    exact this
  · rw [if_neg]
    · obtain ⟨s1, e1, b1⟩ := Kind.loop hv hK hb f m q ((s.x .count).toNat + 1) s (by omega) hs hc (st.mono (by omega))
      rw [e1]
      exact ⟨s1, rfl, b1, b1.weaken.trans hv (Kind.block hK ht f m b1.ready) st⟩
    · rcases hfl with h | h
      · simp [h]
      · rw [h]; simp; omega

end

/-- A count that is not positive at the start: the loop misses its end. -/
theorem Kind.loop_missed {K : Kind} (hK : K.Sound) {body : List Ins} (hb : K.bodyOk body = true) (f : FloatOps)
    (m : Int → BitVec 8) : ∀ (fuel : Nat) (s : St VReg Int), K.Ready f s → s.x K.ctr ≤ 0 →
      loopM f m body .ne fuel s = none := by
  unfold Kind.bodyOk at hb
  simp only [Bool.and_eq_true, decide_eq_true_eq] at hb
  obtain ⟨⟨hbl, hctr⟩, hfl⟩ := hb
  intro fuel
  induction fuel with
  | zero => intro s _ _; rfl
  | succ fuel ih =>
    intro s hs hc
    have xe := K.exec_x hs m body
    have e1 : (execM f m body s).x .flags = s.x K.ctr - 16 := by rw [xe, hfl, XE.eval]; simp; omega
    have e2 : (execM f m body s).x K.ctr = s.x K.ctr - 16 := by rw [xe, hctr, XE.eval]; simp; omega
    rw [loopM, if_pos, ih _ (Kind.block hK hbl f m hs).ready (by omega)]
    rw [e1]
    simp only [Cond.holds, decide_eq_true_eq]
    omega

theorem Kind.run_missed {K : Kind} (hK : K.Sound) {p : Prog} (hp : K.progOk 0 p = true) (f : FloatOps)
    (m : Int → BitVec 8) {s0 s : St VReg Int} (e : execM f m p.init s0 = s) (hs : K.Ready f s) (hc : s.x K.ctr ≤ 0) :
    p.runM f m s0 = none := by
  unfold Kind.progOk at hp
  rw [Bool.and_eq_true, Bool.and_eq_true, Bool.and_eq_true, Bool.and_eq_true, decide_eq_true_eq, decide_eq_true_eq] at hp
  obtain ⟨⟨⟨⟨hsk, hcd⟩, hlf⟩, hb⟩, ht⟩ := hp
  unfold Prog.runM
  rw [if_pos hlf]
  dsimp only
  rw [e, hsk, hcd, if_neg (by simp), Kind.loop_missed hK hb f m _ s hs hc]
  rfl

/-! ## Input and output in memory -/

theorem elem_congr {sz : Nat} {m m' : Int → BitVec 8} {a : Int} (hs : sz = 1 ∨ sz = 4)
    (h : ∀ q : Nat, q < sz → m' (a + q) = m (a + q)) : elem sz m' a = elem sz m a := by
  unfold elem
  rcases hs with rfl | rfl
  · rw [if_neg (by omega), if_neg (by omega)]
    have := h 0 (by omega)
    simp only [Nat.cast_zero, Int.add_zero] at this
    rw [this]
  · rw [if_pos rfl, if_pos rfl]
    have h0 := h 0 (by omega)
    have h1 := h 1 (by omega)
    have h2 := h 2 (by omega)
    have h3 := h 3 (by omega)
    unfold word
    simp only [Nat.cast_zero, Int.add_zero, Nat.cast_one, Nat.cast_ofNat] at h0 h1 h2 h3
    rw [h0, h1, h2, h3]

/-- Results do not go where elements are that are still to be read: the output is beyond the input, or starts no
later and ends no later. -/
def NoClobber (inp out : Int) (si so n : Nat) : Prop :=
  inp + (si * n : Nat) ≤ out ∨ (out ≤ inp ∧ out + (so * n : Nat) ≤ inp + (si * n : Nat))

theorem Kind.stable {K : Kind} (hK : K.Sound) (hv : K.bp = none → ∀ f p a b b', K.val f p a b = K.val f p a b')
    (f : FloatOps) (m : Int → BitVec 8) (s : St VReg Int) (n : Nat)
    (hn : NoClobber (s.x .inp) (s.x .out) K.si K.so n)
    (hb : ∀ b, K.bp = some b → s.x .out + (K.so * n : Nat) ≤ s.x b ∨ s.x b + n ≤ s.x .out) : K.Stable f m s n := by
  intro c m' hc ap i hi hi'
  have e1 : elem K.si m' (s.x .inp + (K.si * i : Nat)) = elem K.si m (s.x .inp + (K.si * i : Nat)) := by
    apply elem_congr hK.si
    intro q hq
    apply ap.rest
    unfold NoClobber at hn
    rcases hK.si with h1 | h1 <;> rcases hK.so with h2 | h2 <;> rw [h1, h2] at hn <;> rw [h1] at hq <;>
      rw [h1, h2] <;> omega
  unfold Kind.at
  rw [e1]
  cases e : K.bp with
  | none => exact hv e _ _ _ _ _
  | some b =>
    have := hb b e
    rw [Option.getD_some]
    rw [elem_congr (Or.inl rfl) (m := m)]
    intro q hq
    apply ap.rest
    have : K.so * c ≤ K.so * n := Nat.mul_le_mul_left _ hc
    omega

/-- A transformation without rows. -/
theorem Kind.run1 {K : Kind} (hK : K.Sound) (hv : K.bp = none → ∀ f p a b b', K.val f p a b = K.val f p a b')
    (hbp : K.bp = none) (hctr : K.ctr = .count) {n : Nat} (hn : 0 < n) {p : Prog}
    (hp : K.progOk (n % 16) p = true) (hi : K.initOk (n % 16) p.init = true) (f : FloatOps) (m : Int → BitVec 8)
    {s : St VReg Int} (hwr : s.wr = []) (hrd : s.rd = []) (hcount : s.x .count = n)
    (nc : NoClobber (s.x .inp) (s.x .out) K.si K.so n) :
    ∃ t, p.runM f m s = some t ∧ Wrote t.wr (s.x .out) K.so n (K.at f m s) ∧
      (∀ ok : Int → Bool, (∀ q : Nat, q < K.si * n → ok (s.x .inp + q) = true) → readsIn ok t.rd = true) := by
  unfold Kind.initOk at hi
  simp only [Bool.and_eq_true, decide_eq_true_eq, List.all_eq_true] at hi
  obtain ⟨⟨⟨⟨⟨⟨⟨hc, hpar⟩, hinp⟩, hout⟩, hct⟩, hfl⟩, hr0⟩, hw0⟩ := hi
  obtain ⟨u, hu⟩ : ∃ u, u = execM f m p.init s := ⟨_, rfl⟩
  have ue : u = evalSt f m s (exec sym p.init symInit) := by
    rw [hu]; unfold execM; rw [hwr]; exact exec_sym f m s p.init
  have xe : ∀ r, u.x r = ((exec sym p.init symInit).x r).eval s.x := by intro r; rw [ue]; rfl
  have lin0 : ∀ r k, (XE.lin r 0 k).eval s.x = s.x r + k := by intro r k; simp only [XE.eval]; omega
  have uinp : u.x .inp = s.x .inp := by rw [xe, hinp, lin0]; omega
  have uout : u.x .out = s.x .out := by rw [xe, hout, lin0]; omega
  have upar : ∀ p, u.x (.par p) = s.x (.par p) := by intro p; rw [xe, hpar p (mem_allPars p), lin0]; omega
  have uwr : u.wr = [] := by rw [ue]; show (exec sym p.init symInit).wr.map _ ++ s.wr = []; rw [hw0, hwr]; rfl
  have urd : u.rd = [] := by rw [ue]; show (exec sym p.init symInit).rd.map _ ++ s.rd = []; rw [hr0, hrd]; rfl
  have um : memAfter u.wr m = m := by rw [uwr]; rfl
  have uready : K.Ready f u := by
    intro c hc'
    have : u.v c.1 = c.2.ve.eval f m s := by rw [ue]; show VE.eval f m s _ = _; rw [hc c hc']
    rw [this]
    exact CE.eval_congr f _ _ _ upar
  have ucount : u.x .count = (16 * (n / 16) : Nat) := by rw [xe, hct, lin0, hcount]; omega
  obtain ⟨s1, e1, _, b1⟩ := Kind.run hv hK hp f m (s0 := s) (s := u) (q := n / 16) hu.symm uready (by omega)
    (by rw [hctr]; exact ucount)
    (by
      rcases hfl with h | h
      · exact Or.inl h
      · refine Or.inr ?_
        rw [xe, h, lin0, hcount]; omega)
    (by rw [ucount]; omega)
    (by
      rw [um, show 16 * (n / 16) + n % 16 = n by omega]
      apply Kind.stable hK hv
      · rw [uinp, uout]; exact nc
      · intro b hb; rw [hbp] at hb; exact absurd hb (by simp))
  rw [show 16 * (n / 16) + n % 16 = n by omega] at b1
  refine ⟨_, e1, ?_, ?_⟩
  · obtain ⟨l, e, w⟩ := b1.bytes
    rw [um, uout] at w
    rw [e, uwr, List.append_nil]
    refine w.congr fun i _ => ?_
    have := Kind.at_of f m (s := s) (s1 := u) (n := 0) hv (by simp [uinp])
      (by intro b hb; rw [hbp] at hb; exact absurd hb (by simp)) upar i
    rw [this, Nat.zero_add]
  · intro ok h
    refine b1.rd ok (by rw [uinp]; exact h) (by intro b hb; rw [hbp] at hb; exact absurd hb (by simp)) ?_
    rw [urd]; rfl

/-! ## Rows -/

/-- Result `i` of all rows of length `c`. -/
def baAt (f : FloatOps) (m : Int → BitVec 8) (s : St VReg Int) (c i : Nat) : BitVec 32 :=
  baKind.val f (fun p => s.x (.par p)) (elem 1 m (s.x .inp + i)) (elem 1 m (s.x .bias + (i % c : Nat)))

theorem ba_sound : baKind.Sound where
  si := Or.inl rfl
  so := Or.inr rfl
  expr _ _ _ _ _ := by simp only [baKind, LE.eval, FloatOps.un, FloatOps.bin, XE.eval, Nat.cast_zero, Int.zero_mul, Int.add_zero]

theorem ba_bp : baKind.bp = none → ∀ f p a b b', baKind.val f p a b = baKind.val f p a b' := by
  intro h; exact absurd h (by simp [baKind])

/-- What a row, or several, does. -/
structure BaBlock (f : FloatOps) (m : Int → BitVec 8) (c n : Nat) (s s' : St VReg Int) : Prop where
  inp : s'.x .inp = s.x .inp + n
  out : s'.x .out = s.x .out + (4 * n : Nat)
  par : ∀ p, s'.x (.par p) = s.x (.par p)
  count : s'.x .count = s.x .count
  bias : s'.x .bias = s.x .bias
  ready : baKind.Ready f s'
  bytes : ∃ l, s'.wr = l ++ s.wr ∧ Wrote l (s.x .out) 4 n (baAt f (memAfter s.wr m) s c)
  rd : ∀ ok : Int → Bool, (∀ q : Nat, q < n → ok (s.x .inp + q) = true) →
    (∀ q : Nat, q < c → ok (s.x .bias + q) = true) → readsIn ok s.rd = true → readsIn ok s'.rd = true

theorem ba_row {c : Nat} (hc : 0 < c) {p : Prog} (hp : baRowOk (c % 16) p = true) (f : FloatOps) (m : Int → BitVec 8)
    {s : St VReg Int} (hs : baKind.Ready f s) (hcount : s.x .count = c) (nc : NoClobber (s.x .inp) (s.x .out) 1 4 c)
    (hb : s.x .out + (4 * c : Nat) ≤ s.x .bias ∨ s.x .bias + c ≤ s.x .out) :
    ∃ t, p.runM f m s = some t ∧ BaBlock f m c c s t ∧ t.x .rows = s.x .rows - 1 ∧ t.x .flags = s.x .rows - 1 := by
  unfold baRowOk at hp
  simp only [Bool.and_eq_true, decide_eq_true_eq, List.all_eq_true] at hp
  obtain ⟨⟨⟨⟨⟨⟨⟨⟨⟨⟨⟨hprog, hcs⟩, hpar⟩, hkeep⟩, ht0⟩, ht1⟩, hfl⟩, hr0⟩, hw0⟩, htk⟩, htr⟩, htf⟩ := hp
  have lin0 : ∀ (s : St VReg Int) r k, (XE.lin r 0 k).eval s.x = s.x r + k := by
    intro s r k; simp only [XE.eval]; omega
  obtain ⟨u, hu⟩ : ∃ u, u = execM f m p.init s := ⟨_, rfl⟩
  have ue := hu.trans (baKind.exec_eq hs m p.init)
  have xe : ∀ r, u.x r = ((exec sym p.init baKind.start).x r).eval s.x := by intro r; rw [ue]; rfl
  have ukeep : ∀ r ∈ [X.inp, .out, .count, .bias, .rows], u.x r = s.x r := by
    intro r hr; rw [xe, hkeep r hr, lin0]; omega
  have uinp : u.x .inp = s.x .inp := ukeep _ (by simp)
  have uout : u.x .out = s.x .out := ukeep _ (by simp)
  have ucount : u.x .count = s.x .count := ukeep _ (by simp)
  have ubias : u.x .bias = s.x .bias := ukeep _ (by simp)
  have urows : u.x .rows = s.x .rows := ukeep _ (by simp)
  have upar : ∀ p, u.x (.par p) = s.x (.par p) := by intro p; rw [xe, hpar p (mem_allPars p), lin0]; omega
  have uwr : u.wr = s.wr := by
    rw [ue]; show (exec sym p.init baKind.start).wr.map _ ++ s.wr = s.wr; rw [hw0]; rfl
  have urd : u.rd = s.rd := by
    rw [ue]; show (exec sym p.init baKind.start).rd.map _ ++ s.rd = s.rd; rw [hr0]; rfl
  have uready : baKind.Ready f u := by
    intro k hk
    have : u.v k.1 = k.2.ve.eval f (memAfter s.wr m) s := by rw [ue]; show VE.eval f _ s _ = _; rw [hcs k hk]
    rw [this]
    exact CE.eval_congr f _ _ _ upar
  have ut1 : u.x (.t 1) = s.x .bias := by rw [xe, ht1, lin0]; omega
  obtain ⟨s1, e1, b1, b2⟩ := Kind.run ba_bp ba_sound hprog f m (s0 := s) (s := u) (q := c / 16) hu.symm uready (by omega)
    (by show u.x (.t 0) = _; rw [xe, ht0, lin0, hcount]; omega)
    (by
      rcases hfl with h | h
      · exact Or.inl h
      · refine Or.inr ?_
        rw [xe, h, lin0, hcount]; omega)
    (by rw [ucount, hcount]; omega)
    (by
      rw [show 16 * (c / 16) + c % 16 = c by omega]
      apply Kind.stable ba_sound ba_bp
      · rw [uinp, uout]; exact nc
      · intro b h
        have : b = .t 1 := by simpa [baKind] using h.symm
        rw [this, uout, ut1]; exact hb)
  rw [show 16 * (c / 16) + c % 16 = c by omega] at b2
  have s1k : ∀ r ∈ [X.count, .bias, .rows], s1.x r = u.x r := b1.keep
  have te := baKind.exec_x b1.ready m p.tail
  refine ⟨_, e1, ⟨?_, ?_, ?_, ?_, ?_, b2.ready, ?_, ?_⟩, ?_, ?_⟩
  · rw [b2.inp, uinp]; simp [baKind]
  · rw [b2.out, uout]; rfl
  · intro q; rw [b2.par, upar]
  · rw [te, htk _ (by simp), lin0, s1k _ (by simp), ucount]; omega
  · rw [te, htk _ (by simp), lin0, s1k _ (by simp), ubias]; omega
  · obtain ⟨l, e, w⟩ := b2.bytes
    rw [uout, uwr] at w
    refine ⟨l, by rw [e, uwr], w.congr fun i hi => ?_⟩
    unfold Kind.at baAt
    simp only [upar]
    rw [uinp, Nat.mod_eq_of_lt hi]
    show baKind.val f _ (elem 1 _ (s.x .inp + (1 * i : Nat))) (elem 1 _ (u.x (.t 1) + i)) = _
    rw [ut1, Nat.one_mul]
  · intro ok h1 h2 h3
    refine b2.rd ok ?_ ?_ (by rw [urd]; exact h3)
    · intro q hq
      rw [uinp]
      exact h1 q (by simpa [baKind] using hq)
    · intro b hb' q hq
      have : b = .t 1 := by simpa [baKind] using hb'.symm
      rw [this, ut1]
      exact h2 q hq
  · rw [te, htr, lin0, s1k _ (by simp), urows]; omega
  · rw [te, htf, lin0, s1k _ (by simp), urows]; omega

theorem baAt_next {f : FloatOps} {m : Int → BitVec 8} {c n : Nat} {s t : St VReg Int} (h : BaBlock f m c (c * n) s t)
    (mem : Int → BitVec 8) (i : Nat) : baAt f mem t c i = baAt f mem s c (c * n + i) := by
  unfold baAt
  simp only [h.par, h.inp, h.bias]
  rw [Nat.mul_add_mod, show s.x .inp + ((c * n : Nat) : Int) + (i : Int) = s.x .inp + ((c * n + i : Nat) : Int) by omega]

theorem ba_rows {c : Nat} (hc : 0 < c) {p : Prog} (hp : baRowOk (c % 16) p = true) (f : FloatOps) (m : Int → BitVec 8) :
    ∀ (k fuel : Nat) (s : St VReg Int), k + 1 ≤ fuel → baKind.Ready f s → s.x .count = c → s.x .rows = (k + 1 : Nat) →
      NoClobber (s.x .inp) (s.x .out) 1 4 (c * (k + 1)) →
      (s.x .out + (4 * (c * (k + 1)) : Nat) ≤ s.x .bias ∨ s.x .bias + c ≤ s.x .out) →
      ∃ t, rowsM f m p fuel s = some t ∧ BaBlock f m c (c * (k + 1)) s t := by
  intro k
  induction k with
  | zero =>
    intro fuel s hf hs hcount hrows nc hb
    obtain ⟨fuel, rfl⟩ : ∃ g, fuel = g + 1 := ⟨fuel - 1, by omega⟩
    rw [Nat.zero_add, Nat.mul_one] at *
    obtain ⟨t, e, b, _, hfl⟩ := ba_row hc hp f m hs hcount nc hb
    refine ⟨t, ?_, b⟩
    rw [rowsM, e]
    dsimp only
    rw [if_neg]
    rw [hfl, hrows]
    simp [Cond.holds]
  | succ k ih =>
    intro fuel s hf hs hcount hrows nc hb
    obtain ⟨fuel, rfl⟩ : ∃ g, fuel = g + 1 := ⟨fuel - 1, by omega⟩
    have hck : c * (k + 1 + 1) = c + c * (k + 1) := by rw [Nat.mul_add c (k + 1) 1]; omega
    rw [hck] at nc hb ⊢
    obtain ⟨t, e, b, hr, hfl⟩ := ba_row hc hp f m hs hcount (by unfold NoClobber at *; omega) (by omega)
    obtain ⟨v, e', b'⟩ := ih fuel t (by omega) b.ready (by rw [b.count]; exact hcount) (by rw [hr, hrows]; push_cast; omega)
      (by unfold NoClobber at *; rw [b.inp, b.out]; omega) (by rw [b.bias, b.out]; omega)
    refine ⟨v, ?_, ?_, ?_, ?_, ?_, ?_, b'.ready, ?_, ?_⟩
    · rw [rowsM, e]
      dsimp only
      rw [if_pos, e']
      rw [hfl, hrows]
      simp only [Cond.holds, decide_eq_true_eq]
      push_cast; omega
    · rw [b'.inp, b.inp]; push_cast; omega
    · rw [b'.out, b.out]; push_cast; omega
    · intro q; rw [b'.par, b.par]
    · rw [b'.count, b.count]
    · rw [b'.bias, b.bias]
    · obtain ⟨l1, w1e, w1⟩ := b.bytes
      obtain ⟨l2, w2e, w2⟩ := b'.bytes
      refine ⟨l2 ++ l1, by rw [w2e, w1e, List.append_assoc], w1.append ?_⟩
      rw [b.out] at w2
      refine w2.congr fun i hi => ?_
      have e1 := baAt_next (n := 1) (by rw [Nat.mul_one]; exact b) (memAfter t.wr m) i
      rw [Nat.mul_one] at e1
      rw [e1]
      have r1 : ∀ a, (a < s.x .out ∨ s.x .out + (4 * c : Nat) ≤ a) → memAfter t.wr m a = memAfter s.wr m a := by
        rw [w1e, memAfter_append]; exact (w1.applied _).rest
      unfold baAt
      unfold NoClobber at nc
      rw [elem_congr (m := memAfter s.wr m) (a := s.x .inp + _) (Or.inl rfl)
        (by intro q hq; apply r1; omega),
        elem_congr (m := memAfter s.wr m) (a := s.x .bias + _) (Or.inl rfl)
        (by intro q hq; apply r1; have := Nat.mod_lt (c + i) hc; omega)]
    · intro ok h1 h2 h3
      refine b'.rd ok ?_ (by rw [b.bias]; exact h2) (b.rd ok (fun q hq => h1 q (by omega)) h2 h3)
      intro q hq
      rw [b.inp, show s.x .inp + (c : Int) + (q : Int) = s.x .inp + ((c + q : Nat) : Int) by omega]
      exact h1 _ (by omega)

/-- The whole code of `BiasAdd`. -/
theorem ba_run {c rows : Nat} (hc : 0 < c) (hr : 0 < rows) {p : RowsProg} (hi : baInitOk p.init = true)
    (hp : baRowOk (c % 16) p.row = true) (f : FloatOps) (m : Int → BitVec 8) {s : St VReg Int} (hwr : s.wr = [])
    (hrd : s.rd = []) (hcount : s.x .count = c) (hrows : s.x .rows = rows)
    (nc : NoClobber (s.x .inp) (s.x .out) 1 4 (c * rows))
    (hb : s.x .out + (4 * (c * rows) : Nat) ≤ s.x .bias ∨ s.x .bias + c ≤ s.x .out) :
    ∃ t, p.runM f m s = some t ∧ Wrote t.wr (s.x .out) 4 (c * rows) (baAt f m s c) ∧
      (∀ ok : Int → Bool, (∀ q : Nat, q < c * rows → ok (s.x .inp + q) = true) →
        (∀ q : Nat, q < c → ok (s.x .bias + q) = true) → readsIn ok t.rd = true) := by
  unfold baInitOk at hi
  rw [Bool.and_eq_true, Bool.and_eq_true, Bool.and_eq_true, Bool.and_eq_true, Bool.and_eq_true] at hi
  simp only [decide_eq_true_eq, List.all_eq_true] at hi
  obtain ⟨⟨⟨⟨⟨hlf, hcs⟩, hpar⟩, hkeep⟩, hr0⟩, hw0⟩ := hi
  obtain ⟨u, hu⟩ : ∃ u, u = execM f m p.init s := ⟨_, rfl⟩
  have ue : u = evalSt f m s (exec sym p.init symInit) := by
    rw [hu]; unfold execM; rw [hwr]; exact exec_sym f m s p.init
  have xe : ∀ r, u.x r = ((exec sym p.init symInit).x r).eval s.x := by intro r; rw [ue]; rfl
  have lin0 : ∀ r k, (XE.lin r 0 k).eval s.x = s.x r + k := by intro r k; simp only [XE.eval]; omega
  have ukeep : ∀ r ∈ [X.inp, .out, .count, .bias, .rows], u.x r = s.x r := by
    intro r hr; rw [xe, hkeep r hr, lin0]; omega
  have uinp : u.x .inp = s.x .inp := ukeep _ (by simp)
  have uout : u.x .out = s.x .out := ukeep _ (by simp)
  have ucount : u.x .count = s.x .count := ukeep _ (by simp)
  have ubias : u.x .bias = s.x .bias := ukeep _ (by simp)
  have urows : u.x .rows = s.x .rows := ukeep _ (by simp)
  have upar : ∀ p, u.x (.par p) = s.x (.par p) := by intro p; rw [xe, hpar p (mem_allPars p), lin0]; omega
  have uwr : u.wr = [] := by rw [ue]; show (exec sym p.init symInit).wr.map _ ++ s.wr = []; rw [hw0, hwr]; rfl
  have urd : u.rd = [] := by rw [ue]; show (exec sym p.init symInit).rd.map _ ++ s.rd = []; rw [hr0, hrd]; rfl
  have um : memAfter u.wr m = m := by rw [uwr]; rfl
  have uready : baKind.Ready f u := by
    intro k hk
    have : u.v k.1 = k.2.ve.eval f m s := by rw [ue]; show VE.eval f m s _ = _; rw [hcs k hk]
    rw [this]
    exact CE.eval_congr f _ _ _ upar
  obtain ⟨k, rfl⟩ : ∃ k, rows = k + 1 := ⟨rows - 1, by omega⟩
  obtain ⟨t, e, b⟩ := ba_rows hc hp f m k ((u.x .rows).toNat + 1) u (by rw [urows, hrows]; omega) uready
    (by rw [ucount]; exact hcount) (by rw [urows]; exact hrows) (by rw [uinp, uout]; exact nc)
    (by rw [ubias, uout]; exact hb)
  refine ⟨t, ?_, ?_, ?_⟩
  · unfold RowsProg.runM
    rw [if_pos hlf]
    dsimp only
    rw [← hu]
    exact e
  · obtain ⟨l, e, w⟩ := b.bytes
    rw [um, uout] at w
    rw [e, uwr, List.append_nil]
    refine w.congr fun i _ => ?_
    unfold baAt
    simp only [upar, uinp, ubias]
  · intro ok h1 h2
    exact b.rd ok (by rw [uinp]; exact h1) (by rw [ubias]; exact h2) (by rw [urd]; rfl)

/-! ## Nothing to do -/

theorem Kind.run1_missed {K : Kind} (hK : K.Sound) (hctr : K.ctr = .count) {p : Prog} (hp : K.progOk 0 p = true)
    (hi : K.initOk 0 p.init = true) (f : FloatOps) (m : Int → BitVec 8) {s : St VReg Int} (hcount : s.x .count = 0) :
    p.runM f m s = none := by
  unfold Kind.initOk at hi
  simp only [Bool.and_eq_true, decide_eq_true_eq, List.all_eq_true] at hi
  obtain ⟨⟨⟨⟨⟨⟨⟨hc, hpar⟩, hinp⟩, hout⟩, hct⟩, hfl⟩, hr0⟩, hw0⟩ := hi
  have ue : execM f m p.init s = evalSt f (memAfter s.wr m) s (exec sym p.init symInit) := exec_sym f _ s p.init
  have xe : ∀ r, (execM f m p.init s).x r = ((exec sym p.init symInit).x r).eval s.x := by intro r; rw [ue]; rfl
  have lin0 : ∀ r k, (XE.lin r 0 k).eval s.x = s.x r + k := by intro r k; simp only [XE.eval]; omega
  refine Kind.run_missed hK hp f m rfl ?_ ?_
  · intro c hc'
    have : (execM f m p.init s).v c.1 = c.2.ve.eval f (memAfter s.wr m) s := by
      rw [ue]; show VE.eval f _ s _ = _; rw [hc c hc']
    rw [this]
    exact CE.eval_congr f _ _ _ fun p => by rw [xe, hpar p (mem_allPars p), lin0]; omega
  · rw [hctr, xe, hct, lin0, hcount]; simp

theorem ba_run_missed {p : RowsProg} (hi : baInitOk p.init = true) (hp : baRowOk 0 p.row = true) (f : FloatOps)
    (m : Int → BitVec 8) {s : St VReg Int} (hcount : s.x .count = 0) : p.runM f m s = none := by
  unfold baInitOk at hi
  rw [Bool.and_eq_true, Bool.and_eq_true, Bool.and_eq_true, Bool.and_eq_true, Bool.and_eq_true] at hi
  simp only [decide_eq_true_eq, List.all_eq_true] at hi
  obtain ⟨⟨⟨⟨⟨hlf, hcs⟩, hpar⟩, hkeep⟩, hr0⟩, hw0⟩ := hi
  obtain ⟨u, hu⟩ : ∃ u, u = execM f m p.init s := ⟨_, rfl⟩
  have ue : u = evalSt f (memAfter s.wr m) s (exec sym p.init symInit) := hu.trans (exec_sym f _ s p.init)
  have xe : ∀ r, u.x r = ((exec sym p.init symInit).x r).eval s.x := by intro r; rw [ue]; rfl
  have lin0 : ∀ (s : St VReg Int) r k, (XE.lin r 0 k).eval s.x = s.x r + k := by
    intro s r k; simp only [XE.eval]; omega
  have upar : ∀ p, u.x (.par p) = s.x (.par p) := by intro p; rw [xe, hpar p (mem_allPars p), lin0]; omega
  have ucount : u.x .count = 0 := by rw [xe, hkeep _ (by simp), lin0, hcount]; rfl
  have uready : baKind.Ready f u := by
    intro k hk
    have : u.v k.1 = k.2.ve.eval f (memAfter s.wr m) s := by rw [ue]; show VE.eval f _ s _ = _; rw [hcs k hk]
    rw [this]
    exact CE.eval_congr f _ _ _ upar
  unfold RowsProg.runM
  rw [if_pos hlf]
  dsimp only
  rw [← hu, rowsM]
  unfold baRowOk at hp
  simp only [Bool.and_eq_true, decide_eq_true_eq, List.all_eq_true] at hp
  obtain ⟨⟨⟨⟨⟨⟨⟨⟨⟨⟨⟨hprog, hcs'⟩, hpar'⟩, -⟩, ht0⟩, -⟩, -⟩, -⟩, -⟩, -⟩, -⟩, -⟩ := hp
  have ve := baKind.exec_x uready m p.row.init
  rw [Kind.run_missed ba_sound hprog f m rfl]
  · intro k hk
    have : (execM f m p.row.init u).v k.1 = k.2.ve.eval f (memAfter u.wr m) u := by
      rw [baKind.exec_eq uready m]; show VE.eval f _ u _ = _; rw [hcs' k hk]
    rw [this]
    exact CE.eval_congr f _ _ _ fun q => by rw [ve, hpar' q (mem_allPars q), lin0]; omega
  · show (execM f m p.row.init u).x (.t 0) ≤ 0
    rw [ve, ht0, lin0, ucount]; simp

end Gemmlowp.MetaAsm
