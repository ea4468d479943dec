import Verif.GemmAlloc
import Verif.PropsAlloc
import Mathlib.Data.List.Induction
/-!
# Every history of a context follows the protocol of its allocators
-/
namespace Gemmlowp
namespace GemmAlloc

/-- Every call of the history (most recent first) was allowed, and the blocks reserved at any time
take at most `B` bytes. -/
def Valid (B : Nat) : List AOp → Prop
  | [] => True
  | op :: h => Valid B h ∧ allowed h op ∧ needBytes (liveBlocks (op :: h)) ≤ B

/-- Nothing is reserved or committed. -/
structure Clean (B : Nat) (h : List AOp) : Prop where
  valid : Valid B h
  comm : committedIn h = false
  live : liveBlocks h = []

/-- The history after further calls, in the order of the list. -/
def feed (h ops : List AOp) : List AOp := ops.reverse ++ h

theorem feed_nil (h : List AOp) : feed h [] = h := rfl

theorem feed_cons (h : List AOp) (op : AOp) (ops : List AOp) : feed h (op :: ops) = feed (op :: h) ops := by
  unfold feed; simp

theorem feed_append (h a b : List AOp) : feed h (a ++ b) = feed (feed h a) b := by
  unfold feed; simp

theorem Valid_of_feed {B : Nat} {ops : List AOp} : ∀ {h : List AOp}, Valid B (feed h ops) → Valid B h := by
  induction ops with
  | nil => intro h hv; exact hv
  | cons op ops ih => intro h hv; rw [feed_cons] at hv; exact (ih hv).1

/-- The blocks of consecutive reservations. -/
def blocks : Nat → List (TypeId × Nat) → List ABlock
  | _, [] => []
  | k, (t, n) :: rs => ⟨k, t, n⟩ :: blocks (k + 1) rs

theorem blocks_length : ∀ (rs : List (TypeId × Nat)) (k : Nat), (blocks k rs).length = rs.length
  | [], _ => rfl
  | _ :: rs, k => by simp [blocks, blocks_length rs]

theorem blocks_mem : ∀ {rs : List (TypeId × Nat)} {k j : Nat} {t : TypeId} {n : Nat}, rs[j]? = some (t, n) →
    (⟨k + j, t, n⟩ : ABlock) ∈ blocks k rs
  | [], k, j, t, n, h => by simp at h
  | (t', n') :: rs, k, 0, t, n, h => by
    simp only [List.getElem?_cons_zero, Option.some.injEq, Prod.mk.injEq] at h
    obtain ⟨rfl, rfl⟩ := h
    exact List.mem_cons_self
  | _ :: rs, k, j + 1, t, n, h => by
    rw [List.getElem?_cons_succ] at h
    have := blocks_mem (k := k + 1) h
    rw [show k + (j + 1) = k + 1 + j by omega]
    exact List.mem_cons_of_mem _ this

/-- Bytes for reservations. -/
def needOf : List (TypeId × Nat) → Nat
  | [] => 0
  | (t, n) :: rs => (n * t.size + 63) / 64 * 64 + needOf rs

def reserves (rs : List (TypeId × Nat)) : List AOp := rs.map fun r => .reserve r.1 r.2

theorem feed_reserves {B : Nat} : ∀ {rs : List (TypeId × Nat)} {h : List AOp}, Valid B h → committedIn h = false →
    (liveBlocks h).length + rs.length ≤ 5 → needBytes (liveBlocks h) + needOf rs ≤ B →
    Valid B (feed h (reserves rs)) ∧ committedIn (feed h (reserves rs)) = false ∧
    liveBlocks (feed h (reserves rs)) = (blocks (reserveCount h) rs).reverse ++ liveBlocks h ∧
    needBytes (liveBlocks (feed h (reserves rs))) = needBytes (liveBlocks h) + needOf rs
  | [], h, hv, hc, _, _ => ⟨hv, hc, rfl, rfl⟩
  | (t, n) :: rs, h, hv, hc, hl, hb => by
    simp only [List.length_cons] at hl
    simp only [needOf] at hb
    have hb' : needBytes (liveBlocks (.reserve t n :: h)) =
        needBytes (liveBlocks h) + (n * t.size + 63) / 64 * 64 := rfl
    have hl' : (liveBlocks (.reserve t n :: h)).length = (liveBlocks h).length + 1 := rfl
    have key := feed_reserves (B := B) (rs := rs) (h := .reserve t n :: h)
      ⟨hv, ⟨hc, by omega⟩, by omega⟩ hc (by omega) (by omega)
    have e : feed h (reserves ((t, n) :: rs)) = feed (.reserve t n :: h) (reserves rs) := feed_cons _ _ _
    rw [e]
    obtain ⟨k1, k2, k3, k4⟩ := key
    refine ⟨k1, k2, ?_, by rw [k4, hb']; simp only [needOf]; omega⟩
    rw [k3]
    simp [blocks, liveBlocks, reserveCount]

theorem feed_gets {B : Nat} : ∀ {gets h : List AOp}, Valid B h → committedIn h = true →
    (∀ op ∈ gets, ∃ b ∈ liveBlocks h, op = .get b.type b.serial) →
    Valid B (feed h gets) ∧ committedIn (feed h gets) = true ∧ liveBlocks (feed h gets) = liveBlocks h
  | [], h, hv, hc, _ => ⟨hv, hc, rfl⟩
  | op :: gets, h, hv, hc, hg => by
    obtain ⟨b, hb, rfl⟩ := hg op List.mem_cons_self
    have hn : needBytes (liveBlocks h) ≤ B := by
      cases h with
      | nil => exact Nat.zero_le _
      | cons o h => exact hv.2.2
    have key := feed_gets (B := B) (gets := gets) (h := .get b.type b.serial :: h)
      ⟨hv, ⟨hc, b.n, hb⟩, hn⟩ hc
      (fun o ho => hg o (List.mem_cons_of_mem _ ho))
    rw [feed_cons]
    exact key

/-- A phase up to and including `Commit` and some calls of `GetPointer`. -/
theorem feed_open {B : Nat} {h : List AOp} (hc : Clean B h) {rs : List (TypeId × Nat)} (hl : rs.length ≤ 5)
    (hn : needOf rs ≤ B) (addr : Nat) {gets : List AOp}
    (hg : ∀ op ∈ gets, ∃ j t n, rs[j]? = some (t, n) ∧ op = .get t (reserveCount h + j)) :
    Valid B (feed h (reserves rs ++ [.commit addr] ++ gets)) ∧
    committedIn (feed h (reserves rs ++ [.commit addr] ++ gets)) = true ∧
    liveBlocks (feed h (reserves rs ++ [.commit addr] ++ gets)) = (blocks (reserveCount h) rs).reverse := by
  obtain ⟨k1, k2, k3, k4⟩ := feed_reserves (rs := rs) hc.valid hc.comm (by rw [hc.live]; simpa using hl)
    (by rw [hc.live]; simpa [needBytes] using hn)
  rw [hc.live, List.append_nil] at k3
  have hb : needBytes (liveBlocks (feed h (reserves rs))) ≤ B := by
    rw [k4, hc.live]; simpa [needBytes] using hn
  have e : feed h (reserves rs ++ [.commit addr] ++ gets) =
      feed (.commit addr :: feed h (reserves rs)) gets := by
    rw [feed_append, feed_append]; rfl
  rw [e]
  have key := feed_gets (B := B) (gets := gets) (h := .commit addr :: feed h (reserves rs))
    ⟨k1, k2, hb⟩ rfl (by
      intro op hop
      obtain ⟨j, t, n, h1, rfl⟩ := hg op hop
      refine ⟨⟨reserveCount h + j, t, n⟩, ?_, rfl⟩
      show _ ∈ liveBlocks (feed h (reserves rs))
      rw [k3, List.mem_reverse]
      exact blocks_mem h1)
  refine ⟨key.1, key.2.1, ?_⟩
  rw [key.2.2]; exact k3

theorem close {B : Nat} {h : List AOp} (hv : Valid B h) (hc : committedIn h = true) :
    Clean B (feed h [.decommit]) :=
  ⟨⟨hv, hc, Nat.zero_le _⟩, rfl, rfl⟩

/-- A whole phase. -/
theorem feed_phase {B : Nat} {h : List AOp} (hc : Clean B h) {rs : List (TypeId × Nat)} (hl : rs.length ≤ 5)
    (hn : needOf rs ≤ B) (addr : Nat) {gets : List AOp}
    (hg : ∀ op ∈ gets, ∃ j t n, rs[j]? = some (t, n) ∧ op = .get t (reserveCount h + j)) :
    Clean B (feed h (reserves rs ++ [.commit addr] ++ gets ++ [.decommit])) := by
  obtain ⟨k1, k2, -⟩ := feed_open hc hl hn addr hg
  rw [feed_append]
  exact close k1 k2

/-! ## Projections -/

theorem proj_nil (x : Aid) : proj x [] = [] := rfl

theorem proj_append (x : Aid) (a b : List Ev) : proj x (a ++ b) = proj x a ++ proj x b := by
  unfold proj; simp

theorem proj_cons_same (x : Aid) (c : Call) (tr : List Ev) : proj x ((x, c) :: tr) = c.1 :: proj x tr := by
  unfold proj; simp

theorem proj_cons_ne {x : Aid} {e : Ev} (h : e.1 ≠ x) (tr : List Ev) : proj x (e :: tr) = proj x tr := by
  unfold proj; simp [h]

theorem proj_map_same (x : Aid) (cs : List Call) : proj x (cs.map fun c => (x, c)) = cs.map (·.1) := by
  induction cs with
  | nil => rfl
  | cons op ops ih => rw [List.map_cons, proj_cons_same, ih]; rfl

theorem proj_map_ne {x y : Aid} (h : y ≠ x) (ops : List Call) : proj x (ops.map fun c => (y, c)) = [] := by
  induction ops with
  | nil => rfl
  | cons op ops ih => rw [List.map_cons, proj_cons_ne h, ih]

theorem mem_proj {x : Aid} {tr : List Ev} {op : AOp} : op ∈ proj x tr ↔ ∃ n, (x, op, n) ∈ tr := by
  unfold proj
  simp only [List.mem_map, List.mem_filter, decide_eq_true_eq]
  constructor
  · rintro ⟨⟨y, o, n⟩, ⟨h1, h2⟩, h3⟩
    dsimp only at h2 h3; subst h2; subst h3; exact ⟨n, h1⟩
  · rintro ⟨n, h⟩; exact ⟨(x, op, n), ⟨h, rfl⟩, rfl⟩

/-- The history of allocator `x`, most recent first. -/
def hist (x : Aid) (h : List Ev) : List AOp := (proj x h).reverse

theorem hist_append (x : Aid) (h tr : List Ev) : hist x (h ++ tr) = feed (hist x h) (proj x tr) := by
  unfold hist feed; rw [proj_append, List.reverse_append]

theorem reserveCount_reverse (l : List AOp) : reserveCount l.reverse = reserveCount l := by
  induction l with
  | nil => rfl
  | cons op l ih =>
    rw [List.reverse_cons, reserveCount_append, ih]
    cases op <;> simp [reserveCount]

theorem serial_eq (x : Aid) (h : List Ev) : serial x h = reserveCount (hist x h) :=
  (reserveCount_reverse _).symm

/-! ## Interleavings -/

theorem Shuffle.mem {α : Type} {ls : List (List α)} {tr : List α} (h : Shuffle ls tr) :
    ∀ e ∈ tr, ∃ l ∈ ls, e ∈ l := by
  induction h with
  | done _ => intro e he; simp at he
  | @step ls i x t tr hi _ ih =>
    have hm : x :: t ∈ ls := List.mem_of_getElem? hi
    intro e he
    rcases List.mem_cons.1 he with rfl | he
    · exact ⟨_, hm, List.mem_cons_self⟩
    · obtain ⟨l, hl, hel⟩ := ih e he
      rcases List.mem_or_eq_of_mem_set hl with h1 | rfl
      · exact ⟨l, h1, hel⟩
      · exact ⟨_, hm, List.mem_cons_of_mem _ hel⟩

/-- If only list `j` has calls on `x`, then these are the calls on `x` of the interleaving, in order. -/
theorem Shuffle.proj {x : Aid} {j : Nat} {ls : List (List Ev)} {tr : List Ev} (h : Shuffle ls tr) :
    (∀ i l, i ≠ j → ls[i]? = some l → GemmAlloc.proj x l = []) →
    GemmAlloc.proj x tr = GemmAlloc.proj x (ls[j]?.getD []) := by
  induction h with
  | @done ls hd =>
    intro _
    cases hj : ls[j]? with
    | none => rfl
    | some l => rw [hd l (List.mem_of_getElem? hj)]; rfl
  | @step ls i e t tr hi _ ih =>
    intro hp
    have hlt : i < ls.length := (List.getElem?_eq_some_iff.1 hi).1
    by_cases hij : i = j
    · subst hij
      have key := ih (by
        intro m l hm hl
        rw [List.getElem?_set_ne (Ne.symm hm)] at hl
        exact hp m l hm hl)
      rw [List.getElem?_set_self hlt] at key
      rw [hi]
      dsimp only [Option.getD] at key ⊢
      by_cases he : e.1 = x
      · subst he
        obtain ⟨y, op, sz⟩ := e
        rw [proj_cons_same, proj_cons_same, key]
      · rw [proj_cons_ne he, proj_cons_ne he, key]
    · have he0 := hp i _ hij hi
      have he : e.1 ≠ x := by
        intro he; subst he; obtain ⟨y, op, sz⟩ := e; rw [proj_cons_same] at he0; cases he0
      rw [proj_cons_ne he] at he0
      have key := ih (by
        intro m l hm hl
        by_cases hmi : m = i
        · subst hmi; rw [List.getElem?_set_self hlt] at hl; injection hl with hl; rw [← hl]; exact he0
        · rw [List.getElem?_set_ne (Ne.symm hmi)] at hl; exact hp m l hm hl)
      rw [List.getElem?_set_ne hij] at key
      rw [proj_cons_ne he, key]

/-! ## The phases of the GEMM -/

/-- The reservations of a packed side. -/
def sideRes (p : SideParams) : List (TypeId × Nat) := [(.uint8, p.l2_width * p.l2_depth), (.int32, p.l2_width)]

/-- The reservations of `SingleThreadGemm`. -/
def singleRes (b : BlockParams) : List (TypeId × Nat) :=
  sideRes (b.side .lhs) ++ sideRes (b.side .rhs) ++ [(.int32, b.l2_rows * b.l2_cols)]

/-- The reservations of a task. -/
def taskRes (b : BlockParams) : List (TypeId × Nat) :=
  sideRes (b.side .lhs) ++ [(.int32, b.l2_rows * b.l2_cols)]

theorem needOf_append (a b : List (TypeId × Nat)) : needOf (a ++ b) = needOf a + needOf b := by
  induction a with
  | nil => simp [needOf]
  | cons r a ih => obtain ⟨t, n⟩ := r; simp only [List.cons_append, needOf, ih]; omega

theorem need_side_le (b : BlockParams) : needOf (sideRes (b.side .rhs)) ≤ needOf (singleRes b) := by
  unfold singleRes; rw [needOf_append, needOf_append]; omega

theorem need_task_le (b : BlockParams) : needOf (taskRes b) ≤ needOf (singleRes b) := by
  unfold singleRes taskRes; rw [needOf_append, needOf_append, needOf_append]; omega

/-- The calls of `GetPointer` by `SingleThreadGemm`. -/
def singleGet (k : Nat) : Use → AOp
  | .lhs .data => .get .uint8 k
  | .lhs .sums => .get .int32 (k + 1)
  | .rhs .data => .get .uint8 (k + 2)
  | .rhs .sums => .get .int32 (k + 3)
  | .result => .get .int32 (k + 4)

theorem singleCalls_eq (k : Nat) (b : BlockParams) (addr : Nat) (uses : List Use) :
    (singleCalls k b addr uses).map (·.1) =
      reserves (singleRes b) ++ [.commit addr] ++ uses.map (singleGet k) ++ [.decommit] := by
  unfold singleCalls packedSide packedResult
  simp only [List.map_append, List.map_map]
  congr 2
  apply List.map_congr_left
  intro u _
  rcases u with u | u | _ <;> (try cases u) <;> rfl

theorem singleGet_ok (b : BlockParams) (k : Nat) (u : Use) :
    ∃ j t n, (singleRes b)[j]? = some (t, n) ∧ singleGet k u = .get t (k + j) := by
  rcases u with u | u | _
  · cases u
    · exact ⟨0, _, _, rfl, rfl⟩
    · exact ⟨1, _, _, rfl, rfl⟩
  · cases u
    · exact ⟨2, _, _, rfl, rfl⟩
    · exact ⟨3, _, _, rfl, rfl⟩
  · exact ⟨4, _, _, rfl, rfl⟩

theorem single_clean {B : Nat} {h : List AOp} (hc : Clean B h) {b : BlockParams} (hb : needOf (singleRes b) ≤ B)
    (addr : Nat) (uses : List Use) : Clean B (feed h ((singleCalls (reserveCount h) b addr uses).map (·.1))) := by
  rw [singleCalls_eq]
  apply feed_phase hc (by simp [singleRes, sideRes]) hb
  intro op hop
  obtain ⟨u, -, rfl⟩ := List.mem_map.1 hop
  exact singleGet_ok b _ u

/-- The calls of a task on an allocator other than the base allocator. -/
theorem proj_task {x y : Aid} (hy : y ≠ .base) (k : Nat) (b : BlockParams) (rhs : SideObj) (addr : Nat)
    (uses : List Use) : ∃ gets : List AOp, proj y (taskCalls x k b rhs addr uses) =
      (if x = y then reserves (taskRes b) ++ [.commit addr] ++ gets ++ [.decommit] else []) ∧
      ∀ op ∈ gets, ∃ j t n, (taskRes b)[j]? = some (t, n) ∧ op = .get t (k + j) := by
  unfold taskCalls packedSide packedResult
  dsimp only
  by_cases hxy : x = y
  · subst hxy
    refine ⟨proj x (uses.map (fun
        | .lhs u => (x, (⟨k, k + 1, b.side .lhs⟩ : SideObj).use u)
        | .rhs u => (.base, rhs.use u)
        | .result => (x, (⟨k + 2, b⟩ : ResObj).use))), ?_, ?_⟩
    · rw [if_pos rfl, proj_append, proj_append, proj_map_same, proj_cons_same]
      rfl
    · intro op hop
      obtain ⟨m, hop⟩ := mem_proj.1 hop
      obtain ⟨u, -, hu⟩ := List.mem_map.1 hop
      rcases u with u | u | _
      · cases u <;> (injection hu with _ hu; injection hu with hu _; subst hu)
        · exact ⟨0, _, _, rfl, rfl⟩
        · exact ⟨1, _, _, rfl, rfl⟩
      · injection hu with h1 _; exact absurd h1.symm hy
      · injection hu with _ hu; injection hu with hu _; subst hu; exact ⟨2, _, _, rfl, rfl⟩
  · refine ⟨[], ?_, by intro op hop; simp at hop⟩
    rw [if_neg hxy, proj_append, proj_append, proj_map_ne hxy, proj_cons_ne hxy, proj_nil, List.append_nil,
      List.nil_append]
    apply List.eq_nil_iff_forall_not_mem.2
    intro op hop
    obtain ⟨m, hop⟩ := mem_proj.1 hop
    obtain ⟨u, -, hu⟩ := List.mem_map.1 hop
    rcases u with u | u | _
    · injection hu with h1 _; exact hxy h1
    · injection hu with h1 _; exact hy h1.symm
    · injection hu with h1 _; exact hxy h1

/-- On the base allocator a task only uses the packed RHS. -/
theorem proj_task_base {x : Aid} (hx : x ≠ .base) (k : Nat) (b : BlockParams) (rhs : SideObj) (addr : Nat)
    (uses : List Use) : ∀ op, (.base, op) ∈ taskCalls x k b rhs addr uses → ∃ u, op = rhs.use u := by
  intro op hop
  unfold taskCalls packedSide packedResult at hop
  dsimp only at hop
  rcases List.mem_append.1 hop with hop | hop
  · rcases List.mem_append.1 hop with hop | hop
    · obtain ⟨o, -, ho⟩ := List.mem_map.1 hop
      injection ho with h1 _; exact absurd h1 hx
    · obtain ⟨u, -, hu⟩ := List.mem_map.1 hop
      rcases u with u | u | _
      · injection hu with h1 _; exact absurd h1 hx
      · injection hu with _ h2; exact ⟨u, h2.symm⟩
      · injection hu with h1 _; exact absurd h1 hx
  · rw [List.mem_singleton] at hop
    injection hop with h1 _; exact absurd h1.symm hx

theorem taskAlloc_ne_base (tasks n : Nat) : taskAlloc tasks n ≠ .base := by
  unfold taskAlloc; split <;> (intro h; cases h)

theorem taskAlloc_inj {tasks n m : Nat} (h : taskAlloc tasks n = taskAlloc tasks m) : n = m := by
  unfold taskAlloc at h
  split at h <;> split at h
  · omega
  · cases h
  · cases h
  · injection h

theorem Blocks.base {b : BlockParams} {tasks : Nat} {rhs : SideObj} {h tr : List Ev}
    (hb : Blocks b tasks rhs h tr) : ∀ op ∈ proj .base tr, ∃ u, op = (rhs.use u).1 := by
  induction hb with
  | done => intro op hop; simp [proj] at hop
  | block pack addr uses hs _ ih =>
    intro op hop
    rw [proj_append, proj_append] at hop
    rcases List.mem_append.1 hop with hop | hop
    · rcases List.mem_append.1 hop with hop | hop
      · obtain ⟨m, hop⟩ := mem_proj.1 hop
        obtain ⟨u, -, hu⟩ := List.mem_map.1 hop
        injection hu with _ h2
        exact ⟨u, by rw [h2]⟩
      · obtain ⟨m, hop⟩ := mem_proj.1 hop
        obtain ⟨l, hl, he⟩ := hs.mem _ hop
        obtain ⟨n, -, rfl⟩ := List.mem_map.1 hl
        obtain ⟨u, hu⟩ := proj_task_base (taskAlloc_ne_base _ _) _ _ _ _ _ _ he
        exact ⟨u, by rw [← hu]⟩
    · exact ih op hop

theorem Blocks.other {B : Nat} {b : BlockParams} (hn : needOf (singleRes b) ≤ B) {tasks : Nat} {rhs : SideObj}
    {h tr : List Ev} (hb : Blocks b tasks rhs h tr) {x : Aid} (hx : x ≠ .base) :
    Clean B (hist x h) → Clean B (hist x (h ++ tr)) := by
  induction hb with
  | done => intro hc; rw [List.append_nil]; exact hc
  | @block h tr rest pack addr uses hs _ ih =>
    intro hc
    have hpack : proj x (pack.map fun u => ((Aid.base, rhs.use u) : Ev)) = [] := by
      apply List.eq_nil_iff_forall_not_mem.2
      intro op hop
      obtain ⟨m, hop⟩ := mem_proj.1 hop
      obtain ⟨u, -, hu⟩ := List.mem_map.1 hop
      injection hu with h1 _; exact hx h1.symm
    have e : h ++ (pack.map (fun u => ((Aid.base, rhs.use u) : Ev)) ++ tr ++ rest) =
        h ++ pack.map (fun u => ((Aid.base, rhs.use u) : Ev)) ++ tr ++ rest := by simp
    rw [e]
    apply ih
    rw [hist_append, hist_append, hpack, feed_nil]
    -- the task that uses `x`, if any
    have task : ∀ j, (∀ i, i ≠ j → taskAlloc tasks i ≠ x) → Clean B (feed (hist x h) (proj x tr)) := by
      intro j hj
      rw [hs.proj (x := x) (j := j)]
      · rw [List.getElem?_map]
        cases hr : (List.range tasks)[j]? with
        | none => exact hc
        | some n =>
          have hnj : n = j := by
            have := List.getElem?_eq_some_iff.1 hr
            obtain ⟨h1, h2⟩ := this
            rw [List.getElem_range] at h2; exact h2.symm
          subst hnj
          dsimp only [Option.map, Option.getD]
          obtain ⟨gets, e1, e2⟩ := proj_task (x := taskAlloc tasks n) hx (serial (taskAlloc tasks n) h) b rhs
            (addr n) (uses n)
          rw [e1]
          split
          · rename_i hxy
            apply feed_phase hc (by simp [taskRes, sideRes]) (Nat.le_trans (need_task_le b) hn)
            intro op hop
            have := e2 op hop
            rw [hxy, serial_eq] at this
            exact this
          · exact hc
      · intro i l hi hl
        rw [List.getElem?_map] at hl
        cases hr : (List.range tasks)[i]? with
        | none => rw [hr] at hl; cases hl
        | some n =>
          rw [hr] at hl
          have hni : n = i := by
            obtain ⟨h1, h2⟩ := List.getElem?_eq_some_iff.1 hr
            rw [List.getElem_range] at h2; exact h2.symm
          subst hni
          injection hl with hl
          obtain ⟨gets, e1, -⟩ := proj_task (x := taskAlloc tasks n) hx (serial (taskAlloc tasks n) h) b rhs
            (addr n) (uses n)
          rw [← hl, e1, if_neg (hj n hi)]
    cases hx' : x with
    | base => exact absurd hx' hx
    | main =>
      rw [← hx']
      apply task (tasks - 1)
      intro i hi
      unfold taskAlloc
      split
      · omega
      · rw [hx']; intro h; cases h
    | worker m =>
      rw [← hx']
      apply task m
      intro i hi
      unfold taskAlloc
      split
      · rw [hx']; intro h; cases h
      · rw [hx']; intro h; injection h with h; exact hi h

/-- After each call of the GEMM all allocators are clean. -/
theorem Life.clean {B : Nat} {h : List Ev} (hl : Life (fun b => needOf (singleRes b) ≤ B) h) (x : Aid) :
    Clean B (hist x h) := by
  induction hl with
  | new => exact ⟨trivial, rfl, rfl⟩
  | @single h b addr uses hb _ ih =>
    rw [hist_append]
    by_cases hx : x = .base
    · subst hx
      rw [proj_map_same, serial_eq]
      exact single_clean ih hb addr uses
    · rw [proj_map_ne (Ne.symm hx)]; exact ih
  | @multi h tr b tasks addr hb _ _ hbl ih =>
    by_cases hx : x = .base
    · subst hx
      have hbase := hbl.base
      rw [hist_append, hist_append, hist_append, ← feed_append, ← feed_append]
      unfold multiStart
      rw [proj_map_same, proj_cons_same, proj_nil]
      exact feed_phase ih (rs := sideRes (b.side .rhs)) (by simp [sideRes]) (Nat.le_trans (need_side_le b) hb) addr
        (gets := proj .base tr) (by
          intro op hop
          obtain ⟨u, rfl⟩ := hbase op hop
          rw [serial_eq]
          cases u
          · exact ⟨0, _, _, rfl, rfl⟩
          · exact ⟨1, _, _, rfl, rfl⟩)
    · rw [hist_append, proj_cons_ne (Ne.symm hx), proj_nil, feed_nil]
      apply hbl.other hb hx
      rw [hist_append]
      unfold multiStart
      rw [proj_map_ne (Ne.symm hx)]
      exact ih

/-! ## What the callers access -/

/-- The reservations of a history, in order. -/
def reservations : List AOp → List (TypeId × Nat)
  | [] => []
  | .reserve t n :: h => (t, n) :: reservations h
  | _ :: h => reservations h

theorem reservations_append (a b : List AOp) : reservations (a ++ b) = reservations a ++ reservations b := by
  induction a with
  | nil => rfl
  | cons op a ih => cases op <;> simp [reservations, ih]

theorem reservations_length (a : List AOp) : (reservations a).length = reserveCount a := by
  induction a with
  | nil => rfl
  | cons op a ih => cases op <;> simp [reservations, reserveCount, ih]

theorem reservations_reserves (rs : List (TypeId × Nat)) : reservations (reserves rs) = rs := by
  induction rs with
  | nil => rfl
  | cons r rs ih =>
    show (r.1, r.2) :: reservations (reserves rs) = _
    rw [ih]

theorem live_reservation : ∀ {h : List AOp} {b : ABlock}, b ∈ liveBlocks h →
    (reservations h.reverse)[b.serial]? = some (b.type, b.n)
  | [], b, hb => by simp [liveBlocks] at hb
  | op :: h, b, hb => by
    rw [List.reverse_cons, reservations_append]
    cases op with
    | reserve t n =>
      simp only [liveBlocks, List.mem_cons] at hb
      rcases hb with rfl | hb
      · dsimp only
        rw [List.getElem?_append_right (by rw [reservations_length, reserveCount_reverse]; exact Nat.le_refl _),
          reservations_length, reserveCount_reverse, Nat.sub_self]
        rfl
      · have := live_reservation hb
        rw [List.getElem?_append_left (List.getElem?_eq_some_iff.1 this).1]; exact this
    | commit a => simp only [reservations, List.append_nil]; exact live_reservation hb
    | decommit => simp [liveBlocks] at hb
    | get t k => simp only [reservations, List.append_nil]; exact live_reservation hb

/-- If the call is `GetPointer`, then its handle is that of a reservation of at least the bytes accessed. -/
def Labelled (h : List AOp) (c : Call) : Prop :=
  ∀ t k, c.1 = .get t k → ∃ m, (reservations h)[k]? = some (t, m) ∧ c.2 ≤ m * t.size

theorem Labelled.mono {h : List AOp} {c : Call} (hl : Labelled h c) (h' : List AOp) : Labelled (h ++ h') c := by
  intro t k e
  obtain ⟨m, h1, h2⟩ := hl t k e
  refine ⟨m, ?_, h2⟩
  rw [reservations_append, List.getElem?_append_left (List.getElem?_eq_some_iff.1 h1).1]; exact h1

/-- Labels of calls after some reservations. -/
theorem Labelled.of_reserves {h : List AOp} {rs : List (TypeId × Nat)} {j n m : Nat} {t : TypeId} (rest : List AOp)
    (hj : rs[j]? = some (t, m)) (hn : n ≤ m * t.size) :
    Labelled (h ++ (reserves rs ++ rest)) (.get t (reserveCount h + j), n) := by
  intro t' k e
  injection e with e1 e2
  subst e1; subst e2
  refine ⟨m, ?_, hn⟩
  rw [reservations_append, List.getElem?_append_right (by rw [reservations_length]; omega), reservations_length,
    Nat.add_sub_cancel_left, reservations_append, reservations_reserves,
    List.getElem?_append_left (List.getElem?_eq_some_iff.1 hj).1]
  exact hj

theorem Labelled.other {h : List AOp} {c : Call} (hc : ∀ t k, c.1 ≠ .get t k) : Labelled h c :=
  fun t k e => absurd e (hc t k)

theorem single_labelled (h : List AOp) (b : BlockParams) (addr : Nat) (uses : List Use) :
    ∀ c ∈ singleCalls (reserveCount h) b addr uses,
      Labelled (h ++ (singleCalls (reserveCount h) b addr uses).map (·.1)) c := by
  intro c hc
  rw [singleCalls_eq, List.append_assoc, List.append_assoc]
  unfold singleCalls packedSide packedResult at hc
  dsimp only at hc
  simp only [List.mem_append, List.mem_cons, List.not_mem_nil, or_false, List.mem_map] at hc
  rcases hc with (((((rfl | rfl) | (rfl | rfl)) | rfl) | rfl) | ⟨u, -, rfl⟩) | rfl
  · exact Labelled.other (by intro t k e; cases e)
  · exact Labelled.other (by intro t k e; cases e)
  · exact Labelled.other (by intro t k e; cases e)
  · exact Labelled.other (by intro t k e; cases e)
  · exact Labelled.other (by intro t k e; cases e)
  · exact Labelled.other (by intro t k e; cases e)
  · rcases u with u | u | _
    · cases u
      · exact Labelled.of_reserves (rs := singleRes b) (j := 0) _ rfl (Nat.le_of_eq (Nat.mul_one _).symm)
      · exact Labelled.of_reserves (rs := singleRes b) (j := 1) _ rfl (Nat.le_refl _)
    · cases u
      · exact Labelled.of_reserves (rs := singleRes b) (j := 2) _ rfl (Nat.le_of_eq (Nat.mul_one _).symm)
      · exact Labelled.of_reserves (rs := singleRes b) (j := 3) _ rfl (Nat.le_refl _)
    · exact Labelled.of_reserves (rs := singleRes b) (j := 4) _ rfl (Nat.le_refl _)
  · exact Labelled.other (by intro t k e; cases e)

theorem task_labelled {x : Aid} (hx : x ≠ .base) (h : List AOp) (b : BlockParams) (rhs : SideObj) (addr : Nat)
    (uses : List Use) : ∀ c, (x, c) ∈ taskCalls x (reserveCount h) b rhs addr uses →
      Labelled (h ++ proj x (taskCalls x (reserveCount h) b rhs addr uses)) c := by
  intro c hc
  obtain ⟨gets, e1, -⟩ := proj_task (x := x) hx (reserveCount h) b rhs addr uses
  rw [e1, if_pos rfl, List.append_assoc, List.append_assoc]
  unfold taskCalls packedSide packedResult at hc
  dsimp only at hc
  simp only [List.mem_append, List.mem_cons, List.not_mem_nil, or_false, List.mem_map, Prod.mk.injEq] at hc
  rcases hc with (⟨a, (((rfl | rfl) | rfl) | rfl), -, rfl⟩ | ⟨u, -, hu⟩) | ⟨-, rfl⟩
  · exact Labelled.other (by intro t k e; cases e)
  · exact Labelled.other (by intro t k e; cases e)
  · exact Labelled.other (by intro t k e; cases e)
  · exact Labelled.other (by intro t k e; cases e)
  · rcases u with u | u | _
    · cases u <;> (injection hu with _ hu; subst hu)
      · exact Labelled.of_reserves (rs := taskRes b) (j := 0) _ rfl (Nat.le_of_eq (Nat.mul_one _).symm)
      · exact Labelled.of_reserves (rs := taskRes b) (j := 1) _ rfl (Nat.le_refl _)
    · injection hu with h1 _; exact absurd h1.symm hx
    · injection hu with _ hu
      subst hu
      exact Labelled.of_reserves (rs := taskRes b) (j := 2) _ rfl (Nat.le_refl _)
  · exact Labelled.other (by intro t k e; cases e)

theorem mem_task {x y : Aid} (hy : y ≠ .base) {k : Nat} {b : BlockParams} {rhs : SideObj} {addr : Nat}
    {uses : List Use} {c : Call} (h : (y, c) ∈ taskCalls x k b rhs addr uses) : x = y := by
  by_contra hxy
  obtain ⟨gets, e1, -⟩ := proj_task (x := x) hy k b rhs addr uses
  rw [if_neg hxy] at e1
  have : c.1 ∈ proj y (taskCalls x k b rhs addr uses) := mem_proj.2 ⟨c.2, h⟩
  rw [e1] at this
  cases this

theorem Blocks.labelled {b : BlockParams} {tasks : Nat} {rhs : SideObj} {h tr : List Ev}
    (hb : Blocks b tasks rhs h tr) : (∀ u, Labelled (GemmAlloc.proj .base h) (rhs.use u)) →
    ∀ x c, (x, c) ∈ tr → Labelled (GemmAlloc.proj x (h ++ tr)) c := by
  induction hb with
  | done => intro _ x c hc; simp at hc
  | @block h tr rest pack addr uses hs _ ih =>
    intro hr x c hc
    have e : h ++ (pack.map (fun u => ((Aid.base, rhs.use u) : Ev)) ++ tr ++ rest) =
        h ++ pack.map (fun u => ((Aid.base, rhs.use u) : Ev)) ++ tr ++ rest := by simp
    rw [e]
    have hr' : ∀ u, Labelled (GemmAlloc.proj .base (h ++ pack.map (fun u => ((Aid.base, rhs.use u) : Ev)) ++ tr))
        (rhs.use u) := by
      intro u; rw [proj_append, proj_append, List.append_assoc]; exact (hr u).mono _
    rcases List.mem_append.1 hc with hc | hc
    · rw [proj_append]
      apply Labelled.mono
      rcases List.mem_append.1 hc with hc | hc
      · obtain ⟨u, -, hu⟩ := List.mem_map.1 hc
        injection hu with h1 h2
        subst h1; subst h2
        exact hr' u
      · obtain ⟨l, hl, he⟩ := hs.mem _ hc
        obtain ⟨n, hn, rfl⟩ := List.mem_map.1 hl
        by_cases hx : x = .base
        · subst hx
          obtain ⟨u, rfl⟩ := proj_task_base (taskAlloc_ne_base _ _) _ _ _ _ _ _ he
          exact hr' u
        · have hxt := mem_task hx he
          rw [List.mem_range] at hn
          have hproj : GemmAlloc.proj x tr = GemmAlloc.proj x (taskCalls (taskAlloc tasks n)
              (serial (taskAlloc tasks n) h) b rhs (addr n) (uses n)) := by
            rw [hs.proj (x := x) (j := n)]
            · rw [List.getElem?_map, List.getElem?_range hn]; rfl
            · intro i l hi hl
              rw [List.getElem?_map] at hl
              by_cases hit : i < tasks
              · rw [List.getElem?_range hit] at hl
                injection hl with hl
                subst hl
                obtain ⟨gets, e1, -⟩ := proj_task (x := taskAlloc tasks i) hx (serial (taskAlloc tasks i) h) b rhs
                  (addr i) (uses i)
                rw [e1, if_neg (fun h => hi (taskAlloc_inj (h.trans hxt.symm)))]
              · rw [List.getElem?_eq_none (by simpa using hit)] at hl; cases hl
          have hpack : GemmAlloc.proj x (pack.map fun u => ((Aid.base, rhs.use u) : Ev)) = [] := by
            apply List.eq_nil_iff_forall_not_mem.2
            intro op hop
            obtain ⟨m, hop⟩ := mem_proj.1 hop
            obtain ⟨u, -, hu⟩ := List.mem_map.1 hop
            injection hu with h1 _; exact hx h1.symm
          rw [proj_append, proj_append, hpack, List.append_nil, hproj]
          rw [hxt] at he ⊢
          exact task_labelled hx (GemmAlloc.proj x h) b rhs (addr n) (uses n) c he
    · exact ih hr' x c hc

theorem Life.labelled {ok : BlockParams → Prop} {h : List Ev} (hl : Life ok h) :
    ∀ x c, (x, c) ∈ h → Labelled (proj x h) c := by
  induction hl with
  | new => intro x c hc; simp at hc
  | @single h b addr uses hb _ ih =>
    intro x c hc
    rw [proj_append]
    rcases List.mem_append.1 hc with hc | hc
    · exact (ih x c hc).mono _
    · obtain ⟨c', hc', e⟩ := List.mem_map.1 hc
      injection e with e1 e2
      subst e1; subst e2
      rw [proj_map_same]
      exact single_labelled _ b addr uses _ hc'
  | @multi h tr b tasks addr hb _ _ hbl ih =>
    intro x c hc
    rw [proj_append]
    rcases List.mem_append.1 hc with hc | hc
    · apply Labelled.mono
      rcases List.mem_append.1 hc with hc | hc
      · rw [proj_append]
        apply Labelled.mono
        rcases List.mem_append.1 hc with hc | hc
        · rw [proj_append]; exact (ih x c hc).mono _
        · unfold multiStart packedSide at hc
          simp only [List.mem_append, List.mem_cons, List.not_mem_nil, or_false, List.mem_map,
            Prod.mk.injEq] at hc
          obtain ⟨c', (rfl | rfl) | rfl, -, rfl⟩ := hc <;>
            exact Labelled.other (by intro t k e; cases e)
      · refine hbl.labelled ?_ x c hc
        intro u
        rw [proj_append]
        unfold multiStart
        rw [proj_map_same]
        cases u
        · exact Labelled.of_reserves (rs := sideRes (b.side .rhs)) (j := 0) _ rfl
            (Nat.le_of_eq (Nat.mul_one _).symm)
        · exact Labelled.of_reserves (rs := sideRes (b.side .rhs)) (j := 1) _ rfl (Nat.le_refl _)
    · rw [List.mem_singleton] at hc
      injection hc with _ e2
      subst e2
      exact Labelled.other (by intro t k e; cases e)

/-! ## Running the calls -/

theorem step_of_allowed {W : Nat} {h : List AOp} {w : AWorld} (I : AInv W h w) {op : AOp} (ho : allowed h op)
    (ha : ∀ a, op = .commit a → a ≠ 0) : ∃ w', w.step W op = .ok w' := by
  cases op with
  | reserve t n =>
    unfold allowed at ho; unfold AWorld.step; dsimp only at ho ⊢; rw [reserve_eq I, if_pos ho]; exact ⟨_, rfl⟩
  | commit a =>
    unfold allowed at ho; unfold AWorld.step; dsimp only at ho ⊢; rw [commit_eq I (ha a rfl), if_pos ho]; exact ⟨_, rfl⟩
  | decommit =>
    unfold allowed at ho; unfold AWorld.step; dsimp only at ho ⊢; rw [decommit_eq I, if_pos ho]; exact ⟨_, rfl⟩
  | get t k =>
    obtain ⟨hc, n, hm⟩ := ho
    obtain ⟨pre, suf, e, h2, h3⟩ := live_handle I hm
    dsimp only at h2 h3
    unfold AWorld.step; dsimp only; rw [h2]; dsimp only; rw [h3 hc]; exact ⟨_, rfl⟩

theorem run_of_valid {W : Nat} (hW : SizeT W) {B : Nat} (g : Nat → Nat) : ∀ {h : List AOp}, Valid B h → AllocsOk h →
    ∃ w, AWorld.run W g h = .ok w
  | [], _, _ => ⟨_, rfl⟩
  | op :: h, hv, ha => by
    obtain ⟨w, hw⟩ := run_of_valid hW g hv.1 (fun a hm => ha a (List.mem_cons_of_mem _ hm))
    obtain ⟨w', hw'⟩ := step_of_allowed (AInv_run hW hw (fun a hm => ha a (List.mem_cons_of_mem _ hm))) hv.2.1
      (fun a e => ha a (by rw [e]; exact List.mem_cons_self))
    refine ⟨w', ?_⟩
    unfold AWorld.run
    rw [hw, ok_bind, hw']

theorem Worlds.run_snoc (W : Nat) (e : Ev) : ∀ (tr : List Ev) (w : Worlds),
    Worlds.run W w (tr ++ [e]) = (do let w' ← Worlds.run W w tr; w'.step W e)
  | [], w => by
    show (do let w' ← w.step W e; Worlds.run W w' []) = w.step W e
    cases w.step W e <;> rfl
  | e' :: tr, w => by
    rw [List.cons_append]
    unfold Worlds.run
    cases h : w.step W e' with
    | error f => rfl
    | ok w' => rw [ok_bind, ok_bind]; exact Worlds.run_snoc W e tr w'

/-- The allocators do not interfere. -/
theorem run_proj {W : Nat} {g : Aid → Nat → Nat} {tr : List Ev} : ∀ {w : Worlds},
    Worlds.run W (Worlds.new g) tr = .ok w → ∀ x, AWorld.run W (g x) (hist x tr) = .ok (w x) := by
  induction tr using List.reverseRecOn with
  | nil => intro w h x; injection h with h; rw [← h]; rfl
  | append_singleton tr e ih =>
    intro w h x
    rw [Worlds.run_snoc] at h
    cases h1 : Worlds.run W (Worlds.new g) tr with
    | error f => rw [h1] at h; cases h
    | ok w1 =>
      rw [h1, ok_bind] at h
      unfold Worlds.step at h
      cases h2 : (w1 e.1).step W e.2.1 with
      | error f => rw [h2] at h; cases h
      | ok a =>
        rw [h2, ok_bind] at h
        injection h with h
        rw [hist_append]
        by_cases hx : e.1 = x
        · subst hx
          obtain ⟨y, op, sz⟩ := e
          rw [proj_cons_same, proj_nil]
          show AWorld.run W (g y) (op :: hist y tr) = _
          unfold AWorld.run
          rw [ih h1 y, ok_bind, ← h]
          dsimp only at h2 ⊢
          rw [if_pos rfl, h2]
        · rw [proj_cons_ne hx, proj_nil, feed_nil, ih h1 x, ← h]
          dsimp only
          rw [if_neg (fun h => hx h.symm)]

theorem run_all {W : Nat} {g : Aid → Nat → Nat} {tr : List Ev} :
    (∀ x, ∃ a, AWorld.run W (g x) (hist x tr) = .ok a) → ∃ w, Worlds.run W (Worlds.new g) tr = .ok w := by
  induction tr using List.reverseRecOn with
  | nil => intro _; exact ⟨_, rfl⟩
  | append_singleton tr e ih =>
    intro h
    have hprev : ∀ x, ∃ a, AWorld.run W (g x) (hist x tr) = .ok a := by
      intro x
      obtain ⟨a, ha⟩ := h x
      rw [hist_append] at ha
      by_cases hx : e.1 = x
      · subst hx
        obtain ⟨y, op, sz⟩ := e
        rw [proj_cons_same, proj_nil] at ha
        change AWorld.run W (g y) (op :: hist y tr) = _ at ha
        unfold AWorld.run at ha
        dsimp only
        cases h1 : AWorld.run W (g y) (hist y tr) with
        | error f => rw [h1] at ha; cases ha
        | ok a1 => exact ⟨a1, rfl⟩
      · rw [proj_cons_ne hx, proj_nil, feed_nil] at ha; exact ⟨a, ha⟩
    obtain ⟨w, hw⟩ := ih hprev
    rw [Worlds.run_snoc, hw, ok_bind]
    unfold Worlds.step
    obtain ⟨y, op, sz⟩ := e
    obtain ⟨a, ha⟩ := h y
    rw [hist_append, proj_cons_same, proj_nil] at ha
    change AWorld.run W (g y) (op :: hist y tr) = _ at ha
    unfold AWorld.run at ha
    rw [run_proj hw y, ok_bind] at ha
    dsimp only
    rw [ha]
    exact ⟨_, rfl⟩

end GemmAlloc
end Gemmlowp
