import Verif.BenchKern
import Verif.Vec128Proof
/-!
# A kernel that passes the check is right

For every depth that is a multiple of the depth of a cell, all operands in the ranges and all accumulators.
-/
namespace Gemmlowp.Bench

theorem runCoeff_shift (f : SideFormat) (hcd : 0 < f.cd) (b : Buf UInt8) (pos w u e : Nat) :
    runCoeff f b (pos + u * (f.cells * f.cellSize)) w e = runCoeff f b pos w (f.cd * u + e) := by
  unfold runCoeff
  rw [Nat.mul_add_div hcd, Nat.mul_add_mod, Nat.add_mul, Nat.add_mul, Nat.add_mul, Nat.add_mul, Nat.mul_assoc u]
  congr 2
  omega

theorem coeffOff_eq (f : SideFormat) (b : Buf UInt8) (pos w d : Nat) :
    f.kval (b.get (pos + coeffOff f w d)) = runCoeff f b pos w d := by
  unfold coeffOff runCoeff
  rw [Nat.add_assoc]

theorem lanePoly_sound {E : Env} {x : Nat → DReg} {S : SRegs} (h : Sat E x S) {d n i : Nat} {p : Poly}
    (hp : lanePoly S d n i = some p) : (lane n (x d) i : Int) ≡ eval E p [ZMOD 256 ^ n] := by
  unfold lanePoly at hp
  cases hd : S d with
  | none => rw [hd] at hp; cases hp
  | some sv =>
    rw [hd] at hp
    dsimp only at hp
    split at hp
    · rename_i h0
      cases hp
      have : lane n (x d) i = 0 := laneAux_zero ((h d sv hd).zero h0) _ _
      rw [this]; rfl
    · rename_i h0
      split at hp
      · rename_i hn
        rw [← hn]
        exact (h d sv hd).lane h0 i p hp
      · cases hp

/-- The products of cells `lo` to `hi` are those of the coefficients. -/
theorem eval_prods {K : Kern} {E : Env} {m : Mem} {bl br : Nat} (hO : E.Of K.F m bl br) (r c lo hi : Nat) :
    eval E (K.prods r c lo hi) = sumTo (K.F.kDepth * hi - K.F.kDepth * lo) (fun d =>
      runCoeff K.F.lhs m.lhs bl r (K.F.kDepth * lo + d) * runCoeff K.F.rhs m.rhs br c (K.F.kDepth * lo + d)) := by
  unfold Kern.prods
  generalize K.F.kDepth * hi - K.F.kDepth * lo = n
  induction n with
  | zero => rfl
  | succ n ih =>
    rw [List.range_succ, List.map_append, eval_append, ih, sumTo_succ]
    simp only [List.map_cons, List.map_nil, eval, Mono.eval, Int.add_zero, hO.l, hO.r, coeffOff_eq]

/-- Lanes at the head of the loop, when the state is `S`. -/
def lanesOf (K : Kern) (E : Env) (x : SRegs) (d i : Nat) : Int :=
  match K.acc? d with
  | none => 0
  | some a => match lanePoly x d a.n i with
    | none => 0
    | some p => if i < 8 / a.n then eval E p else 0

/-- What the summands stand for, `c` cells later. -/
def Env.next (E : Env) (K : Kern) (x : SRegs) (c : Nat) : Env :=
  ⟨fun i => E.l (i + c * K.gl), fun i => E.r (i + c * K.gr), lanesOf K E x, E.a⟩

theorem Env.next_of {E : Env} {K : Kern} {m : Mem} {bl br : Nat} (hO : E.Of K.F m bl br) (x : SRegs) (c : Nat) :
    (E.next K x c).Of K.F m (bl + c * K.gl) (br + c * K.gr) := by
  refine ⟨fun i => ?_, fun i => ?_, hO.a⟩
  · show E.l (i + c * K.gl) = _
    rw [hO.l]; congr 2; omega
  · show E.r (i + c * K.gr) = _
    rw [hO.r]; congr 2; omega

theorem eval_up {E : Env} {K : Kern} {x : SRegs} {c : Nat} {p : Poly} (h : ∀ m ∈ p, m.noV = true) :
    eval (E.next K x c) p = eval E (p.map (Mono.up (c * K.gl) (c * K.gr))) := by
  induction p with
  | nil => rfl
  | cons m p ih =>
    simp only [List.map_cons, eval]
    rw [ih (fun m hm => h m (List.mem_cons_of_mem _ hm))]
    congr 1
    have := h m (List.mem_cons_self ..)
    cases m with
    | v d i => cases this
    | l i => rfl
    | r i => rfl
    | p i j => rfl
    | a k => rfl

theorem eval_substV {E : Env} {K : Kern} {x : SRegs} {c : Nat} : ∀ {p q : Poly}, substV K x p = some q →
    eval (E.next K x c) p = eval E q
  | [], q, h => by cases h; rfl
  | .v d i :: p, q, h => by
    simp only [substV] at h
    cases ha : K.acc? d with
    | none => rw [ha] at h; cases h
    | some a =>
      cases hq : substV K x p with
      | none => rw [ha, hq] at h; cases h
      | some q' =>
        rw [ha, hq] at h
        dsimp only at h
        split at h
        · rename_i hi
          cases hl : lanePoly x d a.n i with
          | none => rw [hl] at h; cases h
          | some p' =>
            rw [hl] at h
            cases h
            rw [eval_append]
            simp only [eval]
            rw [eval_substV hq]
            congr 1
            show lanesOf K E x d i = _
            unfold lanesOf
            rw [ha]; dsimp only
            rw [hl]; dsimp only
            rw [if_pos hi]
        · cases h
  | .l _ :: _, _, h => by cases h
  | .r _ :: _, _, h => by cases h
  | .p _ _ :: _, _, h => by cases h
  | .a _ :: _, _, h => by cases h

theorem eval_filter (E : Env) (p : Poly) :
    eval E p = eval E (p.filter (fun m => !m.noV)) + eval E (p.filter Mono.noV) := by
  induction p with
  | nil => rfl
  | cons m p ih =>
    cases h : m.noV with
    | true =>
      rw [List.filter_cons_of_neg (by simp [h]), List.filter_cons_of_pos h]
      simp only [eval, ih]; ring
    | false =>
      rw [List.filter_cons_of_pos (by simp [h]), List.filter_cons_of_neg (by simp [h])]
      simp only [eval, ih]; ring

namespace Kern
variable {K : Kern}

theorem acc?_mem {d : Nat} {a : Acc} (h : K.acc? d = some a) : a ∈ K.accs ∧ a.d = d := by
  unfold acc? at h
  exact ⟨List.mem_of_find?_eq_some h, by have := List.find?_some h; simpa using this⟩

theorem accOk_lane {S : SSt} {a : Acc} (h : K.accOk S a = true) {i : Nat} (hi : i < 8 / a.n) :
    a.n ≠ 0 ∧ ∃ p, lanePoly S.x a.d a.n i = some p ∧ ∀ r, a.rng = some r → within K.R p r.1 r.2 = true := by
  unfold accOk at h
  rw [Bool.and_eq_true] at h
  refine ⟨of_decide_eq_true h.1, ?_⟩
  have h2 := List.all_eq_true.mp h.2 i (List.mem_range.2 hi)
  cases hl : lanePoly S.x a.d a.n i with
  | none => rw [hl] at h2; cases h2
  | some p =>
    rw [hl] at h2
    refine ⟨p, rfl, fun r hr => ?_⟩
    rw [hr] at h2
    exact h2

structure Moved (K : Kern) (S : SSt) (c : Nat) : Prop where
  lp : S.lp = K.T.lp + c * K.gl
  rp : S.rp = K.T.rp + c * K.gr
  keep : ∀ d ∈ K.keep, (K.acc? d).isNone ∧ S.x d = (K.T.x d).map (SV.mapMono (Mono.up (c * K.gl) (c * K.gr)))
  accs : ∀ a ∈ K.accs, K.accOk S a = true

theorem moved_iff {S : SSt} {c : Nat} (h : K.moved S c = true) : Moved K S c := by
  unfold moved at h
  simp only [Bool.and_eq_true, decide_eq_true_eq, List.all_eq_true] at h
  exact ⟨h.1.1.1, h.1.1.2, h.1.2, h.2⟩

/-- Ranges hold again. -/
theorem next_in {E : Env} (hE : E.In K.R) {S : SSt} {c : Nat} (hM : Moved K S c)
    (hz : ∀ d r, K.R.v d = some r → r.1 ≤ 0 ∧ 0 ≤ r.2) : (E.next K S.x c).In K.R := by
  refine ⟨fun i => hE.l _, fun i => hE.r _, fun d i r hr => ?_⟩
  show r.1 ≤ lanesOf K E S.x d i ∧ lanesOf K E S.x d i ≤ r.2
  have hr' : (K.acc? d).bind (·.rng) = some r := hr
  unfold lanesOf
  cases ha : K.acc? d with
  | none => rw [ha] at hr'; cases hr'
  | some a =>
    rw [ha] at hr'
    obtain ⟨hm, hd⟩ := acc?_mem ha
    dsimp only
    cases hl : lanePoly S.x d a.n i with
    | none => exact hz d r hr
    | some p =>
      dsimp only
      by_cases hi : i < 8 / a.n
      · rw [if_pos hi]
        obtain ⟨_, p', hp', hw⟩ := accOk_lane (hM.accs a hm) hi
        rw [hd, hl] at hp'
        cases hp'
        exact within_sound hE (hw r hr')
      · rw [if_neg hi]; exact hz d r hr

theorem mapMono_noV_lane {E : Env} {S : SSt} {c : Nat} {v : DReg} {sv : SV}
    (hv : ∀ p ∈ sv.lanes, ∀ m ∈ p, m.noV = true)
    (h : SVSat E v (sv.mapMono (Mono.up (c * K.gl) (c * K.gr)))) : SVSat (E.next K S.x c) v sv := by
  refine ⟨h.zero, fun h0 i p hp => ?_⟩
  have := h.lane h0 i (p.map (Mono.up (c * K.gl) (c * K.gr))) (by
    show (sv.lanes.map _)[i]? = _
    rw [List.getElem?_map, hp]; rfl)
  rw [eval_up (hv p (List.mem_of_getElem? hp))]
  exact this

/-- The registers at the head of the loop that are no accumulators hold packed data only. -/
def keepOk (K : Kern) : Bool :=
  K.keep.all (fun d => match K.T.x d with
    | none => true
    | some sv => sv.lanes.all (fun p => p.all Mono.noV))

/-- After a step, the state is the one at the head of the loop again. -/
theorem agrees_next {E : Env} {m : Mem} {bl br : Nat} {k0 : Bool} {s : St} {S : SSt} {c : Nat}
    (h : Agrees m E bl br k0 s S) (hM : Moved K S c) (hk : K.keepOk = true)
    (hbl : bl + c * K.gl ≤ m.lhs.size) (hbr : br + c * K.gr ≤ m.rhs.size) :
    Agrees m (E.next K S.x c) (bl + c * K.gl) (br + c * K.gr) s.ok s K.T := by
  refine ⟨fun d sv hd => ?_, by rw [h.lp, hM.lp]; omega, by rw [h.rp, hM.rp]; omega, ?_⟩
  · have hd' := hd
    unfold T at hd
    dsimp only at hd
    cases ha : K.acc? d with
    | some a =>
      rw [ha] at hd
      cases hd
      obtain ⟨hm, hda⟩ := acc?_mem ha
      refine ⟨fun h0 => ?_, fun h0 i p hp => ?_⟩
      · have h0' : a.n = 0 := h0
        have hao := hM.accs a hm
        unfold accOk at hao
        rw [Bool.and_eq_true] at hao
        exact absurd h0' (of_decide_eq_true hao.1)
      · have hp' : ((List.range (8 / a.n)).map (fun i => ([Mono.v d i] : Poly)))[i]? = some p := hp
        rw [List.getElem?_map] at hp'
        cases hr : (List.range (8 / a.n))[i]? with
        | none => rw [hr] at hp'; cases hp'
        | some j =>
          have hi : i < 8 / a.n := by
            by_contra hc
            rw [List.getElem?_eq_none (by simp; omega)] at hr
            cases hr
          rw [hr] at hp'
          rw [List.getElem?_range hi] at hr
          cases hr; cases hp'
          obtain ⟨_, p', hp2, _⟩ := accOk_lane (hM.accs a hm) hi
          rw [hda] at hp2
          have h1 := lanePoly_sound h.x hp2
          have e : eval (E.next K S.x c) [Mono.v d i] = eval E p' := by
            show lanesOf K E S.x d i + 0 = _
            unfold lanesOf
            rw [ha]; dsimp only; rw [hp2]; dsimp only; rw [if_pos hi, Int.add_zero]
          rw [e]
          exact h1
    | none =>
      rw [ha] at hd
      dsimp only at hd
      by_cases hkd : K.keep.contains d = true
      · have hkm : d ∈ K.keep := by simpa using hkd
        have hS := (hM.keep d hkm).2
        rw [hd'] at hS
        have hsat := h.x d _ hS
        refine mapMono_noV_lane ?_ hsat
        have := List.all_eq_true.mp hk d hkm
        rw [hd'] at this
        intro p hp m' hm'
        exact List.all_eq_true.mp (List.all_eq_true.mp this p hp) m' hm'
      · rw [if_neg hkd] at hd; cases hd
  · show s.ok = true ↔ s.ok = true ∧ _ + 0 ≤ _ ∧ _ + 0 ≤ _
    exact ⟨fun h => ⟨h, by omega, by omega⟩, fun h => h.1⟩

/-- What will be stored has grown. -/
theorem grown_sound {E : Env} {S : SSt} {c lo k : Nat}
    {f before : Poly} (h : K.grown S c lo k f before = true) :
    eval (E.next K S.x c) f = eval E before + eval E (K.prods (k % K.F.kRows) (k / K.F.kRows) lo (K.cl + c)) := by
  unfold grown at h
  cases hq : substV K S.x (f.filter (fun m => !m.noV)) with
  | none => rw [hq] at h; cases h
  | some q =>
    rw [hq] at h
    dsimp only at h
    have hp := eval_perm E (List.isPerm_iff.mp h)
    rw [eval_append, eval_append] at hp
    rw [eval_filter, eval_substV hq, eval_up (fun m hm => (List.mem_filter.mp hm).2), hp]

/-- The sum that entry `(r, c)` gets from `u` cells. -/
def cellsSum (K : Kern) (m : Mem) (r c u : Nat) : Int :=
  sumTo (K.F.kDepth * u) (fun d => runCoeff K.F.lhs m.lhs 0 r d * runCoeff K.F.rhs m.rhs 0 c d)

theorem cellsSum_prods (hkd : 0 < K.F.kDepth) (hcd : K.F.rhs.cd = K.F.lhs.cd) {E : Env} {m : Mem} {u : Nat}
    (hO : E.Of K.F m (u * K.gl) (u * K.gr)) (r c lo hi : Nat) (hlh : lo ≤ hi) :
    K.cellsSum m r c (u + hi) = K.cellsSum m r c (u + lo) + eval E (K.prods r c lo hi) := by
  rw [eval_prods hO]
  unfold cellsSum
  have e : K.F.kDepth * (u + hi) = K.F.kDepth * (u + lo) + (K.F.kDepth * hi - K.F.kDepth * lo) := by
    have := Nat.mul_le_mul_left K.F.kDepth hlh
    rw [Nat.mul_add, Nat.mul_add]; omega
  rw [e, sumTo_split]
  congr 1
  apply sumTo_congr
  intro d _
  have h1 := runCoeff_shift K.F.lhs hkd m.lhs 0 r u (K.F.kDepth * lo + d)
  have h2 := runCoeff_shift K.F.rhs (by rw [hcd]; exact hkd) m.rhs 0 c u (K.F.kDepth * lo + d)
  have e2 : K.F.rhs.cd * u = K.F.kDepth * u := by rw [hcd]; rfl
  have e1 : K.F.lhs.cd * u = K.F.kDepth * u := rfl
  rw [Nat.zero_add, e1, ← Nat.add_assoc] at h1
  rw [Nat.zero_add, e2, ← Nat.add_assoc] at h2
  show _ = runCoeff K.F.lhs m.lhs (u * K.gl) r _ * runCoeff K.F.rhs m.rhs (u * K.gr) c _
  unfold gl gr
  rw [h1, h2, Nat.mul_add]

/-- All that is checked. -/
structure Good (K : Kern) : Prop where
  check : K.check = true
  keep : K.keepOk = true
  zero : ∀ d r, K.R.v d = some r → r.1 ≤ 0 ∧ 0 ≤ r.2

structure Parts (K : Kern) : Prop where
  kd : 0 < K.F.kDepth
  cd : K.F.rhs.cd = K.F.lhs.cd
  preStep : K.preStep = (K.c0 + K.cl) * K.F.kDepth
  step : K.step = K.F.kDepth
  init : K.checkInit = true
  body : K.checkBody K.body K.step = true
  last : K.checkLast = true
  wide : ∀ w, K.wide = some w → K.checkBody w.1 w.2 = true

theorem check_parts (h : K.check = true) : Parts K := by
  unfold check at h
  simp only [Bool.and_eq_true, decide_eq_true_eq] at h
  obtain ⟨⟨⟨⟨⟨⟨⟨h1, h2⟩, h3⟩, h4⟩, h5⟩, h6⟩, h7⟩, h8⟩ := h
  refine ⟨h1, h2, h3, h4, h5, h6, h7, fun w hw => ?_⟩
  rw [hw] at h8
  exact h8

structure StepOk (K : Kern) (S : SSt) (c lo : Nat) (before : Nat → Poly → Poly) : Prop where
  moved : Moved K S c
  hl : S.hl ≤ (c + K.cl) * K.gl + K.padL
  hr : S.hr ≤ (c + K.cl) * K.gr + K.padR
  grown : ∀ k, k < K.F.kRows * K.F.kCols → ∃ f, K.fin k = some f ∧ K.grown S c lo k f (before k f) = true

theorem checkStep_iff {S : SSt} {c lo : Nat} {before : Nat → Poly → Poly}
    (h : K.checkStep S c lo before = true) : StepOk K S c lo before := by
  unfold checkStep at h
  simp only [Bool.and_eq_true, decide_eq_true_eq] at h
  refine ⟨moved_iff h.1.1.1, h.1.1.2, h.1.2, fun k hk => ?_⟩
  have := List.all_eq_true.mp h.2 k (List.mem_range.2 hk)
  cases hf : K.fin k with
  | none => rw [hf] at this; cases this
  | some f => rw [hf] at this; exact ⟨f, rfl, this⟩

/-- The memory has room for `t` cells of depth and what is read after them, and its operands are in the
ranges. -/
structure Fits (K : Kern) (m : Mem) (t : Nat) : Prop where
  lhs : t * K.gl + K.padL ≤ m.lhs.size
  rhs : t * K.gr + K.padR ≤ m.rhs.size

structure Ranges (K : Kern) (m : Mem) : Prop where
  l : ∀ i, K.lr.1 ≤ K.F.lhs.kval (m.lhs.get i) ∧ K.F.lhs.kval (m.lhs.get i) ≤ K.lr.2
  r : ∀ i, K.rr.1 ≤ K.F.rhs.kval (m.rhs.get i) ∧ K.F.rhs.kval (m.rhs.get i) ≤ K.rr.2

/-- At the head of the loop, when `u` cells are behind. -/
structure Head (K : Kern) (m : Mem) (u : Nat) (s : St) : Prop where
  env : ∃ E : Env, E.In K.R ∧ E.Of K.F m (u * K.gl) (u * K.gr) ∧
    Agrees m E (u * K.gl) (u * K.gr) true s K.T ∧
    ∀ k f, k < K.F.kRows * K.F.kCols → K.fin k = some f →
      eval E f = ((m.acc k).toNat : Int) + K.cellsSum m (k % K.F.kRows) (k / K.F.kRows) (u + K.cl)

theorem ok_of {E : Env} {m : Mem} {bl br : Nat} {s : St} {S : SSt} (h : Agrees m E bl br true s S)
    (hl : bl + S.hl ≤ m.lhs.size) (hr : br + S.hr ≤ m.rhs.size) : s.ok = true := h.ok.2 ⟨rfl, hl, hr⟩

theorem head_init (hG : Good K) {m : Mem} (hR : Ranges K m) (hF : Fits K m (K.c0 + K.cl)) (x : Nat → DReg) :
    Head K m K.c0 (exec m K.pre ⟨x, 0, 0, true⟩) := by
  have hP := check_parts hG.check
  have hS := checkStep_iff hP.init
  let E : Env := ⟨fun i => K.F.lhs.kval (m.lhs.get i), fun i => K.F.rhs.kval (m.rhs.get i), fun _ _ => 0,
    fun k => ((m.acc k).toNat : Int)⟩
  have hE : E.In K.R := ⟨hR.l, hR.r, fun d i r hr => hG.zero d r hr⟩
  have hO : E.Of K.F m 0 0 := ⟨fun i => by rw [Nat.zero_add], fun i => by rw [Nat.zero_add], fun _ => rfl⟩
  have hA0 : Agrees m E 0 0 true ⟨x, 0, 0, true⟩ init :=
    ⟨fun d sv h => (by cases h), rfl, rfl, ⟨fun _ => ⟨rfl, Nat.zero_le _, Nat.zero_le _⟩, fun _ => rfl⟩⟩
  have hA := sym_sound hE hO K.pre hA0
  have h1 := hF.lhs
  have h2 := hF.rhs
  have e1 : K.c0 * K.gl ≤ (K.c0 + K.cl) * K.gl := Nat.mul_le_mul_right _ (by omega)
  have e2 : K.c0 * K.gr ≤ (K.c0 + K.cl) * K.gr := Nat.mul_le_mul_right _ (by omega)
  have hok := ok_of hA (by have := hS.hl; unfold S0 at this; omega) (by have := hS.hr; unfold S0 at this; omega)
  refine ⟨E.next K K.S0.x K.c0, next_in hE hS.moved hG.zero, ?_, ?_, ?_⟩
  · have := Env.next_of hO K.S0.x K.c0
    rw [Nat.zero_add, Nat.zero_add] at this
    exact this
  · have := agrees_next hA hS.moved hG.keep (by omega) (by omega)
    rw [Nat.zero_add, Nat.zero_add, hok] at this
    exact this
  · intro k f hk hf
    obtain ⟨f', hf', hg⟩ := hS.grown k hk
    rw [hf] at hf'
    cases hf'
    rw [grown_sound hg]
    have hO' : E.Of K.F m (0 * K.gl) (0 * K.gr) := by rw [Nat.zero_mul, Nat.zero_mul]; exact hO
    have := cellsSum_prods hP.kd hP.cd hO' (k % K.F.kRows) (k / K.F.kRows) 0 (K.cl + K.c0) (Nat.zero_le _)
    rw [Nat.zero_add, Nat.add_comm K.cl K.c0] at this
    rw [this, Nat.add_comm K.cl K.c0]
    have hz : K.cellsSum m (k % K.F.kRows) (k / K.F.kRows) (0 + 0) = 0 := rfl
    rw [hz]
    have ha : E.a k = ((m.acc k).toNat : Int) := rfl
    simp only [eval, Mono.eval]
    rw [ha]
    ring

theorem head_step (hG : Good K) {m : Mem} {b : List Ins} {step : Nat} (hb : K.checkBody b step = true) {u : Nat}
    {s : St} (hH : Head K m u s) (hF : Fits K m (u + step / K.F.kDepth + K.cl)) :
    Head K m (u + step / K.F.kDepth) (exec m b s) := by
  have hP := check_parts hG.check
  unfold checkBody at hb
  simp only [Bool.and_eq_true, decide_eq_true_eq] at hb
  have hS := checkStep_iff hb.2
  generalize hc : step / K.F.kDepth = c at *
  obtain ⟨E, hE, hO, hA, hv⟩ := hH.env
  have hA' := sym_sound hE hO b hA
  have h1 := hF.lhs
  have h2 := hF.rhs
  have e1 : (u + c + K.cl) * K.gl = u * K.gl + (c + K.cl) * K.gl := by ring
  have e2 : (u + c + K.cl) * K.gr = u * K.gr + (c + K.cl) * K.gr := by ring
  have e3 : c * K.gl ≤ (c + K.cl) * K.gl := Nat.mul_le_mul_right _ (by omega)
  have e4 : c * K.gr ≤ (c + K.cl) * K.gr := Nat.mul_le_mul_right _ (by omega)
  have hok := ok_of hA' (by have := hS.hl; omega) (by have := hS.hr; omega)
  refine ⟨E.next K (sym K.R b K.T).x c, next_in hE hS.moved hG.zero, ?_, ?_, ?_⟩
  · have := Env.next_of hO (sym K.R b K.T).x c
    rw [← Nat.add_mul, ← Nat.add_mul] at this
    exact this
  · have := agrees_next hA' hS.moved hG.keep (by omega) (by omega)
    rw [← Nat.add_mul, ← Nat.add_mul, hok] at this
    exact this
  · intro k f hk hf
    obtain ⟨f', hf', hg⟩ := hS.grown k hk
    rw [hf] at hf'
    cases hf'
    rw [grown_sound hg, hv k f hk hf]
    have := cellsSum_prods hP.kd hP.cd hO (k % K.F.kRows) (k / K.F.kRows) K.cl (K.cl + c) (by omega)
    rw [show u + c + K.cl = u + (K.cl + c) by omega, this]
    ring

theorem Fits.mono {m : Mem} {t t' : Nat} (h : Fits K m t) (ht : t' ≤ t) : Fits K m t' := by
  have h1 := h.lhs
  have h2 := h.rhs
  have e1 : t' * K.gl ≤ t * K.gl := Nat.mul_le_mul_right _ ht
  have e2 : t' * K.gr ≤ t * K.gr := Nat.mul_le_mul_right _ ht
  exact ⟨by omega, by omega⟩

theorem head_loopNZ (hG : Good K) {m : Mem} : ∀ (n u : Nat) (s : St), Head K m u s → Fits K m (u + n + K.cl) →
    Head K m (u + n) (loopNZ m K.step K.body (n * K.F.kDepth) s) := by
  have hP := check_parts hG.check
  intro n
  induction n with
  | zero => intro u s h _; rw [Nat.zero_mul, loopNZ, if_pos rfl]; exact h
  | succ n ih =>
    intro u s h hF
    have e : (n + 1) * K.F.kDepth = n * K.F.kDepth + K.F.kDepth := by ring
    have hkd := hP.kd
    have hst := hP.step
    have hs : K.step / K.F.kDepth = 1 := by rw [hst, Nat.div_self hkd]
    have e2 : (n + 1) * K.F.kDepth - K.step = n * K.F.kDepth := by rw [hst, e]; omega
    rw [loopNZ, if_neg (by omega), if_pos (by omega), e2]
    have hs1 := head_step hG hP.body h (hF.mono (by omega))
    rw [hs] at hs1
    rw [show u + (n + 1) = u + 1 + n by omega]
    exact ih _ _ hs1 (hF.mono (by omega))

theorem head_loopGE (hG : Good K) {m : Mem} {b : List Ins} {step : Nat} (hb : K.checkBody b step = true) :
    ∀ (n u : Nat) (s : St), Head K m u s → Fits K m (u + n + K.cl) →
    ∃ n' u' s', loopGE m step b (n * K.F.kDepth) s = (n' * K.F.kDepth, s') ∧ u' + n' = u + n ∧
      n' * K.F.kDepth < step ∧ Head K m u' s' := by
  have hP := check_parts hG.check
  have hb' := hb
  unfold checkBody at hb'
  simp only [Bool.and_eq_true, decide_eq_true_eq] at hb'
  obtain ⟨⟨hs0, hsm⟩, _⟩ := hb'
  intro n
  induction n using Nat.strong_induction_on with
  | _ n ih =>
    intro u s h hF
    by_cases hle : step ≤ n * K.F.kDepth
    · rw [loopGE, if_pos ⟨hs0, hle⟩]
      have hd : step / K.F.kDepth * K.F.kDepth = step := Nat.div_mul_cancel (Nat.dvd_of_mod_eq_zero hsm)
      generalize hc : step / K.F.kDepth = c at *
      have hkd := hP.kd
      have hc0 : 0 < c := by
        rcases Nat.eq_zero_or_pos c with h0 | h0
        · rw [h0, Nat.zero_mul] at hd; omega
        · exact h0
      have hcn : c ≤ n := by
        by_contra hcc
        have : (n + 1) * K.F.kDepth ≤ c * K.F.kDepth := Nat.mul_le_mul_right _ (by omega)
        rw [Nat.add_mul, hd] at this
        omega
      have e : n * K.F.kDepth - step = (n - c) * K.F.kDepth := by rw [Nat.sub_mul, hd]
      have hs1 := head_step hG hb h (hF.mono (by rw [hc]; omega))
      rw [hc] at hs1
      rw [e]
      obtain ⟨n', u', s', h1, h2, h3, h4⟩ := ih (n - c) (by omega) (u + c) _ hs1 (hF.mono (by omega))
      exact ⟨n', u', s', h1, by omega, h3, h4⟩
    · rw [loopGE, if_neg (by omega)]
      exact ⟨n, u, s, rfl, rfl, by omega, h⟩

/-- **The kernels that pass the check are right**: after a run on `t` cells of depth all reads were within the
buffers and each word stored is the accumulator plus the sum of products. -/
theorem run_ok (hG : Good K) {m : Mem} {t : Nat} (ht : K.c0 + K.cl ≤ t) (hR : Ranges K m) (hF : Fits K m t)
    (x : Nat → DReg) :
    (K.run m (t * K.F.kDepth) ⟨x, 0, 0, true⟩).ok = true ∧
    ∀ k, k < K.F.kRows * K.F.kCols → K.word (K.run m (t * K.F.kDepth) ⟨x, 0, 0, true⟩) k =
      m.acc k + BitVec.ofInt 32 (K.cellsSum m (k % K.F.kRows) (k / K.F.kRows) t) := by
  have hP := check_parts hG.check
  have hle : K.preStep ≤ t * K.F.kDepth := by rw [hP.preStep]; exact Nat.mul_le_mul_right _ ht
  have hsub : t * K.F.kDepth - K.preStep = (t - (K.c0 + K.cl)) * K.F.kDepth := by rw [hP.preStep, Nat.sub_mul]
  have h0 := head_init hG hR (hF.mono ht) x
  generalize hn : t - (K.c0 + K.cl) = n at *
  -- the first loop
  have hw : ∃ n' u', u' + n' = K.c0 + n ∧ (∃ s', K.first m (n * K.F.kDepth) (exec m K.pre ⟨x, 0, 0, true⟩) = (n' * K.F.kDepth, s') ∧
      Head K m u' s') := by
    unfold first
    cases hw : K.wide with
    | none => exact ⟨n, K.c0, rfl, _, rfl, h0⟩
    | some w =>
      obtain ⟨n', u', s', h1, h2, _, h4⟩ := head_loopGE hG (hP.wide w hw) n K.c0 _ h0 (hF.mono (by omega))
      exact ⟨n', u', h2, s', h1, h4⟩
  obtain ⟨n', u', hu, s', hs', hH'⟩ := hw
  -- the second loop
  have h2 : Head K m (t - K.cl) (if K.ge then (loopGE m K.step K.body (n' * K.F.kDepth) s').2
      else loopNZ m K.step K.body (n' * K.F.kDepth) s') := by
    by_cases hge : K.ge = true
    · rw [if_pos hge]
      obtain ⟨n2, u2, s2, h1, h2, h3, h4⟩ := head_loopGE hG hP.body n' u' s' hH' (hF.mono (by omega))
      rw [h1]
      have : n2 = 0 := by
        rcases Nat.eq_zero_or_pos n2 with h | h
        · exact h
        · have : 1 * K.F.kDepth ≤ n2 * K.F.kDepth := Nat.mul_le_mul_right _ h
          rw [hP.step] at h3
          omega
      rw [show t - K.cl = u2 by omega]
      exact h4
    · rw [if_neg hge]
      have := head_loopNZ hG n' u' s' hH' (hF.mono (by omega))
      rw [show t - K.cl = u' + n' by omega]
      exact this
  have hrun : K.run m (t * K.F.kDepth) ⟨x, 0, 0, true⟩ = exec m K.last
      (if K.ge then (loopGE m K.step K.body (n' * K.F.kDepth) s').2
        else loopNZ m K.step K.body (n' * K.F.kDepth) s') := by
    unfold run
    rw [if_neg (by omega), hsub]
    dsimp only
    rw [hs']
  rw [hrun]
  generalize hsl : (if K.ge then (loopGE m K.step K.body (n' * K.F.kDepth) s').2
        else loopNZ m K.step K.body (n' * K.F.kDepth) s') = sl at *
  obtain ⟨E, hE, hO, hA, hv⟩ := h2.env
  have hA' := sym_sound hE hO K.last hA
  have hL := hP.last
  unfold checkLast at hL
  simp only [Bool.and_eq_true, decide_eq_true_eq] at hL
  have f1 := hF.lhs
  have f2 := hF.rhs
  have e1 : (t - K.cl) * K.gl + K.cl * K.gl = t * K.gl := by rw [← Nat.add_mul]; congr 1; omega
  have e2 : (t - K.cl) * K.gr + K.cl * K.gr = t * K.gr := by rw [← Nat.add_mul]; congr 1; omega
  refine ⟨ok_of hA' (by omega) (by omega), fun k hk => ?_⟩
  obtain ⟨f, hf, _⟩ := (checkStep_iff hP.init).grown k hk
  have h3 := hv k f hk hf
  rw [show t - K.cl + K.cl = t by omega] at h3
  unfold fin at hf
  have h4 := lanePoly_sound hA'.x hf
  rw [h3] at h4
  unfold word
  dsimp only
  generalize lane 4 ((exec m K.last sl).x (K.outs.getD k (0, 0)).1) (K.outs.getD k (0, 0)).2 = w at *
  generalize K.cellsSum m (k % K.F.kRows) (k / K.F.kRows) t = y at *
  apply BitVec.eq_of_toNat_eq
  have h5 : (w : Int) % 4294967296 = (((m.acc k).toNat : Int) + y) % 4294967296 := h4
  rw [BitVec.toNat_ofNat, BitVec.toNat_add, BitVec.toNat_ofInt]
  omega

/-- The ranges of accumulators in registers contain 0. -/
def zeroOk (K : Kern) : Bool := K.accs.all (fun a => match a.rng with
  | none => true
  | some r => decide (r.1 ≤ 0) && decide (0 ≤ r.2))

theorem good {K : Kern} (h1 : K.check = true) (h2 : K.keepOk = true) (h3 : K.zeroOk = true) : Good K := by
  refine ⟨h1, h2, fun d r hr => ?_⟩
  have hr' : (K.acc? d).bind (·.rng) = some r := hr
  cases ha : K.acc? d with
  | none => rw [ha] at hr'; cases hr'
  | some a =>
    rw [ha] at hr'
    have hr2 : a.rng = some r := hr'
    have := List.all_eq_true.mp h3 a (acc?_mem ha).1
    rw [hr2] at this
    simpa using this

end Kern
end Gemmlowp.Bench
