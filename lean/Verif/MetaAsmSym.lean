import Verif.MetaAsm
/-!
# Running the generated code on symbolic register contents

`exec` on terms (`sym`) computes what a straight-line part does to the registers, as data; `exec_sym` says
that this is right.
-/
namespace Gemmlowp.MetaAsm

open Vec (VReg ofH ofS ofLanes)

/-- The contents of a general register in terms of those at the start: `lin r k n` is `r + k * stride + n`. -/
inductive XE
  | lin (r : X) (k : Nat) (n : Int)
  | sum (a b : XE)
  deriving DecidableEq, Repr

def XE.addImm : XE → Int → XE
  | .lin r k n, m => .lin r k (n + m)
  | .sum a b, m => .sum a (b.addImm m)

def XE.add : XE → XE → XE
  | .lin r k n, .lin .stride k' n' => .lin r (k + k' + 1) (n + n')
  | a, b => .sum a b

/-- The contents of a vector register. -/
inductive VE
  | reg (r : Nat)
  | zero
  | load (w : Nat) (a : XE)
  | loadLane (sz lane : Nat) (a : XE) (v : VE)
  | ins (a : XE) (v : VE)
  | dupW (a : XE)
  | dupB (a : XE)
  | dupLane (lane : Nat) (v : VE)
  | mulLane (lane : Nat) (a b : VE)
  | op1 (o : Op1) (a : VE)
  | op2 (o : Op2) (a b : VE)
  deriving DecidableEq, Repr

/-- Contents that are 0 from byte 8 on: a register of 64 bits. -/
def VE.is64 : VE → Bool
  | .zero => true
  | .load w _ => decide (w ≤ 8)
  | .loadLane sz l _ v => decide (sz * (l + 1) ≤ 8) && v.is64
  | .op1 .lo _ | .op1 .hi _ | .op1 .sqxtn _ | .op1 .sqxtun _ => true
  | .op2 .trn1b _ _ | .op2 .trn2b _ _ | .op2 .trn1h _ _ | .op2 .trn2h _ _ | .op2 .trn1s _ _ | .op2 .trn2s _ _
  | .op2 .uzp1b _ _ | .op2 .uzp2b _ _ | .op2 .vpadd _ _ => true
  | _ => false

/-- `lo`, simplified. -/
def VE.lo : VE → VE
  | .op2 .join a _ => if a.is64 then a else .op1 .lo a
  | e => if e.is64 then e else .op1 .lo e

/-- `hi`, simplified. -/
def VE.hi : VE → VE
  | .op2 .join _ b => if b.is64 then b else .op1 .lo b
  | .zero => .zero
  | e => .op1 .hi e

def VE.mk1 : Op1 → VE → VE
  | .lo, e => e.lo
  | .hi, e => e.hi
  | o, e => .op1 o e

def sym : Dom VE XE where
  zero := .zero
  load := .load
  loadLane := .loadLane
  ins := .ins
  dupW := .dupW
  dupB := .dupB
  dupLane := .dupLane
  mulLane := .mulLane
  op1 := VE.mk1
  op2 := .op2
  addImm := XE.addImm
  add := XE.add

def XE.eval (x : X → Int) : XE → Int
  | .lin r k n => x r + k * x .stride + n
  | .sum a b => a.eval x + b.eval x

theorem XE.eval_addImm (x : X → Int) (a : XE) (m : Int) : (a.addImm m).eval x = a.eval x + m := by
  induction a with
  | lin r k n => simp only [XE.addImm, XE.eval]; omega
  | sum a b _ ihb => simp only [XE.addImm, XE.eval, ihb]; omega

theorem XE.eval_add (x : X → Int) (a b : XE) : (a.add b).eval x = a.eval x + b.eval x := by
  unfold XE.add
  split
  · simp only [XE.eval]
    rw [show ((_ + _ + 1 : Nat) : Int) = _ + _ + 1 by push_cast; rfl, Int.add_mul, Int.add_mul]
    omega
  · rfl

section
variable (f : FloatOps) (mem : Int → BitVec 8) (s0 : St VReg Int)

def VE.eval : VE → VReg
  | .reg r => s0.v r
  | .zero => (machine f mem).zero
  | .load w a => (machine f mem).load w (a.eval s0.x)
  | .loadLane sz lane a v => (machine f mem).loadLane sz lane (a.eval s0.x) v.eval
  | .ins a v => (machine f mem).ins (a.eval s0.x) v.eval
  | .dupW a => (machine f mem).dupW (a.eval s0.x)
  | .dupB a => (machine f mem).dupB (a.eval s0.x)
  | .dupLane lane v => (machine f mem).dupLane lane v.eval
  | .mulLane lane a b => (machine f mem).mulLane lane a.eval b.eval
  | .op1 o a => (machine f mem).op1 o a.eval
  | .op2 o a b => (machine f mem).op2 o a.eval b.eval

theorem VE.eval_is64 (e : VE) (h : e.is64 = true) {j : Nat} (hj : 8 ≤ j) : e.eval f mem s0 j = 0 := by
  induction e with
  | zero => rfl
  | load w a =>
    simp only [VE.is64, decide_eq_true_eq] at h
    show (if j < w then _ else _) = _
    rw [if_neg (by omega)]
  | loadLane sz l a v ih =>
    simp only [VE.is64, Bool.and_eq_true, decide_eq_true_eq] at h
    show (if sz * l ≤ j ∧ j < sz * (l + 1) then _ else _) = _
    rw [if_neg (by omega)]
    exact ih h.2
  | op1 o a _ =>
    cases o <;> simp only [VE.is64, Bool.false_eq_true] at h
    · simp only [VE.eval, machine, op1V, ofH, ofLanes]
      rw [if_neg (by omega)]; simp
    · show (if j < 8 then _ else _) = _
      rw [if_neg (by omega)]
    · show (if j < 8 then _ else _) = _
      rw [if_neg (by omega)]
    · show (if j < 8 then _ else _) = _
      rw [if_neg (by omega)]
  | op2 o a b _ _ =>
    cases o <;> simp only [VE.is64, Bool.false_eq_true] at h
    all_goals
      first
      | (show (if 8 ≤ j then _ else _) = _; rw [if_pos hj])
      | (simp only [VE.eval, machine, op2V, ofS, ofLanes]; rw [if_neg (by omega), if_neg (by omega)]; simp)
  | _ => simp [VE.is64] at h

theorem VE.eval_lo' (e : VE) : (if e.is64 then e else .op1 .lo e).eval f mem s0 = op1V f .lo (e.eval f mem s0) := by
  split
  · rename_i h
    funext j
    simp only [op1V]
    split
    · rfl
    · exact VE.eval_is64 f mem s0 e h (by omega)
  · rfl

theorem VE.eval_lo (e : VE) : e.lo.eval f mem s0 = op1V f .lo (e.eval f mem s0) := by
  unfold VE.lo
  split
  · rw [VE.eval_lo']
    funext j
    simp only [VE.eval, machine, op1V, op2V]
    split <;> rfl
  · rw [VE.eval_lo']

theorem VE.eval_hi (e : VE) : e.hi.eval f mem s0 = op1V f .hi (e.eval f mem s0) := by
  unfold VE.hi
  split
  · rw [VE.eval_lo']
    funext j
    simp only [VE.eval, machine, op1V, op2V]
    split
    · rw [if_neg (by omega), if_pos (by omega)]; congr 1; omega
    · rfl
  · funext j
    simp only [VE.eval, machine, op1V, ite_self]
  · rfl

theorem VE.eval_mk1 (o : Op1) (e : VE) : (VE.mk1 o e).eval f mem s0 = op1V f o (e.eval f mem s0) := by
  unfold VE.mk1
  split
  · exact VE.eval_lo f mem s0 e
  · exact VE.eval_hi f mem s0 e
  · rfl

def evalWr (w : Write VE XE) : Write VReg Int := ⟨w.addr.eval s0.x, w.size, w.lane, w.v.eval f mem s0⟩

/-- The state that a symbolic one stands for. -/
def evalSt (s : St VE XE) : St VReg Int where
  v := fun r => (s.v r).eval f mem s0
  x := fun r => (s.x r).eval s0.x
  rd := s.rd.map (fun r => (r.1.eval s0.x, r.2)) ++ s0.rd
  wr := s.wr.map (evalWr f mem s0) ++ s0.wr
  al := s.al.map (fun r => (r.1.eval s0.x, r.2)) ++ s0.al

/-- The start. -/
def symInit : St VE XE := ⟨.reg, fun r => .lin r 0 0, [], [], []⟩

theorem evalSt_ext {s t : St VReg Int} (h1 : ∀ r, s.v r = t.v r) (h2 : ∀ r, s.x r = t.x r)
    (h4 : s.rd = t.rd) (h5 : s.wr = t.wr) (h6 : s.al = t.al) : s = t := by
  obtain ⟨v, x, rd, wr, al⟩ := s
  obtain ⟨v', x', rd', wr', al'⟩ := t
  have e1 : v = v' := funext h1
  have e2 : x = x' := funext h2
  simp only at h4 h5 h6
  subst e1 e2 h4 h5 h6
  rfl

theorem eval_setV (s : St VE XE) (d : Nat) (e : VE) :
    evalSt f mem s0 (s.setV d e) = (evalSt f mem s0 s).setV d (e.eval f mem s0) := by
  apply evalSt_ext <;> try (intros; rfl)
  intro r
  show VE.eval f mem s0 (if r = d then e else s.v r) = if r = d then _ else _
  split <;> rfl

theorem eval_setX (s : St VE XE) (d : X) (e : XE) :
    evalSt f mem s0 (s.setX d e) = (evalSt f mem s0 s).setX d (e.eval s0.x) := by
  apply evalSt_ext <;> try (intros; rfl)
  intro r
  show XE.eval s0.x (if r = d then e else s.x r) = if r = d then _ else _
  split <;> rfl

theorem eval_advance (s : St VE XE) (p : X) (adv : Adv) :
    evalSt f mem s0 (s.advance sym p adv) = (evalSt f mem s0 s).advance (machine f mem) p adv := by
  cases adv with
  | imm n =>
    show evalSt f mem s0 (s.setX p ((s.x p).addImm n)) = _
    rw [eval_setX, XE.eval_addImm]; rfl
  | reg r =>
    show evalSt f mem s0 (s.setX p ((s.x p).add (s.x r))) = _
    rw [eval_setX, XE.eval_add]; rfl

theorem eval_loads (w : Nat) (p : X) : ∀ (ds : List Nat) (off : Nat) (s : St VE XE),
    evalSt f mem s0 (loads sym w p ds off s) = loads (machine f mem) w p ds off (evalSt f mem s0 s)
  | [], _, _ => rfl
  | d :: ds, off, s => by
    unfold loads
    dsimp only
    rw [eval_loads w p ds]
    congr 1
    have e : XE.eval s0.x (sym.addImm (s.x p) off) = (machine f mem).addImm ((evalSt f mem s0 s).x p) off :=
      XE.eval_addImm _ _ _
    apply evalSt_ext
    · intro r
      show VE.eval f mem s0 (if r = d then .load w (sym.addImm (s.x p) off) else s.v r) = if r = d then _ else _
      split
      · show (machine f mem).load w (XE.eval s0.x _) = _
        rw [e]
      · rfl
    · intro r; rfl
    · show (XE.eval s0.x _, w) :: _ = (_, w) :: _
      rw [e]; rfl
    · rfl
    · rfl

theorem eval_loadLanes (sz lane : Nat) (p : X) : ∀ (ds : List Nat) (off : Nat) (s : St VE XE),
    evalSt f mem s0 (loadLanes sym sz lane p ds off s) = loadLanes (machine f mem) sz lane p ds off (evalSt f mem s0 s)
  | [], _, _ => rfl
  | d :: ds, off, s => by
    unfold loadLanes
    dsimp only
    rw [eval_loadLanes sz lane p ds]
    congr 1
    have e : XE.eval s0.x (sym.addImm (s.x p) off) = (machine f mem).addImm ((evalSt f mem s0 s).x p) off :=
      XE.eval_addImm _ _ _
    apply evalSt_ext
    · intro r
      show VE.eval f mem s0 (if r = d then .loadLane sz lane (sym.addImm (s.x p) off) (s.v d) else s.v r)
        = if r = d then _ else _
      split
      · show (machine f mem).loadLane sz lane (XE.eval s0.x _) _ = _
        rw [e]; rfl
      · rfl
    · intro r; rfl
    · show (XE.eval s0.x _, sz) :: _ = (_, sz) :: _
      rw [e]; rfl
    · rfl
    · rfl

theorem eval_storeElems (sz : Nat) (p : X) (d off : Nat) : ∀ (n : Nat) (s : St VE XE),
    evalSt f mem s0 (storeElems sym sz p d off n s) = storeElems (machine f mem) sz p d off n (evalSt f mem s0 s)
  | 0, _ => rfl
  | n + 1, s => by
    unfold storeElems
    dsimp only
    rw [← eval_storeElems sz p d off n s]
    apply evalSt_ext <;> try (intros; rfl)
    show Write.mk (XE.eval s0.x (XE.addImm _ _)) sz n _ :: _ = Write.mk _ sz n _ :: _
    rw [XE.eval_addImm]; rfl

theorem eval_stores (sz n : Nat) (p : X) : ∀ (ds : List Nat) (off : Nat) (s : St VE XE),
    evalSt f mem s0 (stores sym sz n p ds off s) = stores (machine f mem) sz n p ds off (evalSt f mem s0 s)
  | [], _, _ => rfl
  | d :: ds, off, s => by
    unfold stores
    rw [eval_stores sz n p ds, eval_storeElems]

theorem eval_step (s : St VE XE) (i : Ins) :
    evalSt f mem s0 (step sym s i) = step (machine f mem) (evalSt f mem s0 s) i := by
  cases i with
  | ld1 w ds p adv => simp only [step, eval_advance, eval_loads]
  | ldLane sz lane ds p adv => simp only [step, eval_advance, eval_loadLanes]
  | st1 sz n ds p adv => simp only [step, eval_advance, eval_stores]
  | stLane sz lane d p adv => simp only [step, eval_advance]; rfl
  | subs r n => simp only [step, sym, eval_setX, XE.eval_addImm]; rfl
  | sub r n => simp only [step, sym, eval_setX, XE.eval_addImm]; rfl
  | addX d a b => simp only [step, sym, eval_setX, XE.eval_add]; rfl
  | ldr d a => simp only [step, eval_setX]; rfl
  | movX d a => simp only [step, eval_setX]; rfl
  | movi d => simp only [step, eval_setV]; rfl
  | mov d a => simp only [step, eval_setV]; rfl
  | ins d r => simp only [step, eval_setV]; rfl
  | dupW d r => simp only [step, eval_setV]; rfl
  | dupB d r => simp only [step, eval_setV]; rfl
  | dupLane d a lane => simp only [step, eval_setV]; rfl
  | mulLane d a b lane => simp only [step, eval_setV]; rfl
  | op1 o d a => simp only [step, eval_setV, sym, VE.eval_mk1]; rfl
  | op2 o d a b => simp only [step, eval_setV]; rfl
  | align p n => simp only [step]; rfl

theorem eval_exec (l : List Ins) : ∀ s : St VE XE,
    evalSt f mem s0 (exec sym l s) = exec (machine f mem) l (evalSt f mem s0 s) := by
  induction l with
  | nil => intro s; rfl
  | cons i l ih =>
    intro s
    show evalSt f mem s0 (exec sym l (step sym s i)) = exec (machine f mem) l (step (machine f mem) _ i)
    rw [ih, eval_step]

theorem evalSt_init : evalSt f mem s0 symInit = s0 := by
  apply evalSt_ext
  · intro r; rfl
  · intro r
    show s0.x r + (0 : Nat) * s0.x .stride + 0 = s0.x r
    simp
  · rfl
  · rfl
  · rfl

/-- What a straight-line part does. -/
theorem exec_sym (l : List Ins) : exec (machine f mem) l s0 = evalSt f mem s0 (exec sym l symInit) := by
  rw [eval_exec, evalSt_init]

end

end Gemmlowp.MetaAsm
