import Verif.Profiler
import Mathlib.Data.List.Nodup
import Mathlib.Data.List.Perm.Basic
import Mathlib.Algebra.BigOperators.Group.List.Basic

/-!
# Properties C48 and C57: the profiler
-/

namespace Gemmlowp

/-! ## Specification of the tree -/

/-- The rests of the stacks that start with the label `l`. -/
def under (l : Nat) (S : List (List Nat)) : List (List Nat) :=
  S.filterMap fun s => match s with
    | [] => none
    | a :: t => if a = l then some t else none

/-- `m` is the node that one reaches from `n` by the labels `p`. -/
inductive PNode.At : PNode → List Nat → PNode → Prop
  | here (n : PNode) : PNode.At n [] n
  | down {n c m : PNode} {l : Nat} {p : List Nat} : c ∈ n.children → c.label = .text l → PNode.At c p m →
      PNode.At n (l :: p) m

/-- What `std::sort` with `CompareNodes` guarantees. -/
structure SortSpec (sort : List PNode → List PNode) : Prop where
  perm : ∀ l, (sort l).Perm l
  sorted : ∀ l, (sort l).Pairwise fun a b => b.weight ≤ a.weight

/-- The number of samples whose stack starts with `p`. -/
def samplesUnder (p : List Nat) (S : List (List Nat)) : Nat := (S.filter fun s => p.isPrefixOf s).length

/-! ## The tree before "other" nodes are added -/

def PNode.key (n : PNode) : Nat :=
  match n.label with
  | .text p => p
  | _ => 0

theorem PNode.key_of {n : PNode} {l : Nat} (h : n.label = .text l) : n.key = l := by
  unfold PNode.key; rw [h]

inductive IsTree : PNode → List (List Nat) → Prop
  | mk {lab : PLabel} {w : Nat} {cs : List PNode} {S : List (List Nat)} (hw : w = sizeT S.length)
      (hn : (cs.map PNode.label).Nodup) (ht : ∀ c ∈ cs, c.label = .text c.key)
      (hu : ∀ c ∈ cs, under c.key S ≠ []) (hc : ∀ l, under l S ≠ [] → ∃ c ∈ cs, c.label = .text l)
      (hr : ∀ c ∈ cs, IsTree c (under c.key S)) : IsTree (.mk lab w cs) S

theorem under_append (l : Nat) (S T : List (List Nat)) : under l (S ++ T) = under l S ++ under l T :=
  List.filterMap_append

theorem under_nil (l : Nat) : under l [[]] = [] := rfl

theorem under_cons (l a : Nat) (t : List Nat) : under l [a :: t] = if a = l then [t] else [] := by
  unfold under
  by_cases h : a = l <;> simp [h]

theorem addToChild_found {l : PLabel} {f : PNode → PNode} : ∀ {cs : List PNode},
    (cs.map PNode.label).Nodup → (∃ c ∈ cs, c.label = l) →
    addToChild l f cs = cs.map fun c => if c.label = l then f c else c
  | [], _, h => by obtain ⟨_, h, _⟩ := h; cases h
  | c :: cs, hn, h => by
    unfold addToChild
    rw [List.map_cons, List.nodup_cons] at hn
    by_cases hc : c.label = l
    · rw [if_pos hc, List.map_cons, if_pos hc]
      congr 1
      symm
      calc cs.map (fun c => if c.label = l then f c else c) = cs.map id := by
            apply List.map_congr_left
            intro d hd
            rw [if_neg]
            · rfl
            · intro hdl
              exact hn.1 (List.mem_map.2 ⟨d, hd, by rw [hdl, hc]⟩)
        _ = cs := List.map_id cs
    · rw [if_neg hc, List.map_cons, if_neg hc, addToChild_found hn.2]
      obtain ⟨d, hd, hdl⟩ := h
      rcases List.mem_cons.1 hd with rfl | hd
      · exact absurd hdl hc
      · exact ⟨d, hd, hdl⟩

theorem addToChild_new {l : PLabel} {f : PNode → PNode} : ∀ {cs : List PNode},
    (¬ ∃ c ∈ cs, c.label = l) → addToChild l f cs = cs ++ [f (.mk l 0 [])]
  | [], _ => rfl
  | c :: cs, h => by
    unfold addToChild
    rw [if_neg (fun hc => h ⟨c, by simp, hc⟩), addToChild_new (fun ⟨d, hd, e⟩ => h ⟨d, by simp [hd], e⟩)]
    rfl

theorem addStack_label (s : List Nat) (n : PNode) : (addStackToNode s n).label = n.label := by
  cases n; cases s <;> rfl

theorem addStack_key (s : List Nat) (n : PNode) : (addStackToNode s n).key = n.key := by
  unfold PNode.key; rw [addStack_label]

theorem isTree_fresh (lab : PLabel) : IsTree (.mk lab 0 []) [] :=
  .mk rfl (by simp) (by simp) (by simp) (by intro l h; exact absurd rfl h) (by simp)

/-- Adding a stack. -/
theorem isTree_add : ∀ (s : List Nat) (n : PNode) (S : List (List Nat)), IsTree n S →
    IsTree (addStackToNode s n) (S ++ [s]) := by
  intro s
  induction s with
  | nil =>
    intro n S h
    cases h with
    | @mk lab w cs S hw hn ht hu hc hr =>
      have e : ∀ l, under l (S ++ [[]]) = under l S := fun l => by
        rw [under_append, under_nil, List.append_nil]
      refine .mk ?_ hn ht ?_ ?_ ?_
      · rw [hw, List.length_append]; unfold sizeT; simp
      · intro c h; rw [e]; exact hu c h
      · intro l h; rw [e] at h; exact hc l h
      · intro c h; rw [e]; exact hr c h
  | cons a t ih =>
    intro n S h
    cases h with
    | @mk lab w cs S hw hn ht hu hc hr =>
      have e : ∀ l, under l (S ++ [a :: t]) = under l S ++ if a = l then [t] else [] := fun l => by
        rw [under_append, under_cons]
      have hlen : sizeT (w + 1) = sizeT (S ++ [a :: t]).length := by
        rw [hw, List.length_append]; unfold sizeT; simp
      unfold addStackToNode
      by_cases hf : ∃ c ∈ cs, c.label = .text a
      · rw [addToChild_found hn hf]
        have hmem : ∀ d, d ∈ cs.map (fun c => if c.label = .text a then addStackToNode t c else c) →
            ∃ c ∈ cs, d.label = c.label ∧ d.key = c.key ∧
              ((c.label = .text a ∧ d = addStackToNode t c) ∨ (c.label ≠ .text a ∧ d = c)) := by
          intro d hd
          obtain ⟨c, hc, rfl⟩ := List.mem_map.1 hd
          by_cases h : c.label = .text a
          · rw [if_pos h]
            exact ⟨c, hc, addStack_label _ _, addStack_key _ _, Or.inl ⟨h, rfl⟩⟩
          · rw [if_neg h]
            exact ⟨c, hc, rfl, rfl, Or.inr ⟨h, rfl⟩⟩
        refine .mk hlen ?_ ?_ ?_ ?_ ?_
        · have : (cs.map (fun c => if c.label = .text a then addStackToNode t c else c)).map
              PNode.label = cs.map PNode.label := by
            rw [List.map_map]
            apply List.map_congr_left
            intro c _
            show (if c.label = PLabel.text a then addStackToNode t c else c).label = c.label
            split
            · exact addStack_label _ _
            · rfl
          rw [this]; exact hn
        · intro d hd
          obtain ⟨c, hc', e1, e2, _⟩ := hmem d hd
          rw [e1, e2]; exact ht c hc'
        · intro d hd
          obtain ⟨c, hc', e1, e2, _⟩ := hmem d hd
          rw [e2, e]
          intro hnil
          exact hu c hc' (List.append_eq_nil_iff.1 hnil).1
        · intro l hl
          have : ∃ c ∈ cs, c.label = .text l := by
            by_cases hal : a = l
            · rw [← hal]; exact hf
            · rw [e, if_neg hal, List.append_nil] at hl
              exact hc l hl
          obtain ⟨c, hc', hcl⟩ := this
          refine ⟨_, List.mem_map.2 ⟨c, hc', rfl⟩, ?_⟩
          show (if c.label = PLabel.text a then addStackToNode t c else c).label = .text l
          split
          · rw [addStack_label]; exact hcl
          · exact hcl
        · intro d hd
          obtain ⟨c, hc', e1, e2, h⟩ := hmem d hd
          rw [e2, e]
          rcases h with ⟨h, rfl⟩ | ⟨h, rfl⟩
          · rw [if_pos (PNode.key_of h).symm]
            exact ih c _ (hr c hc')
          · rw [if_neg, List.append_nil]
            · exact hr d hc'
            · intro hak
              exact h (by rw [hak]; exact ht d hc')
      · rw [addToChild_new hf]
        have hnone : under a S = [] := by
          apply Classical.byContradiction
          intro h
          exact hf (hc a h)
        have hk : (addStackToNode t (.mk (.text a) 0 [])).key = a := by
          rw [addStack_key]; rfl
        have hlab : (addStackToNode t (.mk (.text a) 0 [])).label = .text a := addStack_label _ _
        refine .mk hlen ?_ ?_ ?_ ?_ ?_
        · rw [List.map_append, List.nodup_append]
          refine ⟨hn, by simp, ?_⟩
          intro x hx y hy
          simp only [List.map_cons, List.map_nil, List.mem_singleton] at hy
          obtain ⟨c, hc', rfl⟩ := List.mem_map.1 hx
          rw [hy, hlab]
          exact fun h => hf ⟨c, hc', h⟩
        · intro d hd
          rcases List.mem_append.1 hd with hd | hd
          · exact ht d hd
          · rw [List.mem_singleton] at hd
            rw [hd, hk]; exact hlab
        · intro d hd
          rw [e]
          rcases List.mem_append.1 hd with hd | hd
          · intro hnil
            exact hu d hd (List.append_eq_nil_iff.1 hnil).1
          · rw [List.mem_singleton] at hd
            rw [hd, hk, if_pos rfl]
            simp
        · intro l hl
          by_cases hal : a = l
          · exact ⟨_, List.mem_append.2 (Or.inr (List.mem_singleton.2 rfl)), by rw [hlab, hal]⟩
          · rw [e, if_neg hal, List.append_nil] at hl
            obtain ⟨c, hc', h⟩ := hc l hl
            exact ⟨c, List.mem_append.2 (Or.inl hc'), h⟩
        · intro d hd
          rw [e]
          rcases List.mem_append.1 hd with hd | hd
          · rw [if_neg, List.append_nil]
            · exact hr d hd
            · intro hak
              exact hf ⟨d, hd, by rw [hak]; exact ht d hd⟩
          · rw [List.mem_singleton] at hd
            rw [hd, hk, if_pos rfl, hnone]
            exact ih _ _ (isTree_fresh _)

theorem isTree_foldl : ∀ (T : List (List Nat)) (n : PNode) (S : List (List Nat)), IsTree n S →
    IsTree (T.foldl (fun n s => addStackToNode s n) n) (S ++ T)
  | [], n, S, h => by rw [List.append_nil]; exact h
  | t :: T, n, S, h => by
    have := isTree_foldl T _ _ (isTree_add t n S h)
    rw [List.append_assoc] at this
    exact this

/-! ## The finished tree -/

inductive IsProfile : Bool → PNode → List (List Nat) → Prop
  | mk {root : Bool} {lab : PLabel} {w : Nat} {cs ds : List PNode} {S : List (List Nat)}
      (hw : w = S.length)
      (hp : cs.Perm (ds ++ if ds.isEmpty then [] else
        [.mk (if root then .otherOutside else .other) (S.count []) []]))
      (hn : (ds.map PNode.label).Nodup) (ht : ∀ c ∈ ds, c.label = .text c.key)
      (hu : ∀ c ∈ ds, under c.key S ≠ []) (hc : ∀ l, under l S ≠ [] → ∃ c ∈ ds, c.label = .text l)
      (hr : ∀ c ∈ ds, IsProfile false c (under c.key S)) : IsProfile root (.mk lab w cs) S

theorem under_length_cons (l : Nat) (s : List Nat) (S : List (List Nat)) :
    (under l (s :: S)).length = (under l [s]).length + (under l S).length := by
  rw [show s :: S = [s] ++ S from rfl, under_append, List.length_append]

theorem sum_indicator (a : Nat) : ∀ (keys : List Nat), keys.Nodup → a ∈ keys →
    (keys.map fun k => if a = k then 1 else 0).sum = 1
  | [], _, h => by cases h
  | k :: keys, hn, h => by
    rw [List.nodup_cons] at hn
    rw [List.map_cons, List.sum_cons]
    by_cases hk : a = k
    · rw [if_pos hk]
      have : (keys.map fun k => if a = k then 1 else 0).sum = 0 := by
        apply List.sum_eq_zero
        intro x hx
        obtain ⟨k', hk', rfl⟩ := List.mem_map.1 hx
        rw [if_neg]
        intro h'
        exact hn.1 (by rw [← hk, h']; exact hk')
      rw [this]
    · rw [if_neg hk, sum_indicator a keys hn.2]
      rcases List.mem_cons.1 h with h | h
      · exact absurd h hk
      · exact h

theorem sum_under (keys : List Nat) (hn : keys.Nodup) : ∀ S : List (List Nat),
    (∀ l, under l S ≠ [] → l ∈ keys) →
    (keys.map fun k => (under k S).length).sum + S.count [] = S.length
  | [], _ => by
    have : (keys.map fun k => (under k []).length).sum = 0 := by
      apply List.sum_eq_zero
      intro x hx
      obtain ⟨k, _, rfl⟩ := List.mem_map.1 hx
      rfl
    rw [this]; rfl
  | s :: S, h => by
    have ih := sum_under keys hn S (by
      intro l hl
      apply h
      rw [show s :: S = [s] ++ S from rfl, under_append]
      exact fun hnil => hl (List.append_eq_nil_iff.1 hnil).2)
    have e : (keys.map fun k => (under k (s :: S)).length) =
        keys.map fun k => (under k [s]).length + (under k S).length :=
      List.map_congr_left fun k _ => under_length_cons k s S
    rw [e, List.sum_map_add]
    cases s with
    | nil =>
      have : (keys.map fun k => (under k [[]]).length).sum = 0 := by
        apply List.sum_eq_zero
        intro x hx
        obtain ⟨k, _, rfl⟩ := List.mem_map.1 hx
        rfl
      rw [this, List.count_cons_self, List.length_cons]
      omega
    | cons a t =>
      have h1 : (keys.map fun k => (under k [a :: t]).length) =
          keys.map fun k => if a = k then 1 else 0 :=
        List.map_congr_left fun k _ => by
          rw [under_cons]; split <;> rfl
      have ha : a ∈ keys := by
        apply h
        rw [show (a :: t) :: S = [a :: t] ++ S from rfl, under_append, under_cons, if_pos rfl]
        simp
      rw [h1, sum_indicator a keys hn ha, List.count_cons_of_ne (by simp), List.length_cons]
      omega

theorem foldl_sizeT : ∀ (cs : List PNode) (s : Nat), s < 2 ^ 64 →
    cs.foldl (fun s c => sizeT (s + c.weight)) s = (s + (cs.map PNode.weight).sum) % 2 ^ 64
  | [], s, h => (Nat.mod_eq_of_lt h).symm
  | c :: cs, s, _ => by
    rw [List.foldl_cons, foldl_sizeT cs (sizeT (s + c.weight)) (Nat.mod_lt _ (by decide)), List.map_cons, List.sum_cons]
    unfold sizeT
    omega

theorem addOtherList_eq : ∀ cs : List PNode, addOtherList cs = cs.map (addOther false)
  | [] => by rw [addOtherList]; rfl
  | c :: cs => by rw [addOtherList, addOtherList_eq cs]; rfl

theorem addOther_label (r : Bool) (n : PNode) : (addOther r n).label = n.label := by
  cases n; rw [addOther]; rfl

theorem addOther_key (r : Bool) (n : PNode) : (addOther r n).key = n.key := by
  unfold PNode.key; rw [addOther_label]

theorem under_length_le (l : Nat) (S : List (List Nat)) : (under l S).length ≤ S.length :=
  List.length_filterMap_le _ _

theorem IsProfile.weight_eq {r : Bool} {n : PNode} {S : List (List Nat)} (h : IsProfile r n S) :
    n.weight = S.length := by
  cases h with
  | mk hw => exact hw

/-- Nodes by their keys. -/
theorem keys_nodup {ds : List PNode} (hn : (ds.map PNode.label).Nodup)
    (ht : ∀ c ∈ ds, c.label = .text c.key) : (ds.map PNode.key).Nodup := by
  have : ds.map PNode.label = (ds.map PNode.key).map PLabel.text := by
    rw [List.map_map]
    exact List.map_congr_left fun c hc => ht c hc
  rw [this] at hn
  exact List.Nodup.of_map _ hn

/-- The weights of the labelled children and of the samples that end here. -/
theorem children_sum {ds : List PNode} {S : List (List Nat)} (hn : (ds.map PNode.label).Nodup)
    (ht : ∀ c ∈ ds, c.label = .text c.key) (hc : ∀ l, under l S ≠ [] → ∃ c ∈ ds, c.label = .text l)
    (hr : ∀ c ∈ ds, IsProfile false c (under c.key S)) :
    (ds.map PNode.weight).sum + S.count [] = S.length := by
  rw [← sum_under (ds.map PNode.key) (keys_nodup hn ht) S]
  · rw [List.map_map]
    congr 2
    exact List.map_congr_left fun c h => (hr c h).weight_eq
  · intro l hl
    obtain ⟨c, h1, h2⟩ := hc l hl
    exact List.mem_map.2 ⟨c, h1, PNode.key_of h2⟩

theorem isProfile_addOther {n : PNode} {S : List (List Nat)} (h : IsTree n S) :
    S.length < 2 ^ 64 → ∀ root, IsProfile root (addOther root n) S := by
  induction h with
  | @mk lab w cs S hw hn ht hu hc hr ih =>
    intro hS root
    rw [addOther, addOtherList_eq]
    have hn' : ((cs.map (addOther false)).map PNode.label).Nodup := by
      have : (cs.map (addOther false)).map PNode.label = cs.map PNode.label := by
        rw [List.map_map]
        exact List.map_congr_left fun c _ => addOther_label _ _
      rw [this]; exact hn
    have ht' : ∀ c ∈ cs.map (addOther false), c.label = .text c.key := by
      intro c h
      obtain ⟨d, hd, rfl⟩ := List.mem_map.1 h
      rw [addOther_label, addOther_key]; exact ht d hd
    have hu' : ∀ c ∈ cs.map (addOther false), under c.key S ≠ [] := by
      intro c h
      obtain ⟨d, hd, rfl⟩ := List.mem_map.1 h
      rw [addOther_key]; exact hu d hd
    have hc' : ∀ l, under l S ≠ [] → ∃ c ∈ cs.map (addOther false), c.label = .text l := by
      intro l hl
      obtain ⟨c, h1, h2⟩ := hc l hl
      exact ⟨_, List.mem_map.2 ⟨c, h1, rfl⟩, by rw [addOther_label]; exact h2⟩
    have hr' : ∀ c ∈ cs.map (addOther false), IsProfile false c (under c.key S) := by
      intro c h
      obtain ⟨d, hd, rfl⟩ := List.mem_map.1 h
      rw [addOther_key]
      exact ih d hd (Nat.lt_of_le_of_lt (under_length_le _ _) hS) false
    generalize cs.map (addOther false) = ds at hn' ht' hu' hc' hr'
    have hsum := children_sum hn' ht' hc' hr'
    rw [foldl_sizeT ds 0 (by decide), Nat.zero_add]
    have hle : (ds.map PNode.weight).sum < 2 ^ 64 := by omega
    rw [Nat.mod_eq_of_lt hle]
    have hw' : w = S.length := by rw [hw]; exact Nat.mod_eq_of_lt hS
    refine .mk (ds := ds) hw' ?_ hn' ht' hu' hc' hr'
    cases ds with
    | nil => simp
    | cons d ds =>
      have hd : 0 < d.weight := by
        rw [(hr' d (by simp)).weight_eq]
        exact List.length_pos_iff.2 (hu' d (by simp))
      rw [if_pos (by rw [List.map_cons, List.sum_cons]; omega), List.isEmpty_cons]
      have : sizeT (w + 2 ^ 64 - ((d :: ds).map PNode.weight).sum) = S.count [] := by
        unfold sizeT; omega
      rw [this]
      simp

theorem sortNodeList_eq (sort : List PNode → List PNode) : ∀ cs : List PNode,
    sortNodeList sort cs = cs.map (sortNode sort)
  | [] => by rw [sortNodeList]; rfl
  | c :: cs => by rw [sortNodeList, sortNodeList_eq sort cs]; rfl

theorem sortNode_label (sort : List PNode → List PNode) (n : PNode) :
    (sortNode sort n).label = n.label := by
  cases n; rw [sortNode]; rfl

theorem sortNode_key (sort : List PNode → List PNode) (n : PNode) :
    (sortNode sort n).key = n.key := by
  unfold PNode.key; rw [sortNode_label]

theorem isProfile_sort {sort : List PNode → List PNode} (hs : SortSpec sort) {root : Bool} {n : PNode}
    {S : List (List Nat)} (h : IsProfile root n S) : IsProfile root (sortNode sort n) S := by
  induction h with
  | @mk root lab w cs ds S hw hp hn ht hu hc hr ih =>
    rw [sortNode, sortNodeList_eq]
    refine .mk (ds := ds.map (sortNode sort)) hw ?_ ?_ ?_ ?_ ?_ ?_
    · refine (hs.perm _).trans ((hp.map _).trans ?_)
      rw [List.map_append, List.isEmpty_map]
      apply List.Perm.append_left
      cases ds.isEmpty with
      | true => exact List.Perm.refl _
      | false =>
        have e : sort [] = [] := List.Perm.eq_nil (hs.perm [])
        simp only [Bool.false_eq_true, if_false, List.map_cons, List.map_nil]
        rw [sortNode, sortNodeList_eq, List.map_nil, e]
    · have : (ds.map (sortNode sort)).map PNode.label = ds.map PNode.label := by
        rw [List.map_map]
        exact List.map_congr_left fun c _ => sortNode_label _ _
      rw [this]; exact hn
    · intro c h
      obtain ⟨d, hd, rfl⟩ := List.mem_map.1 h
      rw [sortNode_label, sortNode_key]; exact ht d hd
    · intro c h
      obtain ⟨d, hd, rfl⟩ := List.mem_map.1 h
      rw [sortNode_key]; exact hu d hd
    · intro l hl
      obtain ⟨c, h1, h2⟩ := hc l hl
      exact ⟨_, List.mem_map.2 ⟨c, h1, rfl⟩, by rw [sortNode_label]; exact h2⟩
    · intro c h
      obtain ⟨d, hd, rfl⟩ := List.mem_map.1 h
      rw [sortNode_key]; exact ih d hd

theorem profile_isProfile {sort : List PNode → List PNode} (hs : SortSpec sort) (S : List (List Nat))
    (hS : S.length < 2 ^ 64) : IsProfile true (profileTree sort S) S := by
  unfold profileTree
  apply isProfile_sort hs
  apply isProfile_addOther _ hS
  have := isTree_foldl S (.mk .null 0 []) [] (isTree_fresh _)
  rw [List.nil_append] at this
  exact this

theorem profile_at {root : Bool} {n m : PNode} {p : List Nat} {S : List (List Nat)}
    (h : IsProfile root n S) (ha : PNode.At n p m) :
    IsProfile (root && p.isEmpty) m (S.filterMap fun s => if p.isPrefixOf s then some (s.drop p.length) else none) := by
  induction ha generalizing root S with
  | here n =>
    have e : (S.filterMap fun s => if ([] : List Nat).isPrefixOf s then some (s.drop ([] : List Nat).length) else none) = S := by
      have : (fun s : List Nat => if ([] : List Nat).isPrefixOf s then
          some (s.drop ([] : List Nat).length) else none) = some := by
        funext s; simp
      rw [this, List.filterMap_some]
    rw [e, List.isEmpty_nil, Bool.and_true]
    exact h
  | @down n c m l p hc hl _ ih =>
    cases h with
    | @mk root lab w cs ds S hw hp hn ht hu hcc hr =>
      have hcd : c ∈ ds := by
        have h1 := hp.mem_iff.1 (show c ∈ cs from hc)
        rcases List.mem_append.1 h1 with h1 | h1
        · exact h1
        · exfalso
          split at h1
          · cases h1
          · rw [List.mem_singleton] at h1
            rw [h1] at hl
            change (if root = true then PLabel.otherOutside else PLabel.other) = PLabel.text l at hl
            split at hl <;> cases hl
      have h2 := ih (hr c hcd)
      rw [PNode.key_of hl] at h2
      rw [List.isEmpty_cons, Bool.and_false]
      rw [Bool.false_and] at h2
      have e : ((under l S).filterMap fun s => if p.isPrefixOf s then some (s.drop p.length) else none) =
          S.filterMap fun s => if (l :: p).isPrefixOf s then some (s.drop (l :: p).length) else none := by
        unfold under
        rw [List.filterMap_filterMap]
        congr 1
        funext s
        cases s with
        | nil => rfl
        | cons a t =>
          by_cases hal : a = l
          · simp [hal, List.isPrefixOf]
          · have : (l == a) = false := beq_false_of_ne fun h => hal h.symm
            simp [hal, List.isPrefixOf, this]
      rw [e] at h2
      exact h2

theorem filterMap_length (p : List Nat) (S : List (List Nat)) :
    (S.filterMap fun s => if p.isPrefixOf s then some (s.drop p.length) else none).length =
      samplesUnder p S := by
  unfold samplesUnder
  induction S with
  | nil => rfl
  | cons s S ih =>
    by_cases h : p.isPrefixOf s = true
    · rw [List.filterMap_cons_some (b := s.drop p.length) (by rw [if_pos h]), List.filter_cons_of_pos h, List.length_cons,
        List.length_cons, ih]
    · rw [List.filterMap_cons_none (by rw [if_neg h]), List.filter_cons_of_neg h, ih]

theorem filterMap_count (p : List Nat) (S : List (List Nat)) :
    (S.filterMap fun s => if p.isPrefixOf s then some (s.drop p.length) else none).count [] =
      S.count p := by
  induction S with
  | nil => rfl
  | cons s S ih =>
    by_cases h : p.isPrefixOf s = true
    · rw [List.filterMap_cons_some (b := s.drop p.length) (by rw [if_pos h]), List.count_cons, List.count_cons, ih]
      obtain ⟨t, rfl⟩ := List.isPrefixOf_iff_prefix.1 h
      congr 1
      rw [List.drop_left]
      cases t with
      | nil => simp
      | cons a t => simp
    · rw [List.filterMap_cons_none (by rw [if_neg h]), List.count_cons_of_ne, ih]
      rintro rfl
      exact h (List.isPrefixOf_iff_prefix.2 (List.prefix_refl s))

/-- C48: the weight of every node that carries labels of the program is the number of samples whose stack
starts with the path of the node; in particular the root has the number of all samples. -/
theorem C48_weight {sort : List PNode → List PNode} (hs : SortSpec sort) {S : List (List Nat)}
    (hS : S.length < 2 ^ 64) {p : List Nat} {n : PNode} (h : (profileTree sort S).At p n) :
    n.weight = samplesUnder p S := by
  rw [(profile_at (profile_isProfile hs S hS) h).weight_eq, filterMap_length]

/-- The children of a profile node. -/
theorem profile_children {root : Bool} {n : PNode} {S : List (List Nat)} (h : IsProfile root n S) :
    (n.children = [] ∧ S.count [] = S.length) ∨
    ((n.children.map PNode.weight).sum = S.length ∧
      n.children.filter (fun c => match c.label with | .text _ => false | _ => true) =
        [.mk (if root then .otherOutside else .other) (S.count []) []]) := by
  cases h with
  | @mk root lab w cs ds S hw hp hn ht hu hcc hr =>
    have hsum := children_sum hn ht hcc hr
    cases ds with
    | nil =>
      left
      exact ⟨show cs = [] from List.Perm.eq_nil (by simpa using hp), by simpa using hsum⟩
    | cons d ds =>
      right
      rw [List.isEmpty_cons] at hp
      simp only [Bool.false_eq_true, if_false] at hp
      refine ⟨?_, ?_⟩
      · rw [show (PNode.mk lab w cs).children = cs from rfl, (hp.map PNode.weight).sum_eq,
          List.map_append, List.sum_append]
        exact hsum
      · have hfil := hp.filter (fun c => match c.label with | .text _ => false | _ => true)
        rw [List.filter_append] at hfil
        have h1 : (d :: ds).filter (fun c => match c.label with | .text _ => false | _ => true) = [] := by
          rw [List.filter_eq_nil_iff]
          intro c hc
          rw [ht c hc]; simp
        have h2 : ([.mk (if root then .otherOutside else .other) (S.count []) []] : List PNode).filter
            (fun c => match c.label with | .text _ => false | _ => true) =
            [.mk (if root then .otherOutside else .other) (S.count []) []] := by
          cases root <;> rfl
        rw [h1, h2, List.nil_append] at hfil
        exact List.perm_singleton.1 hfil

/-- C48: the weights of the children of a node, "other" included, sum to the weight of the node; there is
exactly one "other" child, it has no children, and its weight is the number of samples whose stack is the
path of the node and nothing more. -/
theorem C48_children {sort : List PNode → List PNode} (hs : SortSpec sort) {S : List (List Nat)}
    (hS : S.length < 2 ^ 64) {p : List Nat} {n : PNode} (h : (profileTree sort S).At p n)
    (hne : n.children ≠ []) :
    (n.children.map PNode.weight).sum = n.weight ∧
    n.children.filter (fun c => match c.label with | .text _ => false | _ => true) =
      [.mk (if p = [] then .otherOutside else .other) (S.count p) []] := by
  have hp := profile_at (profile_isProfile hs S hS) h
  rcases profile_children hp with ⟨h1, _⟩ | ⟨h1, h2⟩
  · exact absurd h1 hne
  · rw [hp.weight_eq]
    refine ⟨h1, ?_⟩
    rw [h2, filterMap_count]
    cases p <;> rfl

/-- C48: a node has no children exactly if no sample goes deeper. -/
theorem C48_leaf {sort : List PNode → List PNode} (hs : SortSpec sort) {S : List (List Nat)}
    (hS : S.length < 2 ^ 64) {p : List Nat} {n : PNode} (h : (profileTree sort S).At p n) :
    n.children = [] ↔ S.count p = samplesUnder p S := by
  have hp := profile_at (profile_isProfile hs S hS) h
  rw [← filterMap_count, ← filterMap_length]
  constructor
  · intro hnil
    rcases profile_children hp with ⟨_, h2⟩ | ⟨_, h2⟩
    · exact h2
    · rw [hnil] at h2; cases h2
  · intro hcount
    cases hp with
    | @mk root lab w cs ds _ hw hp hn ht hu hcc hr =>
      have hsum := children_sum hn ht hcc hr
      cases ds with
      | nil => exact show cs = [] from List.Perm.eq_nil (by simpa using hp)
      | cons d ds =>
        exfalso
        have hd : 0 < d.weight := by
          rw [(hr d (by simp)).weight_eq]
          exact List.length_pos_iff.2 (hu d (by simp))
        rw [List.map_cons, List.sum_cons] at hsum
        omega

theorem profile_path {p : List Nat} : ∀ {root : Bool} {n : PNode} {S : List (List Nat)},
    IsProfile root n S → (∃ s ∈ S, p <+: s) → ∃ m, n.At p m := by
  induction p with
  | nil => intro root n S _ _; exact ⟨n, .here n⟩
  | cons l p ih =>
    intro root n S h hex
    cases h with
    | @mk root lab w cs ds S hw hp hn ht hu hcc hr =>
      obtain ⟨s, hs, t, rfl⟩ := hex
      have hmem : p ++ t ∈ under l S := by
        unfold under
        exact List.mem_filterMap.2 ⟨_, hs, by simp⟩
      obtain ⟨c, hc, hcl⟩ := hcc l (List.ne_nil_of_mem hmem)
      have h1 := hr c hc
      rw [PNode.key_of hcl] at h1
      obtain ⟨m, hm⟩ := ih h1 ⟨_, hmem, List.prefix_append p t⟩
      exact ⟨m, .down (hp.mem_iff.2 (List.mem_append.2 (Or.inl hc))) hcl hm⟩

theorem profile_unique {p : List Nat} : ∀ {root : Bool} {n m m' : PNode} {S : List (List Nat)},
    IsProfile root n S → n.At p m → n.At p m' → m = m' ∧ (p ≠ [] → ∃ s ∈ S, p <+: s) := by
  induction p with
  | nil =>
    intro root n m m' S _ h h'
    cases h; cases h'
    exact ⟨rfl, fun h => absurd rfl h⟩
  | cons l p ih =>
    intro root n m m' S h h1 h2
    cases h with
    | @mk root lab w cs ds S hw hp hn ht hu hcc hr =>
      have mem : ∀ c, c ∈ cs → c.label = .text l → c ∈ ds := by
        intro c hc hcl
        rcases List.mem_append.1 (hp.mem_iff.1 hc) with h | h
        · exact h
        · exfalso
          split at h
          · cases h
          · rw [List.mem_singleton] at h
            rw [h] at hcl
            change (if root = true then PLabel.otherOutside else PLabel.other) = PLabel.text l at hcl
            split at hcl <;> cases hcl
      cases h1 with
      | @down _ c _ _ _ hc hcl ha =>
        cases h2 with
        | @down _ c' _ _ _ hc' hcl' ha' =>
          have e : c = c' := List.inj_on_of_nodup_map hn (mem c hc hcl) (mem c' hc' hcl')
            (by rw [hcl, hcl'])
          subst e
          have hrc := hr c (mem c hc hcl)
          have huc := hu c (mem c hc hcl)
          rw [PNode.key_of hcl] at hrc huc
          obtain ⟨e, hex⟩ := ih hrc ha ha'
          refine ⟨e, fun _ => ?_⟩
          have hmem : ∃ s ∈ under l S, p <+: s := by
            by_cases hpn : p = []
            · obtain ⟨s, hs⟩ := List.exists_mem_of_ne_nil _ huc
              exact ⟨s, hs, by rw [hpn]; exact List.nil_prefix⟩
            · exact hex hpn
          obtain ⟨s, hs, hps⟩ := hmem
          unfold under at hs
          obtain ⟨u, hu1, hu2⟩ := List.mem_filterMap.1 hs
          cases u with
          | nil => simp at hu2
          | cons a t =>
            by_cases hal : a = l
            · simp only [hal, if_true] at hu2
              injection hu2 with hu2
              refine ⟨a :: t, hu1, ?_⟩
              rw [hal, hu2]
              exact List.cons_prefix_cons.2 ⟨rfl, hps⟩
            · simp [hal] at hu2

/-- C48: the tree has a node for a path of labels exactly if some sample starts with the path (or the
path is empty), and never two. -/
theorem C48_paths {sort : List PNode → List PNode} (hs : SortSpec sort) {S : List (List Nat)}
    (hS : S.length < 2 ^ 64) (p : List Nat) :
    ((∃ n, (profileTree sort S).At p n) ↔ p = [] ∨ ∃ s ∈ S, p <+: s) ∧
    ∀ n n', (profileTree sort S).At p n → (profileTree sort S).At p n' → n = n' := by
  have h := profile_isProfile hs S hS
  refine ⟨⟨?_, ?_⟩, fun n n' h1 h2 => (profile_unique h h1 h2).1⟩
  · rintro ⟨n, hn⟩
    by_cases hp : p = []
    · exact Or.inl hp
    · exact Or.inr ((profile_unique h hn hn).2 hp)
  · rintro (rfl | hex)
    · exact ⟨_, .here _⟩
    · exact profile_path h hex

inductive AllSorted : PNode → Prop
  | mk {lab : PLabel} {w : Nat} {cs : List PNode} (h : cs.Pairwise fun a b => b.weight ≤ a.weight)
      (hc : ∀ c ∈ cs, AllSorted c) : AllSorted (.mk lab w cs)

mutual
theorem sortNode_sorted {sort : List PNode → List PNode} (hs : SortSpec sort) :
    ∀ n, AllSorted (sortNode sort n)
  | .mk lab w cs => by
    rw [sortNode]
    exact .mk (hs.sorted _) fun c hc => sortNodeList_sorted hs cs c ((hs.perm _).mem_iff.1 hc)
theorem sortNodeList_sorted {sort : List PNode → List PNode} (hs : SortSpec sort) :
    ∀ cs, ∀ c ∈ sortNodeList sort cs, AllSorted c
  | [], c, h => by rw [sortNodeList] at h; cases h
  | d :: cs, c, h => by
    rw [sortNodeList] at h
    rcases List.mem_cons.1 h with rfl | h
    · exact sortNode_sorted hs d
    · exact sortNodeList_sorted hs cs c h
end

theorem AllSorted.at {n m : PNode} {p : List Nat} (h : AllSorted n) (ha : n.At p m) : AllSorted m := by
  induction ha with
  | here => exact h
  | down hc _ _ ih =>
    cases h with
    | mk _ hcs => exact ih (hcs _ hc)

/-- C48: the children of every node come in order of decreasing weight. -/
theorem C48_sorted {sort : List PNode → List PNode} (hs : SortSpec sort) (S : List (List Nat))
    {p : List Nat} {n : PNode} (h : (profileTree sort S).At p n) :
    n.children.Pairwise fun a b => b.weight ≤ a.weight := by
  have := (sortNode_sorted hs (addOther true
    (S.foldl (fun n s => addStackToNode s n) (.mk .null 0 [])))).at h
  cases this with
  | mk h' _ => exact h'

/-! ### A sorting function that meets the specification, and an example -/

def insertNode (n : PNode) : List PNode → List PNode
  | [] => [n]
  | c :: cs => if n.weight < c.weight then c :: insertNode n cs else n :: c :: cs

def insertionSort : List PNode → List PNode
  | [] => []
  | c :: cs => insertNode c (insertionSort cs)

theorem insertNode_perm (n : PNode) : ∀ cs, (insertNode n cs).Perm (n :: cs)
  | [] => List.Perm.refl _
  | c :: cs => by
    unfold insertNode
    split
    · exact ((insertNode_perm n cs).cons c).trans (List.Perm.swap n c cs)
    · exact List.Perm.refl _

theorem insertNode_sorted (n : PNode) : ∀ cs : List PNode,
    (cs.Pairwise fun a b => b.weight ≤ a.weight) →
    (insertNode n cs).Pairwise fun a b => b.weight ≤ a.weight
  | [], _ => List.pairwise_singleton _ _
  | c :: cs, h => by
    unfold insertNode
    rw [List.pairwise_cons] at h
    split
    · rw [List.pairwise_cons]
      refine ⟨fun b hb => ?_, insertNode_sorted n cs h.2⟩
      rcases List.mem_cons.1 ((insertNode_perm n cs).mem_iff.1 hb) with rfl | hb
      · omega
      · exact h.1 b hb
    · rw [List.pairwise_cons, List.pairwise_cons]
      refine ⟨fun b hb => ?_, h⟩
      rcases List.mem_cons.1 hb with rfl | hb
      · omega
      · have := h.1 b hb; omega

theorem insertionSort_spec : SortSpec insertionSort where
  perm := by
    intro l
    induction l with
    | nil => exact List.Perm.refl _
    | cons c cs ih => exact (insertNode_perm c _).trans (ih.cons c)
  sorted := by
    intro l
    induction l with
    | nil => exact List.Pairwise.nil
    | cons c cs ih => exact insertNode_sorted c _ ih

/-- The hypotheses are met by a real tree: three samples, two of them deeper. -/
example : ∃ n, (profileTree insertionSort [[1, 2], [1], [1, 3], [4]]).At [1] n ∧ n.weight = 3 ∧
    (n.children.map PNode.weight) = [1, 1, 1] :=
  ⟨_, .down (c := .mk (.text 1) 3 [.mk (.text 2) 1 [], .mk (.text 3) 1 [], .mk .other 1 []])
    (by simp [profileTree, addStackToNode, addToChild, addOther, addOtherList, sortNode, sortNodeList,
      insertionSort, insertNode, sizeT, PNode.label, PNode.weight, PNode.children]) rfl (.here _), rfl, rfl⟩

/-! ## The label stack -/

/-- What a programmer expects: `e` are the labels of the enclosing blocks, innermost first; `update k`
changes the label of the `k`-th of them; a sample sees all of them. -/
def LProg.spec : LProg → List Nat → List Nat × List (List Nat)
  | .done, e => (e, [])
  | .scope l body next, e =>
    ((next.spec (body.spec (l :: e)).1.tail).1,
      (body.spec (l :: e)).2 ++ (next.spec (body.spec (l :: e)).1.tail).2)
  | .update k l next, e => next.spec (e.set k l)
  | .sample next, e => ((next.spec e).1, e.reverse :: (next.spec e).2)

/-- Blocks are nested at most 30 deep, starting at depth `d`, and each update is of the innermost label. -/
def LProg.Simple : LProg → Nat → Prop
  | .done, _ => True
  | .scope _ body next, d => d < 30 ∧ body.Simple (d + 1) ∧ next.Simple d
  | .update k _ next, d => k = 0 ∧ 0 < d ∧ next.Simple d
  | .sample next, d => next.Simple d

theorem PStack.toList_length (s : PStack) : s.toList.length = s.size := by
  unfold PStack.toList; simp

theorem toList_push (f : Nat → Nat) (n l : Nat) :
    PStack.toList ⟨fun i => if i = n then l else f i, n + 1⟩ = PStack.toList ⟨f, n⟩ ++ [l] := by
  unfold PStack.toList
  dsimp only
  rw [List.range_succ, List.map_append]
  congr 1
  · apply List.map_congr_left
    intro i hi
    rw [if_neg (Nat.ne_of_lt (List.mem_range.1 hi))]
  · simp

theorem recordLoop_ok (src : PStack) (hs : src.size ≤ kMaxStack) : ∀ (k : Nat) (dst : PStack),
    src.size - dst.size = k → dst.size ≤ src.size → (∀ i < dst.size, dst.labels i = src.labels i) →
    ∃ d, recordLoop src dst = .ok d ∧ d.toList = src.toList
  | 0, dst, hk, hle, hl => by
    refine ⟨dst, ?_, ?_⟩
    · rw [recordLoop, dif_neg (by omega)]
    · unfold PStack.toList
      rw [show dst.size = src.size by omega]
      apply List.map_congr_left
      intro i hi
      exact hl i (by have := List.mem_range.1 hi; omega)
  | k + 1, dst, hk, hle, hl => by
    rw [recordLoop, dif_pos (by omega), if_pos (by omega)]
    apply recordLoop_ok src hs k
    · dsimp only; omega
    · dsimp only; omega
    · intro i hi
      dsimp only at hi ⊢
      split
      · next h => rw [h]
      · exact hl i (by omega)

/-- `RecordStack` copies the stack. -/
theorem C48_record (src : PStack) (hs : src.size ≤ 30) :
    ∃ d, recordStack src .init = .ok d ∧ d.toList = src.toList := by
  unfold recordStack
  exact recordLoop_ok src hs _ .init rfl (Nat.zero_le _) (by intro i hi; exact absurd hi (by simp [PStack.init]))

theorem run_simple : ∀ (p : LProg) (e : List Nat) (s : PStack), p.Simple e.length →
    s.toList = e.reverse → e.length ≤ 30 →
    ∃ s', p.run s = .ok (s', (p.spec e).2) ∧ s'.toList = (p.spec e).1.reverse ∧
      (p.spec e).1.length = e.length := by
  intro p
  induction p with
  | done => intro e s _ h _; exact ⟨s, rfl, h, rfl⟩
  | scope l body next ihb ihn =>
    intro e s hp h he
    obtain ⟨h1, h2, h3⟩ := hp
    have hsz : s.size = e.length := by rw [← s.toList_length, h, List.length_reverse]
    unfold LProg.run PStack.push
    rw [if_pos (show s.size < kMaxStack by unfold kMaxStack; omega)]
    rw [ok_bind]
    obtain ⟨s1, r1, t1, l1⟩ := ihb (l :: e) ⟨fun i => if i = s.size then l else s.labels i, s.size + 1⟩ h2
      (by rw [toList_push, List.reverse_cons]; exact congrArg (· ++ [l]) h) (by rw [List.length_cons]; omega)
    rw [r1, ok_bind]
    dsimp only
    have hsz1 : s1.size = e.length + 1 := by
      rw [← s1.toList_length, t1, List.length_reverse, l1, List.length_cons]
    unfold PStack.pop
    rw [if_pos (by omega), ok_bind]
    have hpop : (⟨s1.labels, s1.size - 1⟩ : PStack).toList = (body.spec (l :: e)).1.tail.reverse := by
      have t1' := t1
      rw [hsz1]
      unfold PStack.toList at t1' ⊢
      rw [hsz1, List.range_succ, List.map_append] at t1'
      generalize (body.spec (l :: e)).1 = q at t1' l1
      cases q with
      | nil => simp at l1
      | cons a q =>
        rw [List.reverse_cons] at t1'
        exact (List.append_inj' t1' rfl).1
    have hlen : (body.spec (l :: e)).1.tail.length = e.length := by
      rw [List.length_tail, l1, List.length_cons]; omega
    obtain ⟨s2, r2, t2, l2⟩ := ihn (body.spec (l :: e)).1.tail ⟨s1.labels, s1.size - 1⟩
      (by rw [hlen]; exact h3) hpop (by rw [hlen]; exact he)
    rw [r2, ok_bind]
    exact ⟨s2, rfl, t2, by rw [← hlen]; exact l2⟩
  | update k l next ih =>
    intro e s hp h he
    obtain ⟨hk, h1, h2⟩ := hp
    have hsz : s.size = e.length := by rw [← s.toList_length, h, List.length_reverse]
    unfold LProg.run PStack.updateTop
    rw [if_neg (by omega), ok_bind]
    have hl : (e.set k l).length = e.length := List.length_set
    obtain ⟨s1, r1, t1, l1⟩ := ih (e.set k l)
      { s with labels := fun i => if i = s.size - 1 then l else s.labels i } (by rw [hl]; exact h2) (by
        cases e with
        | nil => simp at h1
        | cons a e =>
          rw [hk, List.set_cons_zero, List.reverse_cons]
          rw [List.length_cons] at hsz
          have := toList_push s.labels e.length l
          unfold PStack.toList at h this ⊢
          rw [hsz] at h ⊢
          rw [List.range_succ, List.map_append, List.reverse_cons] at h
          dsimp only at this ⊢
          rw [Nat.add_sub_cancel, this]
          congr 1
          exact (List.append_inj' h rfl).1) (by rw [hl]; exact he)
    exact ⟨s1, r1, t1, by rw [← hl]; exact l1⟩
  | sample next ih =>
    intro e s hp h he
    have hsz : s.size = e.length := by rw [← s.toList_length, h, List.length_reverse]
    unfold LProg.run
    obtain ⟨d, hd, hdl⟩ := C48_record s (by omega)
    rw [hd, ok_bind]
    obtain ⟨s1, r1, t1, l1⟩ := ih e s hp h he
    rw [r1, ok_bind]
    refine ⟨s1, ?_, t1, l1⟩
    rw [hdl, h]
    rfl

/-- C48 (partial: only updates of the innermost label; see `C48_update_fails`): a thread whose blocks are
nested at most 30 deep never aborts, each sample taken of it lists the labels of the enclosing blocks,
outermost first, and the stack is empty again at the end. -/
theorem C48_samples_partial (p : LProg) (h : p.Simple 0) :
    ∃ s', p.run .init = .ok (s', (p.spec []).2) ∧ s'.size = 0 := by
  obtain ⟨s', h1, h2, h3⟩ := run_simple p [] .init h rfl (by simp)
  refine ⟨s', h1, ?_⟩
  rw [← s'.toList_length, h2, List.length_reverse, h3]
  rfl

example : (LProg.scope 1 (.sample (.scope 2 (.update 0 7 (.sample .done)) (.sample .done))) .done).Simple 0 ∧
    ((LProg.scope 1 (.sample (.scope 2 (.update 0 7 (.sample .done)) (.sample .done))) .done).spec []).2 =
      [[1], [1, 7], [1]] := by
  refine ⟨?_, rfl⟩
  simp [LProg.Simple]

/-- What is missing: `Update` on the label object of an outer block replaces the label of the innermost
block. -/
theorem C48_update_fails :
    ∃ p : LProg, (p.spec []).2 = [[9, 2]] ∧ ∃ s, p.run .init = .ok (s, [[1, 9]]) := by
  obtain ⟨s, h, _⟩ := C48_samples_partial
    (.scope 1 (.scope 2 (.update 0 9 (.sample .done)) .done) .done) (by simp [LProg.Simple])
  exact ⟨.scope 1 (.scope 2 (.update 1 9 (.sample .done)) .done) .done, rfl, s, h⟩

/-- A block 31 deep aborts. -/
theorem C48_too_deep (l : Nat) (body next : LProg) (s : PStack) (h : 30 ≤ s.size) :
    (LProg.scope l body next).run s = .error .abort := by
  unfold LProg.run PStack.push
  rw [if_neg (by unfold kMaxStack; omega)]
  rfl

/-- C48, for the samples of a thread: the weight of a node is the number of the samples that were taken
inside the blocks of its path. -/
theorem C48_profile {sort : List PNode → List PNode} (hs : SortSpec sort) (p : LProg) (h : p.Simple 0)
    (hS : (p.spec []).2.length < 2 ^ 64) :
    ∃ s' S, p.run .init = .ok (s', S) ∧ ∀ q n, (profileTree sort S).At q n →
      n.weight = samplesUnder q (p.spec []).2 := by
  obtain ⟨s', h1, _⟩ := C48_samples_partial p h
  exact ⟨s', _, h1, fun q n hn => C48_weight hs hS hn⟩

/-! ## C57: which threads are sampled -/

/-- Whether the thread has opened a label and its exit callback has not run since, after the events. -/
def pendingAfter (t : Nat) (es : List ProfEvent) : Bool :=
  es.foldl (fun b e => match e with
    | .register u => b || u == t
    | .exitCallback u => b && u != t
    | _ => b) false

theorem pendingAfter_snoc (t : Nat) (es : List ProfEvent) (e : ProfEvent) :
    pendingAfter t (es ++ [e]) = (match e with
      | .register u => pendingAfter t es || u == t
      | .exitCallback u => pendingAfter t es && u != t
      | _ => pendingAfter t es) := by
  unfold pendingAfter
  rw [List.foldl_append]
  cases e <;> rfl

theorem threads_run : ∀ (es pre : List ProfEvent) (s : ProfState),
    (∀ a t b, es = a ++ .deleteInfo t :: b → pendingAfter t (pre ++ a) = false) →
    (∀ t, t ∈ s.registered ↔ pendingAfter t pre = true) → (∀ t ∈ s.registered, t ∈ s.live) →
    s.run es ≠ .error .oob
  | [], _, s, _, _, _ => by intro h; cases h
  | e :: es, pre, s, hd, hr, hl => by
    have hd' : ∀ a t b, es = a ++ .deleteInfo t :: b → pendingAfter t (pre ++ [e] ++ a) = false := by
      intro a t b h
      have := hd (e :: a) t b (by rw [h]; rfl)
      rw [List.append_assoc]
      exact this
    unfold ProfState.run
    cases e with
    | register u =>
      unfold ProfState.step
      rw [ok_bind]
      refine threads_run es _ _ hd' ?_ ?_
      · intro t
        rw [pendingAfter_snoc]
        dsimp only
        rw [Bool.or_eq_true, ← hr t, beq_iff_eq]
        split
        · next h => exact ⟨Or.inl, fun h' => h'.elim id fun h' => h' ▸ h⟩
        · rw [List.mem_cons]
          exact ⟨fun h => h.elim (fun h => Or.inr h.symm) Or.inl, fun h => h.elim Or.inr fun h => Or.inl h.symm⟩
      · intro t ht
        dsimp only at ht ⊢
        have : t ∈ s.registered ∨ t = u := by
          split at ht
          · exact Or.inl ht
          · exact (List.mem_cons.1 ht).symm
        split
        · next h => exact this.elim (hl t) fun e => e ▸ h
        · exact List.mem_cons.2 (this.symm.imp id (hl t))
    | exitCallback u =>
      unfold ProfState.step
      rw [ok_bind]
      refine threads_run es _ _ hd' ?_ ?_
      · intro t
        rw [pendingAfter_snoc]
        dsimp only
        rw [List.mem_filter, hr t, Bool.and_eq_true, bne_iff_ne, decide_eq_true_iff]
        exact ⟨fun h => ⟨h.1, fun e => h.2 e.symm⟩, fun h => ⟨h.1, fun e => h.2 e.symm⟩⟩
      · intro t ht
        exact hl t (List.mem_filter.1 ht).1
    | deleteInfo u =>
      unfold ProfState.step
      rw [ok_bind]
      refine threads_run es _ _ hd' ?_ ?_
      · intro t
        rw [pendingAfter_snoc]
        exact hr t
      · intro t ht
        have h0 := hd [] u es rfl
        rw [List.append_nil] at h0
        refine List.mem_filter.2 ⟨hl t ht, ?_⟩
        rw [decide_eq_true_iff]
        rintro rfl
        rw [(hr t).1 ht] at h0
        cases h0
    | sampleAll =>
      unfold ProfState.step
      rw [if_pos (List.all_eq_true.2 fun t ht => decide_eq_true (hl t ht)), ok_bind]
      refine threads_run es _ _ hd' ?_ hl
      intro t
      rw [pendingAfter_snoc]
      exact hr t
    | start =>
      simp only [ProfState.step]
      by_cases hp : s.profiling = true
      · rw [if_pos hp]; intro h; cases h
      · rw [if_neg hp, ok_bind]
        refine threads_run es _ _ hd' ?_ hl
        intro t
        rw [pendingAfter_snoc]
        exact hr t
    | finish =>
      simp only [ProfState.step]
      by_cases hp : s.profiling = true
      · rw [if_pos hp, ok_bind]
        refine threads_run es _ _ hd' ?_ hl
        intro t
        rw [pendingAfter_snoc]
        exact hr t
      · rw [if_neg hp]; intro h; cases h

/-- C57 (partial): in every history, with threads starting and ending while the profiler takes samples,
the profiler never reads the stack of a thread whose `ThreadInfo` is freed, provided that for every thread
`ThreadExitCallback` runs before `DeleteThreadInfo`.  That order is missing from the code: see
`C57_exit_order_fails`. -/
theorem C57_samples_live_partial (es : List ProfEvent)
    (h : ∀ a t b, es = a ++ .deleteInfo t :: b → pendingAfter t a = false) :
    ProfState.run ⟨[], [], false⟩ es ≠ .error .oob :=
  threads_run es [] _ h (by intro t; simp [pendingAfter]) (by simp)

example : ∀ a t b, [ProfEvent.register 1, .start, .sampleAll, .exitCallback 1, .sampleAll, .deleteInfo 1] =
    a ++ .deleteInfo t :: b → pendingAfter t a = false := by
  intro a t b h
  rcases a with _ | ⟨e1, _ | ⟨e2, _ | ⟨e3, _ | ⟨e4, _ | ⟨e5, _ | ⟨e6, a⟩⟩⟩⟩⟩⟩ <;> simp at h
  obtain ⟨rfl, rfl, rfl, rfl, rfl, rfl, rfl⟩ := h
  rfl

/-- The violation: a thread that ends while profiling is on, whose key destructors run in the order in
which the keys were created. -/
theorem C57_exit_order_fails :
    ProfState.run ⟨[], [], false⟩
      [.register 1, .start, .sampleAll, .deleteInfo 1, .sampleAll, .exitCallback 1] = .error .oob := rfl

/-- C57: profiling is started and finished in turn, or the program aborts: a history that does not abort
has the form of `start`, `finish`, `start`, … . -/
theorem C57_start_finish : ∀ (es : List ProfEvent) (s s' : ProfState), s.run es = .ok s' →
    ((es.count .start : Int) - es.count .finish = (if s'.profiling then 1 else 0) - (if s.profiling then 1 else 0))
  | [], s, s', h => by cases h; simp
  | e :: es, s, s', h => by
    unfold ProfState.run at h
    cases hs : s.step e with
    | error x => rw [hs] at h; cases h
    | ok s1 =>
      rw [hs, ok_bind] at h
      have ih := C57_start_finish es s1 s' h
      cases e with
      | start =>
        simp only [ProfState.step] at hs
        by_cases hp : s.profiling = true
        · rw [if_pos hp] at hs; cases hs
        · rw [if_neg hp] at hs
          cases hs
          rw [List.count_cons_self, List.count_cons_of_ne (by simp), if_neg hp]
          simp only [if_true] at ih
          push_cast
          omega
      | finish =>
        simp only [ProfState.step] at hs
        by_cases hp : s.profiling = true
        · rw [if_pos hp] at hs
          cases hs
          rw [List.count_cons_self, List.count_cons_of_ne (by simp), if_pos hp]
          simp only [Bool.false_eq_true, if_false] at ih
          push_cast
          omega
        · rw [if_neg hp] at hs; cases hs
      | register t =>
        cases hs
        rw [List.count_cons_of_ne (by simp), List.count_cons_of_ne (by simp)]
        exact ih
      | exitCallback t =>
        cases hs
        rw [List.count_cons_of_ne (by simp), List.count_cons_of_ne (by simp)]
        exact ih
      | deleteInfo t =>
        cases hs
        rw [List.count_cons_of_ne (by simp), List.count_cons_of_ne (by simp)]
        exact ih
      | sampleAll =>
        simp only [ProfState.step] at hs
        rw [List.count_cons_of_ne (by simp), List.count_cons_of_ne (by simp)]
        split at hs
        · cases hs; exact ih
        · cases hs

end Gemmlowp
