import Verif.BenchAll
import Mathlib.Data.Prod.Lex
import Mathlib.Data.List.Basic
import Mathlib.Algebra.Order.Ring.Rat
/-!
# C83: the table of results of the benchmark of all sizes
-/
namespace Gemmlowp.BenchAll

/-- Depth, rows, columns, in this order of importance. -/
def key (s : Shape) : ℤ ×ₗ (ℤ ×ₗ ℤ) := toLex (s.depth, toLex (s.rows, s.cols))

theorem key_inj {a b : Shape} (h : key a = key b) : a = b := by
  obtain ⟨r, d, c⟩ := a
  obtain ⟨r', d', c'⟩ := b
  unfold key at h
  have h1 := congrArg (fun x => (ofLex x).1) h
  have h2 := congrArg (fun x => (ofLex (ofLex x).2).1) h
  have h3 := congrArg (fun x => (ofLex (ofLex x).2).2) h
  simp only [ofLex_toLex] at h1 h2 h3
  subst h1 h2 h3
  rfl

theorem less_iff {a b : Shape} : less a b = true ↔ key a < key b := by
  unfold less key
  rw [Prod.Lex.toLex_lt_toLex, Prod.Lex.toLex_lt_toLex]
  simp

/-- Strictly ascending keys. -/
def Sorted (m : Map) : Prop := m.Pairwise fun p q => key p.1 < key q.1

theorem same_iff {a b : Shape} : (!less a b && !less b a) = true ↔ a = b := by
  rw [Bool.and_eq_true, Bool.not_eq_true', Bool.not_eq_true', ← Bool.not_eq_true, ← Bool.not_eq_true, less_iff, less_iff]
  constructor
  · rintro ⟨h1, h2⟩
    exact key_inj (le_antisymm (not_lt.1 h2) (not_lt.1 h1))
  · rintro rfl
    exact ⟨lt_irrefl _, lt_irrefl _⟩

theorem find_some {m : Map} {k : Shape} {v : Rat} (h : find m k = some v) : (k, v) ∈ m := by
  unfold find at h
  obtain ⟨p, hp, rfl⟩ := Option.map_eq_some_iff.1 h
  have h1 := List.find?_some hp
  have h2 : p.1 = k := same_iff.1 h1
  rw [← h2]
  exact List.mem_of_find?_eq_some hp

theorem find_none {m : Map} {k : Shape} (h : find m k = none) (v : Rat) : (k, v) ∉ m := by
  unfold find at h
  rw [Option.map_eq_none_iff, List.find?_eq_none] at h
  intro hm
  exact h _ hm (same_iff.2 rfl)

theorem set_spec (k : Shape) (v : Rat) : ∀ m : Map, Sorted m → Sorted (set m k v) ∧
    ∀ p, p ∈ set m k v ↔ p = (k, v) ∨ (p ∈ m ∧ p.1 ≠ k) := by
  intro m
  induction m with
  | nil => intro _; simp [set, Sorted]
  | cons q m ih =>
    intro h
    obtain ⟨h1, h2⟩ := List.pairwise_cons.1 h
    obtain ⟨i1, i2⟩ := ih h2
    rw [set]
    split
    · rename_i hq
      rw [less_iff] at hq
      refine ⟨List.pairwise_cons.2 ⟨fun p hp => ?_, i1⟩, fun p => ?_⟩
      · rcases (i2 p).1 hp with rfl | ⟨hp, _⟩
        · exact hq
        · exact h1 p hp
      · rw [List.mem_cons, i2, List.mem_cons]
        have : q.1 ≠ k := fun e => by rw [e] at hq; exact lt_irrefl _ hq
        constructor
        · rintro (rfl | rfl | ⟨hp, hk⟩)
          · exact .inr ⟨.inl rfl, this⟩
          · exact .inl rfl
          · exact .inr ⟨.inr hp, hk⟩
        · rintro (rfl | ⟨rfl | hp, hk⟩)
          · exact .inr (.inl rfl)
          · exact .inl rfl
          · exact .inr (.inr ⟨hp, hk⟩)
    · rename_i hq
      rw [less_iff] at hq
      split
      · rename_i hk
        rw [less_iff] at hk
        refine ⟨List.pairwise_cons.2 ⟨fun p hp => ?_, h⟩, fun p => ?_⟩
        · rcases List.mem_cons.1 hp with rfl | hp
          · exact hk
          · exact lt_trans hk (h1 p hp)
        · rw [List.mem_cons]
          constructor
          · rintro (rfl | hp)
            · exact .inl rfl
            · refine .inr ⟨hp, fun e => ?_⟩
              rcases List.mem_cons.1 hp with rfl | hp
              · rw [e] at hk; exact lt_irrefl _ hk
              · have := lt_trans hk (h1 p hp)
                rw [e] at this
                exact lt_irrefl _ this
          · rintro (rfl | ⟨hp, _⟩)
            · exact .inl rfl
            · exact .inr hp
      · rename_i hk
        rw [less_iff] at hk
        have e : q.1 = k := key_inj (le_antisymm (not_lt.1 hk) (not_lt.1 hq))
        refine ⟨List.pairwise_cons.2 ⟨h1, h2⟩, fun p => ?_⟩
        rw [List.mem_cons, List.mem_cons, e]
        constructor
        · rintro (rfl | hp)
          · exact .inl rfl
          · refine .inr ⟨.inr hp, fun e' => ?_⟩
            have := h1 p hp
            rw [e, e'] at this
            exact lt_irrefl _ this
        · rintro (rfl | ⟨rfl | hp, hne⟩)
          · exact .inl rfl
          · exact absurd e hne
          · exact .inr hp

/-- The least latency of each shape. -/
def Best (ms : List (Shape × Rat)) (p : Shape × Rat) : Prop := p ∈ ms ∧ ∀ v, (p.1, v) ∈ ms → p.2 ≤ v

theorem best_unique {ms : List (Shape × Rat)} {s : Shape} {v v' : Rat} (h : Best ms (s, v)) (h' : Best ms (s, v')) : v = v' :=
  le_antisymm (h.2 v' h'.1) (h'.2 v h.1)

theorem exists_best {ms : List (Shape × Rat)} {s : Shape} {v : Rat} (h : (s, v) ∈ ms) : ∃ v', Best ms (s, v') := by
  induction ms generalizing v with
  | nil => cases h
  | cons x ms ih =>
    by_cases hs : ∃ v, (s, v) ∈ ms
    · obtain ⟨v1, hv1⟩ := hs
      obtain ⟨v', h1, h2⟩ := ih hv1
      by_cases hx : x.1 = s
      · obtain ⟨xs, xv⟩ := x
        dsimp only at hx
        subst hx
        rcases le_total v' xv with hle | hle
        · refine ⟨v', List.mem_cons_of_mem _ h1, fun u hu => ?_⟩
          rcases List.mem_cons.1 hu with e | hu
          · cases e; exact hle
          · exact h2 u hu
        · refine ⟨xv, by simp, fun u hu => ?_⟩
          rcases List.mem_cons.1 hu with e | hu
          · cases e; exact le_refl _
          · exact le_trans hle (h2 u hu)
      · refine ⟨v', List.mem_cons_of_mem _ h1, fun u hu => ?_⟩
        rcases List.mem_cons.1 hu with e | hu
        · rw [← e] at hx; exact absurd rfl hx
        · exact h2 u hu
    · refine ⟨v, h, fun u hu => ?_⟩
      rcases List.mem_cons.1 hu with e | hu
      · rcases List.mem_cons.1 h with e' | h
        · rw [← e] at e'; cases e'; exact le_refl _
        · exact absurd ⟨v, h⟩ hs
      · exact absurd ⟨u, hu⟩ hs

theorem record_spec {ms : List (Shape × Rat)} {m : Map} (hs : Sorted m) (hm : ∀ p, p ∈ m ↔ Best ms p) (x : Shape × Rat) :
    Sorted (record m x) ∧ ∀ p, p ∈ record m x ↔ Best (ms ++ [x]) p := by
  obtain ⟨s, l⟩ := x
  have other : ∀ p : Shape × Rat, p.1 ≠ s → (Best (ms ++ [(s, l)]) p ↔ Best ms p) := by
    intro p hp
    have e : ∀ v, (p.1, v) ∈ ms ++ [(s, l)] ↔ (p.1, v) ∈ ms := by
      intro v
      rw [List.mem_append, List.mem_singleton]
      exact ⟨fun h => h.elim id fun h => absurd (congrArg Prod.fst h) hp, .inl⟩
    unfold Best
    rw [show p = (p.1, p.2) from rfl]
    simp only [e]
  unfold record
  dsimp only
  have main : ∀ v, Best (ms ++ [(s, l)]) (s, v) → Sorted (set m s v) ∧ ∀ p, p ∈ set m s v ↔ Best (ms ++ [(s, l)]) p := by
    intro v hv
    obtain ⟨h1, h2⟩ := set_spec s v m hs
    refine ⟨h1, fun p => ?_⟩
    rw [h2, hm]
    constructor
    · rintro (rfl | ⟨hp, hne⟩)
      · exact hv
      · exact (other p hne).2 hp
    · intro hp
      by_cases hne : p.1 = s
      · obtain ⟨ps, pv⟩ := p
        dsimp only at hne
        subst hne
        rw [best_unique hp hv]
        exact .inl rfl
      · exact .inr ⟨(other p hne).1 hp, hne⟩
  cases hf : find m s with
  | none =>
    refine main l ⟨by simp, fun v hv => ?_⟩
    rcases List.mem_append.1 hv with hv | hv
    · obtain ⟨v', hb⟩ := exists_best hv
      exact absurd ((hm _).2 hb) (find_none hf v')
    · rw [List.mem_singleton] at hv
      cases hv
      exact le_refl _
  | some old =>
    obtain ⟨b1, b2⟩ := (hm _).1 (find_some hf)
    dsimp only
    split
    · rename_i hlt
      refine main old ⟨List.mem_append_left _ b1, fun v hv => ?_⟩
      rcases List.mem_append.1 hv with hv | hv
      · exact b2 v hv
      · rw [List.mem_singleton] at hv
        cases hv
        exact le_of_lt hlt
    · rename_i hlt
      refine main l ⟨by simp, fun v hv => ?_⟩
      rcases List.mem_append.1 hv with hv | hv
      · exact le_trans (not_lt.1 hlt) (b2 v hv)
      · rw [List.mem_singleton] at hv
        cases hv
        exact le_refl _

/-- **C83**: whatever is measured, in whatever order, the table is strictly ascending by depth, rows, columns, and holds
exactly the shapes that were measured, each with its least latency. -/
theorem C83_table (ms : List (Shape × Rat)) :
    (results ms).Pairwise (fun p q => key p.1 < key q.1) ∧
      (∀ p, p ∈ results ms ↔ p ∈ ms ∧ ∀ v, (p.1, v) ∈ ms → p.2 ≤ v) ∧
      ∀ s, (∃ v, (s, v) ∈ results ms) ↔ ∃ v, (s, v) ∈ ms := by
  have h : ∀ (ms done : List (Shape × Rat)) (m : Map), Sorted m → (∀ p, p ∈ m ↔ Best done p) →
      Sorted (ms.foldl record m) ∧ ∀ p, p ∈ ms.foldl record m ↔ Best (done ++ ms) p := by
    intro ms
    induction ms with
    | nil => intro done m h1 h2; rw [List.append_nil]; exact ⟨h1, h2⟩
    | cons x ms ih =>
      intro done m h1 h2
      obtain ⟨r1, r2⟩ := record_spec h1 h2 x
      have := ih (done ++ [x]) _ r1 r2
      rw [List.append_assoc] at this
      exact this
  obtain ⟨h1, h2⟩ := h ms [] [] List.Pairwise.nil (by intro p; simp [Best])
  rw [List.nil_append] at h2
  refine ⟨h1, h2, fun s => ⟨fun ⟨v, hv⟩ => ⟨v, ((h2 _).1 hv).1⟩, fun ⟨v, hv⟩ => ?_⟩⟩
  obtain ⟨v', hb⟩ := exists_best hv
  exact ⟨v', (h2 _).2 hb⟩

/-- Two strictly ascending tables with the same entries are the same. -/
theorem sorted_ext : ∀ (m m' : Map), Sorted m → Sorted m' → (∀ p, p ∈ m ↔ p ∈ m') → m = m' := by
  intro m
  induction m with
  | nil =>
    intro m' _ _ h
    exact (List.eq_nil_iff_forall_not_mem.2 fun p hp => by simpa using (h p).2 hp).symm
  | cons a m ih =>
    intro m' h1 h2 h
    obtain ⟨a1, a2⟩ := List.pairwise_cons.1 h1
    cases m' with
    | nil => exact absurd ((h a).1 (by simp)) (by simp)
    | cons b m' =>
      obtain ⟨b1, b2⟩ := List.pairwise_cons.1 h2
      have hab : a = b := by
        rcases List.mem_cons.1 ((h a).1 (by simp)) with e | ha
        · exact e
        · rcases List.mem_cons.1 ((h b).2 (by simp)) with e | hb
          · exact e.symm
          · exact absurd (lt_trans (b1 a ha) (a1 b hb)) (lt_irrefl _)
      subst hab
      congr 1
      refine ih m' a2 b2 fun p => ?_
      have hp := h p
      rw [List.mem_cons, List.mem_cons] at hp
      constructor
      · intro hm
        rcases hp.1 (.inr hm) with rfl | h
        · exact absurd (a1 _ hm) (lt_irrefl _)
        · exact h
      · intro hm
        rcases hp.2 (.inr hm) with rfl | h
        · exact absurd (b1 _ hm) (lt_irrefl _)
        · exact h

/-- **C83**: shuffling the measurements does not change the table. -/
theorem C83_shuffle {ms ms' : List (Shape × Rat)} (h : ms.Perm ms') : results ms = results ms' := by
  obtain ⟨h1, h2, _⟩ := C83_table ms
  obtain ⟨h1', h2', _⟩ := C83_table ms'
  refine sorted_ext _ _ h1 h1' fun p => ?_
  rw [h2, h2']
  simp only [h.mem_iff]

/-- A table with a shape that is measured twice. -/
example : results [(⟨2, 8, 1⟩, 5), (⟨1, 8, 1⟩, 4), (⟨2, 8, 1⟩, 3), (⟨9, 4, 9⟩, 7)] =
    [(⟨9, 4, 9⟩, 7), (⟨1, 8, 1⟩, 4), (⟨2, 8, 1⟩, 3)] := by decide +kernel

end Gemmlowp.BenchAll
