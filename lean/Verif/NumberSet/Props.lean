import Verif.NumberSet.Lemmas
/-
C02: a number set behaves as a mathematical set under every history.
C03: the "everything is selected" shortcut.
-/
namespace Strace.NumberSet

/-! ### Specification: what the same history does to a mathematical set of naturals -/

/-- the mathematical set, as its membership function -/
abbrev MSet := Nat → Bool

/-- "add" inserts into the *explicit* part, "invert" complements the result, "clear" empties.
A set with complement flag `neg` and explicit part `e` denotes `e` or its complement. -/
structure Spec where
  explicit : MSet
  neg : Bool

def Spec.mem (s : Spec) (n : Nat) : Bool := if s.neg then !s.explicit n else s.explicit n

def Spec.step (s : Spec) : Op → Spec
  | .add k => { s with explicit := fun n => s.explicit n || n == k }
  | .invert => { s with neg := !s.neg }
  | .clear => ⟨fun _ => false, false⟩

def Spec.run (h : List Op) : Spec := h.foldl Spec.step ⟨fun _ => false, false⟩

/-! ### C02 -/

/-- the coupling invariant -/
def Sim (s : NSet) (m : Spec) : Prop := s.neg = m.neg ∧ ∀ n, bit s.vec n = m.explicit n

theorem sim_step (s : NSet) (m : Spec) (o : Op) (h : Sim s m) : Sim (apply s o) (m.step o) := by
  obtain ⟨h1, h2⟩ := h
  cases o with
  | add k =>
    refine ⟨?_, ?_⟩
    · simp only [apply, addNumber, Spec.step, realloc_neg]; exact h1
    · intro n
      simp only [apply, Spec.step, bit_addNumber, h2]
      rfl
  | invert => exact ⟨by simp [apply, invert, Spec.step, h1], h2⟩
  | clear => exact ⟨rfl, fun n => by simp [apply, Spec.step, bit_clear]⟩

theorem sim_run (h : List Op) : Sim (run h) (Spec.run h) := by
  have gen : ∀ s m, Sim s m → Sim (h.foldl apply s) (h.foldl Spec.step m) := by
    induction h with
    | nil => intro s m hs; exact hs
    | cons o h ih => intro s m hs; exact ih _ _ (sim_step s m o hs)
  exact gen _ _ ⟨rfl, fun n => by simp [empty, bit]⟩

/-- C02.  After every history, for every number, the membership query is free of undefined behaviour
and answers as the mathematical set does. -/
theorem numberSet_refines (h : List Op) (n : Nat) :
    isNumberInSet n (run h) = some ((Spec.run h).mem n) := by
  obtain ⟨h1, h2⟩ := sim_run h
  rw [isNumberInSet_eq, h1, h2 n]
  unfold Spec.mem
  split <;> simp_all

/-- C02, the individual laws on an arbitrary reachable set, in terms of membership only (with no
complement flag in the statement): adding to a set that was last cleared. -/
theorem mem_add_of_cleared (h : List Op) (ks : List Nat) (n : Nat) :
    isNumberInSet n (run (h ++ .clear :: ks.map .add)) = some (decide (n ∈ ks)) := by
  rw [numberSet_refines]
  have : ∀ (m : Spec), (ks.map Op.add).foldl Spec.step m =
      ⟨fun n => m.explicit n || decide (n ∈ ks), m.neg⟩ := by
    induction ks with
    | nil => intro m; simp
    | cons k ks ih =>
      intro m
      simp only [List.map_cons, List.foldl_cons, ih, Spec.step]
      congr 1
      funext x
      have : (x == k) = decide (x = k) := rfl
      by_cases hx : x = k <;> simp [hx, this]
  unfold Spec.run
  rw [List.foldl_append, List.foldl_cons, this]
  simp [Spec.step, Spec.mem]

/-- inverting complements membership of every number -/
theorem mem_invert (h : List Op) (n : Nat) (b : Bool) (hb : isNumberInSet n (run h) = some b) :
    isNumberInSet n (run (h ++ [.invert])) = some (!b) := by
  rw [numberSet_refines] at hb ⊢
  injection hb with hb
  subst hb
  unfold Spec.run
  rw [List.foldl_append]
  simp only [List.foldl_cons, List.foldl_nil, Spec.step, Spec.mem]
  generalize List.foldl Spec.step { explicit := fun x => false, neg := false } h = m
  obtain ⟨e, b⟩ := m
  cases b <;> simp

/-- the "set is empty" test (used to skip injection rules) never claims emptiness of a set with a
member -/
theorem isEmptySet_sound (h : List Op) (he : isEmptySet (run h) = true) (n : Nat) :
    isNumberInSet n (run h) = some false := by
  rw [isNumberInSet_eq]
  have hv : (run h).vec = [] ∧ (run h).neg = false := by
    unfold isEmptySet at he; simpa using he
  simp [hv.1, hv.2, bit]

example : isNumberInSet 70 (run [.add 3, .add 70, .invert]) = some false := by decide
example : isNumberInSet 1000 (run [.add 3, .add 70, .invert]) = some true := by decide
example : isNumberInSet 70 (run [.add 70, .clear, .add 5]) = some false := by decide

/-! ### C03 -/

/-- number of `n < max` with `p n` -/
def countBelow (max : Nat) (p : Nat → Bool) : Nat := ((List.range max).filter p).length

theorem countBelow_add (a b : Nat) (p : Nat → Bool) :
    countBelow (a + b) p = countBelow a p + countBelow b (fun i => p (a + i)) := by
  unfold countBelow
  rw [List.range_add, List.filter_append, List.length_append, List.filter_map, List.length_map]
  rfl

theorem popcount32_acc (v : List (BitVec 32)) (a : Nat) :
    v.foldl (fun c x => c + popcount x) a = a + popcount32 v := by
  unfold popcount32
  induction v generalizing a with
  | nil => simp
  | cons x v ih => simp only [List.foldl_cons]; rw [ih, ih (0 + popcount x)]; omega

theorem popcount32_cons (x : BitVec 32) (v : List (BitVec 32)) :
    popcount32 (x :: v) = popcount x + popcount32 v := by
  show List.foldl _ _ _ = _
  rw [List.foldl_cons, popcount32_acc]; omega

theorem popcount32_eq_countBelow (v : List (BitVec 32)) :
    popcount32 v = countBelow (32 * v.length) (bit v) := by
  induction v with
  | nil => rfl
  | cons x v ih =>
    rw [popcount32_cons, List.length_cons, show 32 * (v.length + 1) = 32 + 32 * v.length by omega,
      countBelow_add, ih]
    have e1 : popcount x = countBelow 32 (bit (x :: v)) := by
      unfold popcount countBelow
      refine congrArg List.length (List.filter_congr ?_)
      intro i hi
      simp at hi
      unfold bit
      rw [show i / 32 = 0 by omega, show i % 32 = i by omega]
      rfl
    have e2 : (fun i => bit (x :: v) (32 + i)) = bit v := by
      funext i
      unfold bit
      rw [show (32 + i) / 32 = i / 32 + 1 by omega, show (32 + i) % 32 = i % 32 by omega,
        List.getElem?_cons_succ]
    rw [e1, e2]

theorem countBelow_ext_zero (p : Nat → Bool) (a b : Nat) (h : a ≤ b) (hz : ∀ n, a ≤ n → p n = false) :
    countBelow b p = countBelow a p := by
  obtain ⟨c, rfl⟩ := Nat.exists_eq_add_of_le h
  rw [countBelow_add]
  have : countBelow c (fun i => p (a + i)) = 0 := by
    unfold countBelow
    rw [List.length_eq_zero_iff, List.filter_eq_nil_iff]
    intro i _
    simp [hz (a + i) (by omega)]
  omega

theorem countBelow_le (max : Nat) (p : Nat → Bool) : countBelow max p ≤ max := by
  unfold countBelow
  have := List.length_filter_le p (List.range max)
  simpa using this

theorem countBelow_full_iff (max : Nat) (p : Nat → Bool) :
    countBelow max p = max ↔ ∀ n, n < max → p n = true := by
  unfold countBelow
  constructor
  · intro h n hn
    have : (List.range max).filter p = List.range max :=
      List.filter_sublist.eq_of_length (by simpa using h)
    have hmem : n ∈ (List.range max).filter p := by rw [this]; simpa using hn
    exact (List.mem_filter.mp hmem).2
  · intro h
    rw [List.filter_eq_self.2]
    · simp
    · intro a ha; exact h a (by simpa using ha)

/-- Full C03 would be: for every history `h` all of whose added numbers are below `max`,
`isComplete (run h) max = true → ∀ n < max, isNumberInSet n (run h) = some true`.
It is false of the code (`isComplete_unsound`).  What holds, and is proved here, is the statement for
the histories after which the set is not complemented; there the test is exact. -/
theorem isComplete_sound_partial (h : List Op) (max : Nat) (hmax : ∀ k, Op.add k ∈ h → k < max)
    (hneg : (run h).neg = false) :
    isComplete (run h) max = true ↔ ∀ n, n < max → isNumberInSet n (run h) = some true := by
  have hz : ∀ n, max ≤ n → bit (run h).vec n = false := by
    intro n hn
    obtain ⟨_, h2⟩ := sim_run h
    rw [h2 n]
    have gen : ∀ (l : List Op) (m : Spec), (∀ k, Op.add k ∈ l → k < max) → m.explicit n = false →
        (l.foldl Spec.step m).explicit n = false := by
      intro l
      induction l with
      | nil => intro m _ hm; exact hm
      | cons o l ih =>
        intro m hl hm
        refine ih _ (fun k hk => hl k (by simp [hk])) ?_
        cases o with
        | add k =>
          have hkn : k ≠ n := by have := hl k (by simp); omega
          have : (n == k) = false := by simp; omega
          simp [Spec.step, hm, this]
        | invert => simpa [Spec.step] using hm
        | clear => rfl
    exact gen h _ hmax rfl
  have hpop : popcount32 (run h).vec = countBelow max (bit (run h).vec) := by
    rw [popcount32_eq_countBelow]
    have hz' : ∀ n, 32 * (run h).vec.length ≤ n → bit (run h).vec n = false :=
      fun n hn => bit_ge _ _ (by omega)
    by_cases hc : max ≤ 32 * (run h).vec.length
    · exact countBelow_ext_zero _ _ _ hc hz
    · exact (countBelow_ext_zero _ _ _ (by omega) hz').symm
  unfold isComplete
  rw [hneg, hpop]
  simp only [Bool.false_and, Bool.false_or, beq_iff_eq]
  rw [countBelow_full_iff]
  constructor
  · intro hh n hn; rw [isNumberInSet_eq, hneg, hh n hn]; rfl
  · intro hh n hn
    have := hh n hn
    rw [isNumberInSet_eq, hneg] at this
    simpa using this

/-- The other disjunct: a freshly inverted, never populated set is complete and contains everything. -/
theorem isComplete_inverted_partial (h : List Op) (hneg : (run h).neg = true)
    (hv : (run h).vec = []) (max : Nat) :
    isComplete (run h) max = true ∧ ∀ n, isNumberInSet n (run h) = some true := by
  constructor
  · simp [isComplete, hneg, hv]
  · intro n; rw [isNumberInSet_eq, hneg, hv]; rfl

/-- C03 is false of the code: after `-e status='!successful,failed,unfinished,unavailable,detached'`
(number_set.h: NUMBER_OF_STATUSES = 5) the set is declared complete although it contains none of the
five statuses, so strace prints every syscall instead of none. -/
theorem isComplete_unsound :
    let h : List Op := [.clear, .invert, .add 0, .add 1, .add 2, .add 3, .add 4]
    isComplete (run h) 5 = true ∧ ∀ n, n < 5 → isNumberInSet n (run h) = some false := by
  decide

/-- The test also misses complete sets: `-e status=failed -e status=all` selects everything but is not
recognised as complete. -/
theorem isComplete_incomplete :
    let h : List Op := [.clear, .add 1, .clear, .invert]
    isComplete (run h) 5 = false ∧ ∀ n, isNumberInSet n (run h) = some true := by
  refine ⟨by decide, fun n => ?_⟩
  rw [numberSet_refines]; rfl

example : isComplete (run [.add 0, .add 1, .add 2]) 3 = true ∧ (run [.add 0, .add 1, .add 2]).neg = false := by
  decide

end Strace.NumberSet
