/- Facts about bits of natural numbers. -/
namespace Strace.Base

theorem and_two_pow_ne_zero (n i : Nat) : n &&& 2 ^ i ≠ 0 ↔ n.testBit i = true := by
  constructor
  · intro h
    by_cases hb : n.testBit i = true
    · exact hb
    · exfalso
      apply h
      apply Nat.eq_of_testBit_eq
      intro j
      rw [Nat.testBit_and, Nat.testBit_two_pow, Nat.zero_testBit]
      by_cases hij : i = j
      · subst hij; simp [hb]
      · simp [hij]
  · intro h h0
    have : (n &&& 2 ^ i).testBit i = true := by rw [Nat.testBit_and, Nat.testBit_two_pow]; simp [h]
    rw [h0] at this
    simp at this

/-- the number of one bits -/
def popcount (x : Nat) : Nat := if h : x = 0 then 0 else x % 2 + popcount (x / 2)
termination_by x
decreasing_by omega

theorem popcount_zero : popcount 0 = 0 := by unfold popcount; simp

theorem popcount_step (x : Nat) : popcount x = x % 2 + popcount (x / 2) := by
  by_cases h : x = 0
  · subst h; simp [popcount_zero]
  · conv => lhs; unfold popcount
    rw [dif_neg h]

theorem popcount_pos {x : Nat} (h : x ≠ 0) : 0 < popcount x := by
  induction x using Nat.strongRecOn with
  | ind x ih =>
    rw [popcount_step]
    by_cases h2 : x % 2 = 0
    · have := ih (x / 2) (by omega) (by omega); omega
    · omega

/-- number of one bits below `k`, counted by `testBit` -/
theorem popcount_eq_count (k x : Nat) (h : x < 2 ^ k) :
    popcount x = ((List.range k).filter fun i => x.testBit i).length := by
  induction k generalizing x with
  | zero =>
    have : x = 0 := by simp at h; omega
    subst this; simp [popcount_zero]
  | succ k ih =>
    rw [popcount_step, ih (x / 2) (by rw [Nat.pow_succ] at h; omega), List.range_succ_eq_map, List.filter_cons,
      List.filter_map]
    have e : ((fun i => x.testBit i) ∘ Nat.succ) = fun i => (x / 2).testBit i := by
      funext i; simp [Nat.testBit_succ]
    rw [e]
    have h0 : x.testBit 0 = decide (x % 2 = 1) := Nat.testBit_zero x
    rw [h0]
    by_cases h1 : x % 2 = 1
    · simp [h1]; omega
    · have : x % 2 = 0 := by omega
      simp [this]

/-- the Kernighan step clears the lowest one bit -/
theorem popcount_and_pred {x : Nat} (h : x ≠ 0) : popcount x = popcount (x &&& (x - 1)) + 1 := by
  induction x using Nat.strongRecOn with
  | ind x ih =>
    rw [popcount_step x, popcount_step (x &&& (x - 1)), Nat.and_div_two]
    have hm : (x &&& (x - 1)) % 2 = 0 := by
      have := Nat.testBit_and x (x - 1) 0
      rw [Nat.testBit_zero, Nat.testBit_zero, Nat.testBit_zero] at this
      have h2 : ¬ ((x &&& (x - 1)) % 2 = 1) := by
        intro h3
        rw [h3] at this
        simp at this
        omega
      omega
    rw [hm]
    by_cases h2 : x % 2 = 1
    · have : (x - 1) / 2 = x / 2 := by omega
      rw [this, Nat.and_self, h2]; omega
    · have e : (x - 1) / 2 = x / 2 - 1 := by omega
      rw [e, ih (x / 2) (by omega) (by omega)]
      omega

end Strace.Base
