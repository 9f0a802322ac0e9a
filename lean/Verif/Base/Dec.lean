/-
Decimal text: the contract of printf's %u / %0*u conversions, as functions on character codes, and the
reading back of such text.  Used by the areas whose output holds numbers.
-/
namespace Strace.Base

/-- printf "%u" (libc contract) -/
def dec (n : Nat) : List Nat :=
  if h : n < 10 then [48 + n] else dec (n / 10) ++ [48 + n % 10]
termination_by n
decreasing_by omega

/-- printf "%0*u" with width `w` (libc contract) -/
def decPad (w n : Nat) : List Nat := List.replicate (w - (dec n).length) 48 ++ dec n

/-- the number a digit string denotes -/
def readDec (l : List Nat) : Nat := l.foldl (fun a c => a * 10 + (c - 48)) 0

theorem readDec_append_singleton (l : List Nat) (c : Nat) : readDec (l ++ [c]) = readDec l * 10 + (c - 48) := by
  simp [readDec, List.foldl_append]

theorem foldl_acc (l : List Nat) (a : Nat) :
    l.foldl (fun a c => a * 10 + (c - 48)) a = a * 10 ^ l.length + readDec l := by
  induction l generalizing a with
  | nil => simp [readDec]
  | cons c cs ih =>
    unfold readDec
    simp only [List.foldl_cons, List.length_cons]
    rw [ih, ih (0 * 10 + (c - 48)), Nat.add_mul, Nat.pow_succ, Nat.add_mul]
    simp [Nat.mul_assoc, Nat.mul_comm 10, Nat.add_assoc]

theorem readDec_append (a b : List Nat) : readDec (a ++ b) = readDec a * 10 ^ b.length + readDec b := by
  conv => lhs; unfold readDec
  rw [List.foldl_append, foldl_acc]; rfl

theorem readDec_dec (n : Nat) : readDec (dec n) = n := by
  induction n using Nat.strongRecOn with
  | ind n ih =>
    unfold dec
    split
    · simp [readDec]
    · rw [readDec_append_singleton, ih (n / 10) (by omega)]; omega

theorem dec_inj {m n : Nat} (h : dec m = dec n) : m = n := by
  rw [← readDec_dec m, ← readDec_dec n, h]

theorem dec_digit (n : Nat) : ∀ c ∈ dec n, 48 ≤ c ∧ c ≤ 57 := by
  induction n using Nat.strongRecOn with
  | ind n ih =>
    unfold dec
    split
    · intro c hc; simp at hc; omega
    · intro c hc
      rcases List.mem_append.1 hc with h | h
      · exact ih (n / 10) (by omega) c h
      · simp at h; omega

theorem dec_ne_nil (n : Nat) : dec n ≠ [] := by
  unfold dec; split <;> simp

theorem dec_length_le (n k : Nat) (hk : 0 < k) (h : n < 10 ^ k) : (dec n).length ≤ k := by
  induction n using Nat.strongRecOn generalizing k with
  | ind n ih =>
    unfold dec
    split
    · simp; omega
    · rename_i hn
      obtain ⟨k, rfl⟩ : ∃ j, k = j + 1 := ⟨k - 1, by omega⟩
      have hk0 : 0 < k := by
        rcases Nat.eq_zero_or_pos k with rfl | h0
        · simp at h; omega
        · exact h0
      have := ih (n / 10) (by omega) k hk0 (by rw [Nat.pow_succ] at h; omega)
      simp; omega

theorem readDec_zeros (k : Nat) (l : List Nat) : readDec (List.replicate k 48 ++ l) = readDec l := by
  rw [readDec_append]
  have : readDec (List.replicate k 48) = 0 := by
    induction k with
    | zero => rfl
    | succ k ih => rw [List.replicate_succ', readDec_append_singleton, ih]
  rw [this]; simp

theorem readDec_decPad (w n : Nat) : readDec (decPad w n) = n := by
  unfold decPad; rw [readDec_zeros, readDec_dec]

theorem decPad_length (w n : Nat) (hw : 0 < w) (h : n < 10 ^ w) : (decPad w n).length = w := by
  have := dec_length_le n w hw h
  unfold decPad; simp; omega

theorem decPad_digit (w n : Nat) : ∀ c ∈ decPad w n, 48 ≤ c ∧ c ≤ 57 := by
  intro c hc
  rcases List.mem_append.1 hc with h | h
  · have := List.eq_of_mem_replicate h; omega
  · exact dec_digit n c h

end Strace.Base
