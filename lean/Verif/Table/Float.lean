import Verif.Table.Model
/-! Facts about rounding. -/
namespace Strace.Table

theorem S_pos : 0 < S := by unfold S; exact Nat.two_pow_pos _

theorem near_le_iff (a b k : Nat) (hb : 0 < b) :
    near a b ≤ k ↔ 2 * a < (2 * k + 1) * b ∨ (2 * a = (2 * k + 1) * b ∧ k % 2 = 0) := by
  have hd := Nat.div_add_mod a b
  have hm := Nat.mod_lt a hb
  generalize hq : a / b = q at hd
  generalize hr : a % b = r at hd hm
  have e1 : (2 * k + 1) * b = 2 * (b * k) + b := by rw [Nat.add_mul, Nat.one_mul, Nat.mul_assoc, Nat.mul_comm k b]
  have mono : ∀ i j : Nat, i ≤ j → b * i ≤ b * j := fun i j h => Nat.mul_le_mul_left b h
  unfold near
  rw [hq, hr, e1]
  rcases Nat.lt_trichotomy q k with h | h | h
  · have h1 := mono (q + 1) k h
    rw [Nat.mul_succ] at h1
    constructor
    · intro _; left; omega
    · intro _; split
      · omega
      · split
        · omega
        · split <;> omega
  · subst h
    split
    · constructor <;> intro <;> omega
    · split
      · constructor <;> intro <;> omega
      · split <;> constructor <;> intro <;> omega
  · have h1 := mono (k + 1) q h
    rw [Nat.mul_succ] at h1
    constructor
    · intro h2
      split at h2
      · omega
      · split at h2
        · omega
        · split at h2 <;> omega
    · intro h2; omega

theorem near_mono (a b a' b' : Nat) (hb : 0 < b) (hb' : 0 < b') (h : a * b' ≤ a' * b) : near a b ≤ near a' b' := by
  rw [near_le_iff a b _ hb]
  have h' := (near_le_iff a' b' (near a' b') hb').mp (Nat.le_refl _)
  generalize near a' b' = k at h'
  -- 2 a b' ≤ 2 a' b
  rcases h' with h' | ⟨h', he⟩
  · left
    have h2 : 2 * a * b' < (2 * k + 1) * b * b' := by
      have h3 : 2 * a' * b < (2 * k + 1) * b' * b := Nat.mul_lt_mul_of_pos_right h' hb
      have h4 : 2 * a * b' ≤ 2 * a' * b := by rw [Nat.mul_assoc, Nat.mul_assoc]; omega
      have h5 : (2 * k + 1) * b' * b = (2 * k + 1) * b * b' := by rw [Nat.mul_assoc, Nat.mul_comm b' b, ← Nat.mul_assoc]
      omega
    exact Nat.lt_of_mul_lt_mul_right h2
  · have h2 : 2 * a * b' ≤ (2 * k + 1) * b * b' := by
      have h3 : 2 * a' * b = (2 * k + 1) * b' * b := by rw [h']
      have h4 : 2 * a * b' ≤ 2 * a' * b := by rw [Nat.mul_assoc, Nat.mul_assoc]; omega
      have h5 : (2 * k + 1) * b' * b = (2 * k + 1) * b * b' := by rw [Nat.mul_assoc, Nat.mul_comm b' b, ← Nat.mul_assoc]
      omega
    have h3 := Nat.le_of_mul_le_mul_right h2 hb'
    rcases Nat.lt_or_eq_of_le h3 with h4 | h4
    · exact Or.inl h4
    · exact Or.inr ⟨h4, he⟩

theorem near_err (a b : Nat) (hb : 0 < b) : 2 * (near a b * b) ≤ 2 * a + b ∧ 2 * a ≤ 2 * (near a b * b) + b := by
  have hd := Nat.div_add_mod a b
  have hm := Nat.mod_lt a hb
  unfold near
  generalize a / b = q at *
  generalize a % b = r at *
  have e1 : q * b = b * q := Nat.mul_comm _ _
  have e2 : (q + 1) * b = b * q + b := by rw [Nat.add_mul, Nat.one_mul, e1]
  split
  · rw [e1]; omega
  · split
    · rw [e2]; omega
    · split
      · rw [e1]; omega
      · rw [e2]; omega

theorem near_mul (k b : Nat) (hb : 0 < b) : near (k * b) b = k := by
  have h := near_err (k * b) b hb
  unfold near
  rw [Nat.mul_div_cancel _ hb, Nat.mul_mod_left]
  simp [hb]

theorem ulp_pos (q : Nat) : 0 < ulp q := Nat.two_pow_pos _

/-- the relative error of a rounding is at most 2^-53 -/
theorem fl_err (a b : Nat) (hb : 0 < b) :
    2 ^ 53 * (fl a b * b) ≤ 2 ^ 53 * a + a + 2 ^ 52 * b ∧ 2 ^ 53 * a ≤ 2 ^ 53 * (fl a b * b) + a + 2 ^ 52 * b := by
  have hu := ulp_pos (a / b)
  have hn := near_err a (b * ulp (a / b)) (Nat.mul_pos hb hu)
  have e : fl a b * b = near a (b * ulp (a / b)) * (b * ulp (a / b)) := by
    unfold fl; rw [Nat.mul_assoc, Nat.mul_comm (ulp _) b]
  rw [e]
  generalize near a (b * ulp (a / b)) * (b * ulp (a / b)) = x at hn
  have hU : 2 ^ 52 * (b * ulp (a / b)) ≤ a + 2 ^ 52 * b := by
    unfold ulp
    by_cases hl : 52 ≤ Nat.log2 (a / b)
    · have hq : a / b ≠ 0 := by
        intro h0; rw [h0] at hl; simp at hl
      have h1 := Nat.log2_self_le hq
      have h2 : 2 ^ 52 * 2 ^ (Nat.log2 (a / b) - 52) = 2 ^ Nat.log2 (a / b) := by
        rw [← Nat.pow_add]; congr 1; omega
      have h3 : 2 ^ 52 * (b * 2 ^ (Nat.log2 (a / b) - 52)) = b * 2 ^ Nat.log2 (a / b) := by
        rw [← h2, Nat.mul_left_comm]
      rw [h3]
      have h4 : b * 2 ^ Nat.log2 (a / b) ≤ b * (a / b) := Nat.mul_le_mul_left _ h1
      have h5 : b * (a / b) ≤ a := Nat.mul_div_le a b
      omega
    · have h0 : Nat.log2 (a / b) - 52 = 0 := by omega
      rw [h0]
      omega
  omega

theorem log2_mono (m n : Nat) (h : m ≤ n) : Nat.log2 m ≤ Nat.log2 n := by
  by_cases hm : m = 0
  · subst hm; simp
  · have hn : n ≠ 0 := by omega
    rw [Nat.le_log2 hn]
    exact Nat.le_trans (Nat.log2_self_le hm) h

theorem near_ge (a b k : Nat) (hb : 0 < b) (h : k * b ≤ a) : k ≤ near a b := by
  rw [← near_mul k b hb]
  exact near_mono _ _ _ _ hb hb (Nat.mul_le_mul_right b h)

theorem near_le (a b k : Nat) (hb : 0 < b) (h : a ≤ k * b) : near a b ≤ k := by
  have := near_mono a b (k * b) b hb hb (Nat.mul_le_mul_right b h)
  rwa [near_mul k b hb] at this

theorem fl_mono (a b a' b' : Nat) (hb : 0 < b) (hb' : 0 < b') (h : a * b' ≤ a' * b) : fl a b ≤ fl a' b' := by
  have hq : a / b ≤ a' / b' := by
    rw [Nat.le_div_iff_mul_le hb']
    have h1 : a / b * b' * b ≤ a' * b := by
      have h2 : a / b * b * b' ≤ a * b' := Nat.mul_le_mul_right b' (Nat.div_mul_le_self a b)
      rw [Nat.mul_assoc, Nat.mul_comm b' b, ← Nat.mul_assoc]
      omega
    exact Nat.le_of_mul_le_mul_right h1 hb
  have hl := log2_mono _ _ hq
  by_cases he : Nat.log2 (a / b) - 52 = Nat.log2 (a' / b') - 52
  · unfold fl ulp
    rw [he]
    apply Nat.mul_le_mul_right
    apply near_mono
    · exact Nat.mul_pos hb (Nat.two_pow_pos _)
    · exact Nat.mul_pos hb' (Nat.two_pow_pos _)
    · rw [← Nat.mul_assoc, ← Nat.mul_assoc]
      exact Nat.mul_le_mul_right _ h
  · -- a power of two between them
    have hlt : Nat.log2 (a / b) < Nat.log2 (a' / b') := by omega
    have h53 : 53 ≤ Nat.log2 (a' / b') := by omega
    generalize hL : Nat.log2 (a' / b') = L at *
    have hq' : a' / b' ≠ 0 := by
      intro h0; rw [h0] at hL; simp at hL; omega
    have h1 : 2 ^ L ≤ fl a' b' := by
      unfold fl ulp
      rw [hL]
      have h2 : (2 : Nat) ^ L = 2 ^ 52 * 2 ^ (L - 52) := by rw [← Nat.pow_add]; congr 1; omega
      rw [h2]
      apply Nat.mul_le_mul_right
      apply near_ge _ _ _ (Nat.mul_pos hb' (Nat.two_pow_pos _))
      rw [Nat.mul_left_comm, ← h2]
      have h3 : b' * 2 ^ L ≤ b' * (a' / b') := Nat.mul_le_mul_left _ (hL ▸ Nat.log2_self_le hq')
      have h4 : b' * (a' / b') ≤ a' := Nat.mul_div_le a' b'
      omega
    have h5 : fl a b ≤ 2 ^ L := by
      unfold fl ulp
      generalize hl0 : Nat.log2 (a / b) = l at *
      have h6 : (2 : Nat) ^ L = 2 ^ (L - (l - 52)) * 2 ^ (l - 52) := by rw [← Nat.pow_add]; congr 1; omega
      rw [h6]
      apply Nat.mul_le_mul_right
      apply near_le _ _ _ (Nat.mul_pos hb (Nat.two_pow_pos _))
      rw [Nat.mul_left_comm, ← h6]
      have h7 : a / b < 2 ^ (l + 1) := by rw [← hl0]; exact Nat.lt_log2_self
      have h8 : (2 : Nat) ^ (l + 1) ≤ 2 ^ L := Nat.pow_le_pow_right (by omega) hlt
      have h9 : a < b * 2 ^ L := by
        rw [Nat.mul_comm]
        exact (Nat.div_lt_iff_lt_mul hb).mp (Nat.lt_of_lt_of_le h7 h8)
      omega
    omega

end Strace.Table
