import Verif.Tsf.Spec
import Verif.Table.Float
/-!
# The arithmetic of binary64 in `parse_ts`
-/
namespace Strace.Tsf
open Strace.Time Strace.Tsf.Spec
open Strace.Table (fl ulp near near_err near_mul ulp_pos fl_err fl_mono log2_mono)

/-- `v` is a double: it has 53 significant bits. -/
def Double (v : Nat) : Prop := ulp v ∣ v

/-- A double is not rounded. -/
theorem fl_of_double {v : Nat} (h : Double v) : fl v 1 = v := by
  obtain ⟨k, hk⟩ := h
  unfold fl
  rw [Nat.div_one, Nat.one_mul]
  generalize hu : ulp v = u at hk
  have hpos : 0 < u := by rw [← hu]; exact ulp_pos v
  rw [hk, Nat.mul_comm u k, near_mul k u hpos]

theorem ulp_dvd {a b : Nat} (h : a ≤ b) : ulp a ∣ ulp b := by
  unfold ulp
  have := log2_mono a b h
  exact Nat.pow_dvd_pow 2 (by omega)

theorem lt_ulp (x : Nat) : x < ulp x * 2 ^ 53 := by
  unfold ulp
  rw [← Nat.pow_add]
  refine Nat.lt_of_lt_of_le Nat.lt_log2_self (Nat.pow_le_pow_right (by omega) (by omega))

/-- Rounding gives a double. -/
theorem double_fl (a b : Nat) (hb : 0 < b) : Double (fl a b) := by
  unfold Double
  generalize hq : a / b = q
  have hpos := ulp_pos q
  have e : fl a b = near a (b * ulp q) * ulp q := by unfold fl; rw [hq]
  -- at most the next power of two
  by_cases hl : 52 ≤ Nat.log2 q
  · have h1 : near a (b * ulp q) ≤ 2 ^ 53 := by
      refine Strace.Table.near_le _ _ _ (Nat.mul_pos hb hpos) ?_
      have h2 : a < b * (q + 1) := by
        rw [← hq]; exact Nat.lt_mul_div_succ a hb
      have h3 : q + 1 ≤ ulp q * 2 ^ 53 := lt_ulp q
      have h4 : b * (q + 1) ≤ b * (ulp q * 2 ^ 53) := Nat.mul_le_mul_left _ h3
      have h5 : 2 ^ 53 * (b * ulp q) = b * (ulp q * 2 ^ 53) := by
        rw [Nat.mul_comm (2 ^ 53), Nat.mul_assoc]
      rw [h5]
      omega
    by_cases h6 : near a (b * ulp q) = 2 ^ 53
    · rw [e, h6]
      have h7 : 2 ^ 53 * ulp q = 2 ^ (53 + (Nat.log2 q - 52)) := by unfold ulp; rw [← Nat.pow_add]
      rw [h7]
      unfold ulp
      rw [Nat.log2_two_pow]
      exact Nat.pow_dvd_pow 2 (by omega)
    · have h7 : fl a b < 2 ^ 53 * ulp q := by
        rw [e]; exact Nat.mul_lt_mul_of_pos_right (by omega) hpos
      have h8 : fl a b < 2 ^ (53 + (Nat.log2 q - 52)) := by
        have : 2 ^ 53 * ulp q = 2 ^ (53 + (Nat.log2 q - 52)) := by unfold ulp; rw [← Nat.pow_add]
        omega
      have h9 : ulp (fl a b) ∣ ulp q := by
        unfold ulp
        refine Nat.pow_dvd_pow 2 ?_
        by_cases h0 : fl a b = 0
        · rw [h0]; simp
        · have := (Nat.log2_lt h0).2 h8
          omega
      exact Nat.dvd_trans h9 (by rw [e]; exact Nat.dvd_mul_left _ _)
  · have h0 : ulp q = 1 := by unfold ulp; rw [show Nat.log2 q - 52 = 0 by omega]
    have h1 : fl a b ≤ 2 ^ 52 := by
      rw [e, h0, Nat.mul_one, Nat.mul_one]
      refine Strace.Table.near_le _ _ _ hb ?_
      have h2 : a < b * (q + 1) := by rw [← hq]; exact Nat.lt_mul_div_succ a hb
      have h3 : q < 2 ^ (Nat.log2 q + 1) := Nat.lt_log2_self
      have h4 : (2 : Nat) ^ (Nat.log2 q + 1) ≤ 2 ^ 52 := Nat.pow_le_pow_right (by omega) (by omega)
      have h5 : b * (q + 1) ≤ b * 2 ^ 52 := Nat.mul_le_mul_left _ (by omega)
      rw [Nat.mul_comm (2 ^ 52)]
      omega
    have h2 := ulp_dvd h1
    have h3 : ulp (2 ^ 52) = 1 := by unfold ulp; rw [Nat.log2_two_pow]
    rw [h3] at h2
    exact Nat.dvd_trans h2 (Nat.one_dvd _)

/-- Rounding does not go over a number that is a multiple of what separates doubles. -/
theorem fl_lt {x a b Y Z : Nat} (ha : 0 < a) (hb : 0 < b) (hx : Double x) (hz : ulp x ∣ Z) (hlt : x < Z) (he : a * Z = Y * b)
    (hY : 2 ^ 54 ≤ Y) : fl (x * a) b < Y := by
  refine Classical.byContradiction fun hn => ?_
  have hF : Y ≤ fl (x * a) b := Nat.le_of_not_lt hn
  generalize hq : x * a / b = q at *
  generalize hU : ulp q = U
  generalize hW : ulp x = W at *
  have hupos : 0 < U := by rw [← hU]; exact ulp_pos q
  have herr := (near_err (x * a) (b * U) (Nat.mul_pos hb hupos)).1
  have e : fl (x * a) b * b = near (x * a) (b * U) * (b * U) := by
    unfold fl; rw [hq, hU, Nat.mul_assoc, Nat.mul_comm U b]
  rw [← e] at herr
  have h1 : Y * b ≤ fl (x * a) b * b := Nat.mul_le_mul_right b hF
  -- the distance
  have hd : W ≤ Z - x := Nat.le_of_dvd (by omega) (Nat.dvd_sub hz (by rw [← hW]; exact hx))
  have h2 : a * W ≤ a * Z - a * x := by
    rw [← Nat.mul_sub]; exact Nat.mul_le_mul_left _ hd
  have h3 : a * x < a * Z := Nat.mul_lt_mul_of_pos_left hlt ha
  generalize fl (x * a) b = F at *
  rw [Nat.mul_comm x a] at herr hq
  have h4 : 2 * (a * W) ≤ b * U := by omega
  by_cases hl : 53 ≤ Nat.log2 q
  · have hq0 : q ≠ 0 := by intro h0; rw [h0] at hl; simp at hl
    have h5 : U * 2 ^ 52 ≤ q := by
      have : U * 2 ^ 52 = 2 ^ Nat.log2 q := by
        rw [← hU]; unfold ulp; rw [← Nat.pow_add]; congr 1; omega
      rw [this]; exact Nat.log2_self_le hq0
    have h6 : b * (U * 2 ^ 52) ≤ a * x := by
      refine Nat.le_trans (Nat.mul_le_mul_left b h5) ?_
      rw [← hq]; exact Nat.mul_div_le _ _
    have h7 : x < W * 2 ^ 53 := by rw [← hW]; exact lt_ulp x
    have h8 : a * x < a * (W * 2 ^ 53) := Nat.mul_lt_mul_of_pos_left h7 ha
    rw [← Nat.mul_assoc] at h6 h8
    omega
  · have hU1 : U = 1 := by rw [← hU]; unfold ulp; rw [show Nat.log2 q - 52 = 0 by omega]
    have h5 : q < 2 ^ 53 := Nat.lt_of_lt_of_le Nat.lt_log2_self (Nat.pow_le_pow_right (by omega) (by omega))
    have h6 : a * x < b * (q + 1) := by rw [← hq]; exact Nat.lt_mul_div_succ _ hb
    have h7 : b * (q + 1) ≤ b * 2 ^ 53 := Nat.mul_le_mul_left _ h5
    have h8 : 2 ^ 54 * b ≤ Y * b := Nat.mul_le_mul_right b hY
    rw [hU1] at herr
    omega

theorem one_pos : 0 < one := Nat.two_pow_pos _

/-- What separates doubles up to 2^53 divides all whole numbers. -/
theorem ulp_dvd_one {v : Nat} (h : v < 2 ^ 53 * one) : ulp v ∣ one := by
  unfold ulp one at *
  rw [← Nat.pow_add] at h
  by_cases h0 : v = 0
  · subst h0; simp
  · have := (Nat.log2_lt h0).2 h
    exact Nat.pow_dvd_pow 2 (by omega)

/-- Whole numbers up to 2^53 are doubles. -/
theorem double_whole {n : Nat} (h : n < 2 ^ 53) : Double (n * one) :=
  Nat.dvd_trans (ulp_dvd_one (Nat.mul_lt_mul_of_pos_right h one_pos)) (Nat.dvd_mul_left _ _)

theorem one_big : 2 ^ 54 ≤ one := Nat.pow_le_pow_right (by omega) (by omega)

/-- The seconds are those of the number: the quotient, rounded, does not reach the next second. -/
theorem sec_eq {v u : Nat} (hu : 0 < u) (hu9 : u ≤ 2 ^ 30) (hv : Double v) (hlt : v ≤ 2 ^ 52 * one) : fl v u / one = v / (u * one) := by
  have hone := one_pos
  have hbig := one_big
  generalize hk : v / (u * one) = k
  have hpos : 0 < u * one := Nat.mul_pos hu hone
  have h1 : k * (u * one) ≤ v := by rw [← hk]; exact Nat.div_mul_le_self _ _
  have h2 : v < (k + 1) * (u * one) := by
    rw [← hk, Nat.mul_comm]; exact Nat.lt_mul_div_succ _ hpos
  have hk53 : k < 2 ^ 53 := by
    have h3 : k * one ≤ k * (u * one) := Nat.mul_le_mul_left _ (Nat.le_mul_of_pos_left _ hu)
    refine Nat.lt_of_mul_lt_mul_right (a := one) ?_
    have : 2 ^ 52 * one < 2 ^ 53 * one := Nat.mul_lt_mul_of_pos_right (by decide) hone
    omega
  have h53 : 2 ^ 52 * one < 2 ^ 53 * one := Nat.mul_lt_mul_of_pos_right (by decide) hone
  rw [Nat.div_eq_iff hone]
  have hlo : k * one ≤ fl v u := by
    have := fl_mono (k * one) 1 v u (by omega) hu (by rw [Nat.mul_one, Nat.mul_assoc, Nat.mul_comm one u]; exact h1)
    rwa [fl_of_double (double_whole hk53)] at this
  have hhi : fl v u < (k + 1) * one := by
    have h5 := fl_lt (x := v) (a := 1) (b := u) (Y := (k + 1) * one) (Z := (k + 1) * (u * one)) (by omega) hu hv
      (Nat.dvd_trans (ulp_dvd_one (by omega)) (Nat.dvd_trans (Nat.dvd_mul_left _ _) (Nat.dvd_mul_left _ _))) h2
      (by rw [Nat.one_mul, Nat.mul_assoc, Nat.mul_comm one u])
      (Nat.le_trans hbig (Nat.le_mul_of_pos_left _ (by omega)))
    rwa [Nat.mul_one] at h5
  rw [Nat.add_mul, Nat.one_mul] at hhi
  constructor
  · omega
  · omega

end Strace.Tsf
