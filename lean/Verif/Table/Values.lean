import Verif.Table.Float
import Verif.Table.Spec
/-! What the numbers shown are worth. -/
namespace Strace.Table
open Strace.Base Strace.Time Strace.Count

theorem ns_toNat (t : Ts) (h : Pos t) : (ns t).toNat = t.sec.toNat * 1000000000 + t.nsec.toNat := by
  obtain ⟨hn, hs⟩ := h
  unfold Norm at hn
  unfold ns
  omega

theorem nsec_lt (t : Ts) (h : Pos t) : t.nsec.toNat < 1000000000 := by
  obtain ⟨hn, hs⟩ := h
  unfold Norm at hn
  omega

/-- the part below a second -/
def part (n : Nat) : Nat := fl (n * S * S) (1000000000 * S)

theorem secs_eq (t : Ts) : secs t = fl (t.sec.toNat * S + part t.nsec.toNat) 1 := rfl

theorem part_err (n : Nat) : 2 ^ 53 * (part n * 1000000000) ≤ 2 ^ 53 * (n * S) + n * S + 2 ^ 52 * 1000000000 ∧
    2 ^ 53 * (n * S) ≤ 2 ^ 53 * (part n * 1000000000) + n * S + 2 ^ 52 * 1000000000 := by
  have h := fl_err (n * S * S) (1000000000 * S) (Nat.mul_pos (by omega) S_pos)
  have e : fl (n * S * S) (1000000000 * S) * (1000000000 * S) = part n * 1000000000 * S := by
    unfold part; rw [Nat.mul_assoc (fl _ _)]
  rw [e] at h
  have hp := S_pos
  constructor
  · refine Nat.le_of_mul_le_mul_right ?_ hp
    have := h.1
    simp only [Nat.add_mul, Nat.mul_assoc] at this ⊢
    exact this
  · refine Nat.le_of_mul_le_mul_right ?_ hp
    have := h.2
    simp only [Nat.add_mul, Nat.mul_assoc] at this ⊢
    exact this

theorem part_mono (m n : Nat) (h : m ≤ n) : part m ≤ part n := by
  unfold part
  apply fl_mono _ _ _ _ (Nat.mul_pos (by omega) S_pos) (Nat.mul_pos (by omega) S_pos)
  exact Nat.mul_le_mul_right _ (Nat.mul_le_mul_right _ (Nat.mul_le_mul_right _ h))

theorem part_top : part 1000000000 = S := by decide +kernel

theorem part_zero : part 0 = 0 := by decide +kernel

theorem secs_mono (s t : Ts) (hs : Pos s) (ht : Pos t) (h : ns s ≤ ns t) : secs s ≤ secs t := by
  rw [secs_eq, secs_eq]
  have h1 := ns_toNat s hs
  have h2 := ns_toNat t ht
  have h3 := nsec_lt s hs
  have h4 := nsec_lt t ht
  apply fl_mono _ _ _ _ (by omega) (by omega)
  rw [Nat.mul_one, Nat.mul_one]
  by_cases he : s.sec.toNat = t.sec.toNat
  · rw [he]
    have := part_mono s.nsec.toNat t.nsec.toNat (by omega)
    omega
  · have h5 : s.sec.toNat + 1 ≤ t.sec.toNat := by omega
    have h6 := Nat.mul_le_mul_right S h5
    rw [Nat.add_mul, Nat.one_mul] at h6
    have h7 := part_mono s.nsec.toNat 1000000000 (by omega)
    rw [part_top] at h7
    omega

/-- relative error of a time as a double -/
theorem secs_rel (t : Ts) (h : Pos t) : 2 ^ 51 * (secs t * 1000000000) ≤ 2 ^ 51 * ((ns t).toNat * S) + (ns t).toNat * S ∧
    2 ^ 51 * ((ns t).toNat * S) ≤ 2 ^ 51 * (secs t * 1000000000) + (ns t).toNat * S := by
  rw [ns_toNat t h, secs_eq]
  have h1 := part_err t.nsec.toNat
  have h2 := fl_err (t.sec.toNat * S + part t.nsec.toNat) 1 (by omega)
  rw [Nat.mul_one] at h2
  generalize hx : fl (t.sec.toNat * S + part t.nsec.toNat) 1 = x at h2
  have hy : t.nsec.toNat = 0 → part t.nsec.toNat = 0 := fun e => by rw [e]; exact part_zero
  have hx0 : t.sec.toNat = 0 → t.nsec.toNat = 0 → x = 0 := by
    intro e1 e2
    rw [← hx, e1, e2]
    decide +kernel
  clear hx
  generalize t.sec.toNat = a at *
  generalize t.nsec.toNat = b at *
  generalize part b = y at *
  unfold S at *
  by_cases hz : b = 0
  · have := hy hz
    subst this
    by_cases hz' : a = 0
    · have := hx0 hz' hz
      subst this hz hz'
      simp
    · clear hx0 hy
      omega
  · clear hx0 hy
    omega

/-- the microseconds shown for a time are the nearest -/
theorem micro_near (t : Ts) (h : Pos t) (hs : t.sec < 2 ^ 20) :
    2 * (1000 * near (secs t * 1000000) S) ≤ 2 * (ns t).toNat + 1000 ∧
    2 * (ns t).toNat ≤ 2 * (1000 * near (secs t * 1000000) S) + 1000 := by
  have h1 := secs_rel t h
  have h2 := near_err (secs t * 1000000) S S_pos
  have h3 : (ns t).toNat < 2 ^ 20 * 1000000000 := by
    have := nsec_lt t h
    rw [ns_toNat t h]; omega
  generalize (ns t).toNat = n at *
  generalize near (secs t * 1000000) S = k at *
  generalize secs t = x at *
  unfold S at *
  omega

theorem mul_err (x k : Nat) : 2 ^ 53 * fmul x (k * S) ≤ 2 ^ 53 * (x * k) + x * k + 2 ^ 52 ∧
    2 ^ 53 * (x * k) ≤ 2 ^ 53 * fmul x (k * S) + x * k + 2 ^ 52 := by
  have h := fl_err (x * (k * S)) S S_pos
  have hp := S_pos
  rw [show fl (x * (k * S)) S = fmul x (k * S) from rfl] at h
  generalize fmul x (k * S) = z at *
  constructor
  · refine Nat.le_of_mul_le_mul_right ?_ hp
    have := h.1
    simp only [Nat.add_mul, Nat.mul_assoc] at this ⊢
    exact this
  · refine Nat.le_of_mul_le_mul_right ?_ hp
    have := h.2
    simp only [Nat.add_mul, Nat.mul_assoc] at this ⊢
    exact this

/-- the average shown is the whole microseconds of it, or one less if there is nothing beside them -/
theorem usecs_close (t : Ts) (h : Pos t) (hs : t.sec < 2 ^ 20) :
    (usecs (secs t) = (ns t).toNat / 1000) ∨ ((ns t).toNat % 1000 = 0 ∧ usecs (secs t) + 1 = (ns t).toNat / 1000) := by
  have h1 := secs_rel t h
  have h2 := mul_err (secs t) 1000000
  have h3 : (ns t).toNat < 2 ^ 20 * 1000000000 := by
    have := nsec_lt t h
    rw [ns_toNat t h]; omega
  unfold usecs
  generalize fmul (secs t) (1000000 * S) = z at *
  generalize (ns t).toNat = n at *
  generalize secs t = x at *
  have h4 := Nat.div_mul_le_self z S
  have h5 := Nat.lt_div_mul_add (a := z) S_pos
  generalize z / S = m at *
  unfold S at *
  omega

theorem div_err (x k : Nat) (hk : 0 < k) : 2 ^ 53 * (fdiv x (k * S) * k) ≤ 2 ^ 53 * x + x + 2 ^ 52 * k ∧
    2 ^ 53 * x ≤ 2 ^ 53 * (fdiv x (k * S) * k) + x + 2 ^ 52 * k := by
  have h := fl_err (x * S) (k * S) (Nat.mul_pos hk S_pos)
  have hp := S_pos
  rw [show fl (x * S) (k * S) = fdiv x (k * S) from rfl] at h
  generalize fdiv x (k * S) = z at *
  constructor
  · refine Nat.le_of_mul_le_mul_right ?_ hp
    have := h.1
    simp only [Nat.add_mul, Nat.mul_assoc] at this ⊢
    exact this
  · refine Nat.le_of_mul_le_mul_right ?_ hp
    have := h.2
    simp only [Nat.add_mul, Nat.mul_assoc] at this ⊢
    exact this

/-- the average of all calls -/
theorem mean_close (t : Ts) (h : Pos t) (hs : t.sec < 2 ^ 20) (k : Nat) (hk : 0 < k) (hk' : k < 2 ^ 64) :
    1000 * (usecs (fdiv (secs t) (k * S)) * k) ≤ (ns t).toNat + 1 ∧
    (ns t).toNat ≤ 1000 * (usecs (fdiv (secs t) (k * S)) * k) + 1000 * k + 1 := by
  have h1 := secs_rel t h
  have h2 := div_err (secs t) k hk
  have h6 := mul_err (fdiv (secs t) (k * S)) 1000000
  have h3 : (ns t).toNat < 2 ^ 20 * 1000000000 := by
    have := nsec_lt t h
    rw [ns_toNat t h]; omega
  unfold usecs
  generalize fdiv (secs t) (k * S) = w at *
  generalize fmul w (1000000 * S) = z at *
  generalize (ns t).toNat = n at *
  generalize secs t = x at *
  have h4 := Nat.mul_le_mul_right k (Nat.div_mul_le_self z S)
  have h5 := Nat.mul_le_mul_right k (Nat.le_of_lt (Nat.lt_div_mul_add (a := z) S_pos))
  have h7 := Nat.mul_le_mul_right k h6.1
  have h8 := Nat.mul_le_mul_right k h6.2
  generalize z / S = m at *
  have e1 : m * S * k = m * k * S := by rw [Nat.mul_assoc, Nat.mul_comm S k, Nat.mul_assoc]
  rw [e1] at h4
  rw [Nat.add_mul, e1] at h5
  have e2 : 2 ^ 53 * z * k = 2 ^ 53 * (z * k) := Nat.mul_assoc _ _ _
  have e3 : w * 1000000 * k = w * k * 1000000 := by rw [Nat.mul_assoc, Nat.mul_comm 1000000 k, Nat.mul_assoc]
  simp only [Nat.add_mul, Nat.mul_assoc (2 ^ 53)] at h7 h8
  rw [e3] at h7 h8
  generalize m * k = mk at *
  generalize w * k = wk at *
  generalize z * k = zk at *
  unfold S at *
  clear h6
  omega

/-- the percentage shown is right to a hundredth -/
theorem pct_close (t c : Ts) (ht : Pos t) (hc : Pos c) (hle : ns t ≤ ns c) :
    100 * (near (pct t c * 100) S * (ns c).toNat) ≤ 100 * (10000 * (ns t).toNat) + 51 * (ns c).toNat ∧
    100 * (10000 * (ns t).toNat) ≤ 100 * (near (pct t c * 100) S * (ns c).toNat) + 51 * (ns c).toNat := by
  have hm := secs_mono t c ht hc hle
  have hle' : (ns t).toNat ≤ (ns c).toNat := by omega
  have h1 := secs_rel t ht
  have h2 := secs_rel c hc
  have h3 := mul_err (secs t) 100
  rw [show fmul (secs t) (100 * S) = fmul (100 * S) (secs t) by unfold fmul; rw [Nat.mul_comm]] at h3
  unfold pct
  generalize hp : fmul (100 * S) (secs t) = p at *
  generalize (ns t).toNat = a at *
  generalize (ns c).toNat = b at *
  generalize secs t = x at *
  generalize secs c = y at *
  by_cases hz : p = 0
  · have ha : a = 0 := by
      unfold S at h1
      subst hz
      omega
    simp only [hz, if_true, ha]
    rw [show near (0 * 100) S = 0 by decide +kernel]
    simp
  · simp only [hz, if_false]
    have hy : 0 < y := by
      have : x ≠ 0 := by
        intro h0
        rw [h0] at hp
        apply hz
        rw [← hp]
        decide +kernel
      omega
    have h4 := fl_err (p * S) y hy
    rw [show fl (p * S) y = fdiv p y from rfl] at h4
    have h5 := near_err (fdiv p y * 100) S S_pos
    clear hp
    generalize fdiv p y = q at *
    generalize near (q * 100) S = n at *
    have h6 := Nat.mul_le_mul_right y h5.1
    have h7 := Nat.mul_le_mul_right y h5.2
    have e1 : n * S * y = n * y * S := by rw [Nat.mul_assoc, Nat.mul_comm S y, Nat.mul_assoc]
    have e2 : q * 100 * y = q * y * 100 := by rw [Nat.mul_assoc, Nat.mul_comm 100 y, Nat.mul_assoc]
    rw [Nat.add_mul, Nat.mul_assoc 2, Nat.mul_assoc 2, e1, e2] at h6 h7
    have h8 := Nat.mul_le_mul_right n h2.1
    have h9 := Nat.mul_le_mul_right n h2.2
    have e3 : y * 1000000000 * n = n * y * 1000000000 := by rw [Nat.mul_right_comm, Nat.mul_comm y n]
    have e4 : b * S * n = n * b * S := by rw [Nat.mul_right_comm, Nat.mul_comm b n]
    simp only [Nat.add_mul, Nat.mul_assoc (2 ^ 51)] at h8 h9
    rw [e3, e4] at h8 h9
    clear h5
    generalize n * y = ny at *
    generalize q * y = qy at *
    generalize n * b = nb at *
    unfold S at *
    omega

end Strace.Table
