import Verif.Time.Model
import Verif.StringToUint.Props
/-
C14: time arithmetic agrees with integer arithmetic on nanoseconds.
C55: clock ticks.  C59: time constants on the command line.
-/
namespace Strace.Time
open Strace.Base Strace.StringToUint

/-- Specification: the time stamp as a number of nanoseconds. -/
def ns (a : Ts) : Int := a.sec * 1000000000 + a.nsec

/-- Specification: a normalised time stamp. -/
def Norm (a : Ts) : Prop := 0 ≤ a.nsec ∧ a.nsec < 1000000000

/-- the seconds fit `time_t` -/
def Fits (x : Int) : Prop := -(2 ^ 63 : Int) ≤ x ∧ x < 2 ^ 63

theorem i64_eq_some {x y : Int} : i64 x = some y ↔ Fits x ∧ x = y := by
  unfold i64 Fits
  split
  · rename_i h
    rw [Option.some.injEq]
    exact ⟨fun e => ⟨h, e⟩, fun e => e.2⟩
  · rename_i h
    exact ⟨fun e => (by cases e), fun e => absurd e.1 h⟩

theorem i64_fits {x : Int} (h : Fits x) : i64 x = some x := i64_eq_some.2 ⟨h, rfl⟩

/-- A normalised time stamp is determined by its nanoseconds. -/
theorem ns_inj {a b : Ts} (ha : Norm a) (hb : Norm b) (h : ns a = ns b) : a = b := by
  obtain ⟨as, an⟩ := a; obtain ⟨bs, bn⟩ := b
  unfold Norm at ha hb; unfold ns at h
  dsimp only at ha hb h
  have : as = bs := by omega
  have : an = bn := by omega
  subst_vars; rfl

/-- C14, comparison -/
theorem tsCmp_spec (a b : Ts) (ha : Norm a) (hb : Norm b) :
    (tsCmp a b < 0 ↔ ns a < ns b) ∧ (tsCmp a b = 0 ↔ ns a = ns b) ∧ (tsCmp a b > 0 ↔ ns a > ns b) := by
  unfold Norm at ha hb
  unfold tsCmp ns
  split
  · refine ⟨⟨fun _ => ?_, fun _ => by decide⟩, ⟨fun h => by simp at h, fun h => ?_⟩, ⟨fun h => by simp at h, fun h => ?_⟩⟩ <;> omega
  · split
    · refine ⟨⟨fun h => by simp at h, fun _ => ?_⟩, ⟨fun h => by simp at h, fun h => ?_⟩, ⟨fun h => ?_, fun h => by decide⟩⟩ <;> omega
    · refine ⟨⟨fun h => by simp at h, fun _ => ?_⟩, ⟨fun h => ?_, fun h => rfl⟩, ⟨fun h => by simp at h, fun h => ?_⟩⟩ <;> omega

/-- the comparison yields only -1, 0 and 1 -/
theorem tsCmp_range (a b : Ts) : tsCmp a b = -1 ∨ tsCmp a b = 0 ∨ tsCmp a b = 1 := by
  unfold tsCmp; split
  · exact Or.inl rfl
  · split
    · exact Or.inr (Or.inr rfl)
    · exact Or.inr (Or.inl rfl)

/-- C14, non-zero test -/
theorem tsNz_spec (a : Ts) (ha : Norm a) : tsNz a = true ↔ ns a ≠ 0 := by
  unfold Norm at ha; unfold tsNz ns; simp; omega

/-- C14, addition: exact and normalised whenever the seconds (with the carry) fit. -/
theorem tsAdd_spec (a b : Ts) (ha : Norm a) (hb : Norm b) (h0 : Fits (a.sec + b.sec))
    (h1 : Fits (a.sec + b.sec + 1)) : ∃ t, tsAdd a b = some t ∧ Norm t ∧ ns t = ns a + ns b := by
  unfold Norm at ha hb
  have hn : Fits (a.nsec + b.nsec) := by unfold Fits; omega
  unfold tsAdd
  rw [i64_fits h0, i64_fits hn]
  dsimp only [Option.bind_eq_bind, Option.bind_some]
  split
  · rw [i64_fits h1]
    refine ⟨_, rfl, ?_, ?_⟩
    · unfold Norm; dsimp only; omega
    · unfold ns; dsimp only; omega
  · refine ⟨_, rfl, ?_, ?_⟩
    · unfold Norm; dsimp only; omega
    · unfold ns; dsimp only; omega

/-- C14, subtraction, in either order of the operands. -/
theorem tsSub_spec (a b : Ts) (ha : Norm a) (hb : Norm b) (h0 : Fits (a.sec - b.sec))
    (h1 : Fits (a.sec - b.sec - 1)) : ∃ t, tsSub a b = some t ∧ Norm t ∧ ns t = ns a - ns b := by
  unfold Norm at ha hb
  have hn : Fits (a.nsec - b.nsec) := by unfold Fits; omega
  unfold tsSub
  rw [i64_fits h0, i64_fits hn]
  dsimp only [Option.bind_eq_bind, Option.bind_some]
  split
  · rw [i64_fits h1]
    refine ⟨_, rfl, ?_, ?_⟩
    · unfold Norm; dsimp only; omega
    · unfold ns; dsimp only; omega
  · refine ⟨_, rfl, ?_, ?_⟩
    · unfold Norm; dsimp only; omega
    · unfold ns; dsimp only; omega

/-- C14: time stamps whose difference is shown came from the kernel's clocks (non-negative seconds):
no overflow is possible at all. -/
theorem tsSub_clock (a b : Ts) (ha : Norm a) (hb : Norm b) (hsa : 0 ≤ a.sec) (hsb : 0 ≤ b.sec)
    (hfa : Fits a.sec) (hfb : Fits b.sec) :
    ∃ t, tsSub a b = some t ∧ Norm t ∧ ns t = ns a - ns b := by
  unfold Fits at *
  exact tsSub_spec a b ha hb (by unfold Fits; omega) (by unfold Fits; omega)

/-- C14, division: the nanoseconds are divided with rounding to nearest (half up), exactly, as long as
the intermediate product fits 64 bits. -/
theorem tsDiv_spec_partial (a : Ts) (n : Nat) (ha : Norm a) (hs : 0 ≤ a.sec) (hf : Fits a.sec) (hn : 0 < n)
    (hov : (a.sec.toNat % n) * 1000000000 + 1000000000 + n / 2 < 2 ^ 64) :
    ∃ t, tsDiv a n = some t ∧ Norm t ∧ ns t = (ns a + n / 2) / n := by
  obtain ⟨s, m⟩ := a
  unfold Norm at ha; unfold Fits at hf
  dsimp only at ha hs hf hov
  obtain ⟨s, rfl⟩ := Int.eq_ofNat_of_zero_le hs
  obtain ⟨m, rfl⟩ := Int.eq_ofNat_of_zero_le ha.1
  have hm : m < 1000000000 := by omega
  have hs63 : s < 2 ^ 63 := by omega
  simp only [Int.toNat_natCast] at hov
  unfold tsDiv
  rw [if_neg (by omega)]
  dsimp only
  have e1 : (((s : Nat) : Int) % 2 ^ 64).toNat = s := by omega
  have e2 : (((m : Nat) : Int) % 2 ^ 64).toNat = m := by omega
  rw [e1, e2]
  have e3 : (s % n * 1000000000 + m + n / 2) % 2 ^ 64 = s % n * 1000000000 + m + n / 2 :=
    Nat.mod_eq_of_lt (by omega)
  rw [e3]
  generalize hX : s % n * 1000000000 + m + n / 2 = X
  -- the quotient is small
  have hXn : X / n ≤ 1000000000 := by
    have hr : s % n < n := Nat.mod_lt _ hn
    apply Nat.lt_succ_iff.1
    rw [Nat.div_lt_iff_lt_mul hn]
    have : (s % n + 1) * 1000000000 ≤ n * 1000000000 := Nat.mul_le_mul_right _ hr
    omega
  have hfin : (s * 1000000000 + m + n / 2) / n = s / n * 1000000000 + X / n := by
    have hX' : s * 1000000000 + m + n / 2 = s / n * 1000000000 * n + X := by
      have := Nat.div_add_mod s n
      rw [← hX]
      calc s * 1000000000 + m + n / 2 = (n * (s / n) + s % n) * 1000000000 + m + n / 2 := by rw [this]
        _ = n * (s / n) * 1000000000 + s % n * 1000000000 + m + n / 2 := by rw [Nat.add_mul]
        _ = s / n * 1000000000 * n + (s % n * 1000000000 + m + n / 2) := by
          rw [show n * (s / n) * 1000000000 = s / n * 1000000000 * n by
            rw [Nat.mul_comm n, Nat.mul_assoc, Nat.mul_comm n, ← Nat.mul_assoc]]
          omega
    rw [hX', Nat.mul_comm _ n, Nat.mul_add_div hn]
  have h1 : n = 1 → X / n < 1000000000 := by
    intro h
    rw [← hX, h, Nat.div_one, Nat.mod_one]
    rw [Nat.zero_mul, Nat.zero_add]
    exact hm
  generalize X / n = Y at hXn hfin h1 ⊢
  have e4 : toSigned Y = ((Y : Nat) : Int) := by
    unfold toSigned; rw [if_pos (by omega)]
  rw [e4]
  have e5 : Int.tdiv ((Y : Nat) : Int) 1000000000 = ((Y / 1000000000 : Nat) : Int) := rfl
  have e6 : Int.tmod ((Y : Nat) : Int) 1000000000 = ((Y % 1000000000 : Nat) : Int) := rfl
  rw [e5, e6]
  have e7 : (((Y / 1000000000 : Nat) : Int) % 2 ^ 64).toNat = Y / 1000000000 := by omega
  rw [e7]
  have hq : s / n ≤ s := Nat.div_le_self _ _
  have hlt : s / n + Y / 1000000000 < 2 ^ 63 := by
    -- if n = 1 the quotient carries at most when X reaches 1e9, impossible
    by_cases hn1 : n = 1
    · have := h1 hn1
      omega
    · have : s / n ≤ s / 2 := Nat.div_le_div_left (by omega) (by omega)
      omega
  refine ⟨_, rfl, ?_, ?_⟩
  · unfold Norm; dsimp only; omega
  · unfold ns
    dsimp only
    have e8 : toSigned ((s / n + Y / 1000000000) % 2 ^ 64) = ((s / n + Y / 1000000000 : Nat) : Int) := by
      rw [Nat.mod_eq_of_lt (by omega)]
      unfold toSigned; rw [if_pos (by omega)]
    rw [e8]
    have e9 : ((s : Int) * 1000000000 + (m : Int) + (n : Int) / 2) / (n : Int)
        = (((s * 1000000000 + m + n / 2) / n : Nat) : Int) := by
      simp only [Int.natCast_ediv, Int.natCast_add, Int.natCast_mul]; rfl
    show _ = ((s : Int) * 1000000000 + (m : Int) + (n : Int) / 2) / (n : Int)
    rw [e9, hfin]
    omega

/-- the hypothesis on the product is met e.g. by all sums up to 10^10 seconds (317 years) and any
number of calls below 2^62 -/
example (a : Ts) (n : Nat) (h : 0 ≤ a.sec ∧ a.sec < 10000000000) (hn : n < 2 ^ 62) (h0 : 0 < n) :
    (a.sec.toNat % n) * 1000000000 + 1000000000 + n / 2 < 2 ^ 64 := by
  have h1 : a.sec.toNat % n ≤ a.sec.toNat := Nat.mod_le _ _
  omega
/-- beyond it the product wraps: 2^34+2^33 s over 2^60 calls -/
theorem tsDiv_wraps : ∃ t, tsDiv ⟨2 ^ 35, 0⟩ (2 ^ 60) = some t ∧ ns t ≠ (ns ⟨2 ^ 35, 0⟩ + 2 ^ 59) / 2 ^ 60 :=
  ⟨⟨0, 14⟩, by decide +kernel, by decide +kernel⟩

/-- C14, minimum and maximum -/
theorem tsMin_spec (a b : Ts) (ha : Norm a) (hb : Norm b) :
    (tsMin a b = a ∨ tsMin a b = b) ∧ ns (tsMin a b) = min (ns a) (ns b) := by
  have h := tsCmp_spec a b ha hb
  unfold tsMin
  split
  · refine ⟨Or.inl rfl, ?_⟩; have := h.1.1 (by assumption); omega
  · refine ⟨Or.inr rfl, ?_⟩
    have : ¬ ns a < ns b := fun hh => by have := h.1.2 hh; omega
    omega

theorem tsMax_spec (a b : Ts) (ha : Norm a) (hb : Norm b) :
    (tsMax a b = a ∨ tsMax a b = b) ∧ ns (tsMax a b) = max (ns a) (ns b) := by
  have h := tsCmp_spec a b ha hb
  unfold tsMax
  split
  · refine ⟨Or.inl rfl, ?_⟩; have := h.2.2.1 (by assumption); omega
  · refine ⟨Or.inr rfl, ?_⟩
    have : ¬ ns a > ns b := fun hh => by have := h.2.2.2 hh; omega
    omega

/-- 1.9 s + 0.2 s, and 0.2 s - 1.9 s -/
example : tsAdd ⟨1, 900000000⟩ ⟨0, 200000000⟩ = some ⟨2, 100000000⟩ ∧
    tsSub ⟨0, 200000000⟩ ⟨1, 900000000⟩ = some ⟨-2, 300000000⟩ ∧
    tsDiv ⟨10, 5⟩ 3 = some ⟨3, 333333335⟩ := by decide +kernel

/-! ### C59 -/

/-- Specification: nanoseconds in a unit suffix: none is microseconds; letters in either case. -/
def unitNs (u : List Nat) : Option Nat :=
  match u.map (fun c => if 65 ≤ c ∧ c ≤ 90 then c + 32 else c) with
  | [] => some 1000
  | [115] => some 1000000000
  | [109, 115] => some 1000000
  | [117, 115] => some 1000
  | [110, 115] => some 1
  | _ => none

theorem timescaleSfx_eq (u : List Nat) : timescaleSfx u = unitNs u := by
  unfold timescaleSfx unitNs
  have hm : u.map (fun c => if 65 ≤ c ∧ c ≤ 90 then c + 32 else c) = u.map lower := rfl
  rw [hm]
  by_cases h : u = []
  · subst h; rfl
  rw [if_neg h]
  have hne : u.map lower ≠ [] := by simpa using h
  have hc : ∀ x : Nat × List Nat, caseEq x.2 u = (x.2.map lower == u.map lower) := fun x => rfl
  simp only [hc]
  generalize u.map lower = w at hne ⊢
  unfold units
  simp only [List.find?_cons, List.find?_nil]
  have l1 : [115].map lower = [115] := by decide
  have l2 : [109, 115].map lower = [109, 115] := by decide
  have l3 : [117, 115].map lower = [117, 115] := by decide
  have l4 : [110, 115].map lower = [110, 115] := by decide
  rw [l1, l2, l3, l4]
  by_cases h1 : w = [115]
  · subst h1; rfl
  by_cases h2 : w = [109, 115]
  · subst h2; rfl
  by_cases h3 : w = [117, 115]
  · subst h3; rfl
  by_cases h4 : w = [110, 115]
  · subst h4; rfl
  have b1 : ([115] == w) = false := by simpa using fun h => h1 h.symm
  have b2 : ([109, 115] == w) = false := by simpa using fun h => h2 h.symm
  have b3 : ([117, 115] == w) = false := by simpa using fun h => h3 h.symm
  have b4 : ([110, 115] == w) = false := by simpa using fun h => h4 h.symm
  rw [b1, b2, b3, b4]
  dsimp only [Option.map_none]
  split <;> first | rfl | contradiction

/-- C59.  A time written as an integer (in the sense of C01) with an optional unit is accepted iff the
unit is a known one, and denotes exactly that many units; anything else is rejected. -/
theorem parseTs_int_iff (fl : List Nat → Option Ts) (s : List Nat) (t : Ts)
    (hint : strspn s floatAccept ≤ strspn s intAccept) :
    parseTs fl s = some t ↔
      ∃ (v scale : Nat) (u : List Nat), Accepts s (2 ^ 63 - 1) [115, 109, 117, 110] v u ∧
        unitNs u = some scale ∧ Norm t ∧ ns t = v * scale := by
  have key : ∀ (v scale : Nat) (u : List Nat), unitNs u = some scale →
      Norm ⟨(v : Int).tdiv (1000000000 / scale : Nat), (v : Int).tmod (1000000000 / scale : Nat) * scale⟩ ∧
      ns ⟨(v : Int).tdiv (1000000000 / scale : Nat), (v : Int).tmod (1000000000 / scale : Nat) * scale⟩ = v * scale := by
    intro v scale u hu
    have hs : scale = 1000 ∨ scale = 1000000000 ∨ scale = 1000000 ∨ scale = 1 := by
      unfold unitNs at hu
      split at hu <;> first | (injection hu with hu; omega) | cases hu
    have e1 : ∀ k : Nat, (v : Int).tdiv (k : Nat) = ((v / k : Nat) : Int) := fun k => rfl
    have e2 : ∀ k : Nat, (v : Int).tmod (k : Nat) = ((v % k : Nat) : Int) := fun k => rfl
    rw [e1, e2]
    unfold Norm ns
    dsimp only
    rcases hs with rfl | rfl | rfl | rfl <;> simp <;> omega
  unfold parseTs
  rw [if_neg (by omega)]
  have hmax : llongMax = 2 ^ 63 - 1 := rfl
  constructor
  · intro h
    cases hc : stringToUintEx s llongMax (some [115, 109, 117, 110]) with
    | none => rw [hc] at h; cases h
    | some p =>
      obtain ⟨v, e⟩ := p
      rw [hc] at h
      dsimp only at h
      obtain ⟨n, rfl, ha⟩ := (stringToUintEx_iff _ _ _ _ _).1 hc
      rw [timescaleSfx_eq] at h
      cases hu : unitNs e with
      | none => rw [hu] at h; cases h
      | some scale =>
        rw [hu] at h
        dsimp only at h
        injection h with h
        subst h
        exact ⟨n, scale, e, ha, hu, key n scale e hu⟩
  · rintro ⟨v, scale, u, ha, hu, hn, hns⟩
    have := (stringToUintEx_iff s llongMax (some [115, 109, 117, 110]) v u).2 ⟨v, rfl, ha⟩
    rw [this]
    dsimp only
    rw [timescaleSfx_eq, hu]
    dsimp only
    have hk := key v scale u hu
    rw [ns_inj hk.1 hn (by rw [hk.2, hns])]

/-- "1500ms" -/
example : parseTs (fun _ => none) [49, 53, 48, 48, 109, 115] = some ⟨1, 500000000⟩ := by decide +kernel
/-- "7" -/
example : parseTs (fun _ => none) [55] = some ⟨0, 7000⟩ := by decide +kernel

/-! ### C55 -/

/-- `ilog10` is the number of decimal digits less one, for every 64-bit value. -/
theorem ilog10_spec (v : Nat) (h0 : 0 < v) (h : v < 2 ^ 64) : 10 ^ ilog10 v ≤ v ∧ v < 10 ^ (ilog10 v + 1) := by
  -- invariant of the steps: v / 10^ret = current value
  have step : ∀ (val ret pow : Nat), 10 ^ ret * val ≤ v ∧ v < 10 ^ ret * (val + 1) → 0 < val →
      val < 10 ^ (2 * pow) →
      let s := ilogIter (val, ret) (10 ^ pow) pow
      10 ^ s.2 * s.1 ≤ v ∧ v < 10 ^ s.2 * (s.1 + 1) ∧ 0 < s.1 ∧ s.1 < 10 ^ pow := by
    intro val ret pow hi hpos hlt
    have hp : 0 < 10 ^ pow := Nat.pow_pos (by decide)
    unfold ilogIter
    by_cases hd : val ≥ 10 ^ pow
    · rw [if_pos hd]
      dsimp only
      have hm1 : 10 ^ pow * (val / 10 ^ pow) ≤ val := Nat.mul_div_le _ _
      have hm2 : val < 10 ^ pow * (val / 10 ^ pow + 1) := Nat.lt_mul_div_succ val hp
      refine ⟨?_, ?_, Nat.div_pos hd hp, ?_⟩
      · rw [Nat.pow_add, Nat.mul_assoc]
        exact Nat.le_trans (Nat.mul_le_mul_left _ hm1) hi.1
      · rw [Nat.pow_add, Nat.mul_assoc]
        exact Nat.lt_of_lt_of_le hi.2 (Nat.mul_le_mul_left _ hm2)
      · rw [Nat.div_lt_iff_lt_mul hp, ← Nat.pow_add]
        rw [show pow + pow = 2 * pow by omega]; exact hlt
    · rw [if_neg hd]
      exact ⟨hi.1, hi.2, hpos, by omega⟩
  have s1 := step v 0 16 (by simp) h0 (by omega)
  generalize hA : ilogIter (v, 0) (10 ^ 16) 16 = A at s1
  obtain ⟨a, ra⟩ := A
  dsimp only at s1
  have s2 := step a ra 8 ⟨s1.1, s1.2.1⟩ s1.2.2.1 s1.2.2.2
  generalize hB : ilogIter (a, ra) (10 ^ 8) 8 = B at s2
  obtain ⟨b, rb⟩ := B
  dsimp only at s2
  have s3 := step b rb 4 ⟨s2.1, s2.2.1⟩ s2.2.2.1 s2.2.2.2
  generalize hC : ilogIter (b, rb) (10 ^ 4) 4 = C at s3
  obtain ⟨c, rc⟩ := C
  dsimp only at s3
  have s4 := step c rc 2 ⟨s3.1, s3.2.1⟩ s3.2.2.1 s3.2.2.2
  generalize hD : ilogIter (c, rc) (10 ^ 2) 2 = D at s4
  obtain ⟨d, rd⟩ := D
  dsimp only at s4
  have s5 := step d rd 1 ⟨s4.1, s4.2.1⟩ s4.2.2.1 s4.2.2.2
  generalize hE : ilogIter (d, rd) (10 ^ 1) 1 = E at s5
  obtain ⟨e, re⟩ := E
  dsimp only at s5
  have hres : ilog10 v = re := by
    unfold ilog10
    rw [show (10000000000000000 : Nat) = 10 ^ 16 by rfl, hA, show (100000000 : Nat) = 10 ^ 8 by rfl, hB,
      show (10000 : Nat) = 10 ^ 4 by rfl, hC, show (100 : Nat) = 10 ^ 2 by rfl, hD,
      show (10 : Nat) = 10 ^ 1 by rfl, hE]
  rw [hres]
  constructor
  · exact Nat.le_trans (Nat.le_mul_of_pos_right _ s5.2.2.1) s5.1
  · rw [Nat.pow_succ]
    exact Nat.lt_of_lt_of_le s5.2.1 (Nat.mul_le_mul_left _ (by omega))

/-- A decimal fraction text "A.B s" (A, B digit strings, B not empty) denotes `num / 10^k`. -/
def Denotes (text : List Nat) (num k : Nat) : Prop :=
  ∃ A B, text = A ++ [46] ++ B ++ [32, 115] ∧ A ≠ [] ∧ B.length = k ∧
    (∀ c ∈ A ++ B, 48 ≤ c ∧ c ≤ 57) ∧ readDec (A ++ B) = num

/-- C55: when the tick rate is a power of ten (as on Linux, 100, and for the millisecond values of
traffic control, 1000) the comment denotes the tick count divided by the rate, exactly. -/
theorem ticksComment_exact_partial (val p : Nat) (hp : 0 < p) (hv : 0 < val) :
    ∃ text, ticksComment false val ((10 ^ p : Nat) : Int) p = some text ∧ Denotes text val p := by
  have hpos : 0 < 10 ^ p := Nat.pow_pos (by decide)
  unfold ticksComment
  rw [if_pos ⟨rfl, by omega, hv⟩]
  refine ⟨_, rfl, dec (val / 10 ^ p), decPad p (val % 10 ^ p), ?_, dec_ne_nil _, ?_, ?_, ?_⟩
  · rw [Int.toNat_natCast]
  · exact decPad_length _ _ hp (Nat.mod_lt _ hpos)
  · intro c hc
    rcases List.mem_append.1 hc with h | h
    · exact dec_digit _ c h
    · exact decPad_digit _ _ c h
  · rw [readDec_append, readDec_dec, readDec_decPad, decPad_length _ _ hp (Nat.mod_lt _ hpos)]
    exact Nat.div_add_mod' _ _

/-- C55 for signed counts -/
theorem ticksDComment_exact_partial (val : Int) (p : Nat) (hp : 0 < p) (hv : val ≠ 0) :
    ∃ text, ticksDComment false val ((10 ^ p : Nat) : Int) p = some ((if val < 0 then [45] else []) ++ text) ∧
      Denotes text val.natAbs p := by
  have hpos : 0 < 10 ^ p := Nat.pow_pos (by decide)
  have hgt : (1 : Int) < ((10 ^ p : Nat) : Int) := by
    have : 10 ^ 1 ≤ 10 ^ p := Nat.pow_le_pow_right (by decide) hp
    omega
  unfold ticksDComment
  rw [if_pos ⟨rfl, hgt, hv⟩]
  have e1 : (val.tdiv ((10 ^ p : Nat) : Int)).natAbs = val.natAbs / 10 ^ p := by
    rw [Int.natAbs_tdiv]; rfl
  have e2 : (val.tmod ((10 ^ p : Nat) : Int)).natAbs = val.natAbs % 10 ^ p := by
    rw [Int.natAbs_tmod]; rfl
  rw [e1, e2]
  refine ⟨dec (val.natAbs / 10 ^ p) ++ [46] ++ decPad p (val.natAbs % 10 ^ p) ++ [32, 115], ?_,
    dec (val.natAbs / 10 ^ p), decPad p (val.natAbs % 10 ^ p), ?_, dec_ne_nil _, ?_, ?_, ?_⟩
  · simp
  · simp
  · exact decPad_length _ _ hp (Nat.mod_lt _ hpos)
  · intro c hc
    rcases List.mem_append.1 hc with h | h
    · exact dec_digit _ c h
    · exact decPad_digit _ _ c h
  · rw [readDec_append, readDec_dec, readDec_decPad, decPad_length _ _ hp (Nat.mod_lt _ hpos)]
    exact Nat.div_add_mod' _ _

/-- C55 for `clock_t` values on a system with 100 ticks per second. -/
theorem clockComment_100 (val : Nat) (hv : 0 < val) :
    ∃ text, clockComment false val 100 = some text ∧ Denotes text val 2 :=
  ticksComment_exact_partial val 2 (by decide) hv

/-- Finding: on a system with 1024 ticks per second (alpha, ia64) 512 ticks are shown as
"0.512 s" although they are half a second, and 1023 ticks as "0.1023 s". -/
theorem clockComment_1024_wrong :
    clockComment false 512 1024 = some [48, 46, 53, 49, 50, 32, 115] ∧
    clockComment false 1023 1024 = some [48, 46, 49, 48, 50, 51, 32, 115] := by decide +kernel

/-- 150 ticks of 1/100 s are "1.50 s" -/
example : clockComment false 150 100 = some [49, 46, 53, 48, 32, 115] := by decide +kernel

end Strace.Time
